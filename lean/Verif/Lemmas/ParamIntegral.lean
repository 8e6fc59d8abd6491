import Mathlib.Analysis.Calculus.ParametricIntervalIntegral
import Mathlib.Topology.Order.Compact

/-! Derivatives of integrals over the unit interval in a parameter. -/

namespace Polymers.Lemmas

open MeasureTheory Set Filter Topology

theorem hasDerivAt_param {g g' : ℝ → ℝ → ℝ} (hc : Continuous (Function.uncurry g)) (hc' : Continuous (Function.uncurry g'))
    (hd : ∀ x t, HasDerivAt (fun x => g x t) (g' x t) x) (x₀ : ℝ) :
    HasDerivAt (fun x => ∫ t in (0 : ℝ)..1, g x t) (∫ t in (0 : ℝ)..1, g' x₀ t) x₀ := by
  have hK : IsCompact (Icc (x₀ - 1) (x₀ + 1) ×ˢ Icc (0 : ℝ) 1) := isCompact_Icc.prod isCompact_Icc
  obtain ⟨C, hC⟩ := hK.exists_bound_of_continuousOn hc'.continuousOn
  have hcx : ∀ x, Continuous (g x) := fun x => hc.comp (by fun_prop : Continuous fun t : ℝ => (x, t))
  have hcx' : ∀ x, Continuous (g' x) := fun x => hc'.comp (by fun_prop : Continuous fun t : ℝ => (x, t))
  refine (intervalIntegral.hasDerivAt_integral_of_dominated_loc_of_deriv_le (bound := fun _ => C)
    (s := Icc (x₀ - 1) (x₀ + 1)) (Icc_mem_nhds (by linarith) (by linarith)) ?_ ?_ ?_ ?_ ?_ ?_).2
  · exact .of_forall fun x => (hcx x).aestronglyMeasurable
  · exact (hcx x₀).intervalIntegrable _ _
  · exact (hcx' x₀).aestronglyMeasurable
  · refine .of_forall fun t ht x hx => hC (x, t) ⟨hx, ?_⟩
    rw [uIoc_of_le zero_le_one] at ht
    exact ⟨ht.1.le, ht.2⟩
  · exact intervalIntegrable_const
  · exact .of_forall fun t _ x _ => hd x t

end Polymers.Lemmas
