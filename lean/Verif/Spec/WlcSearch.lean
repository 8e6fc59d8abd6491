import Verif.Spec.Ensembles
import Verif.Model.Math
import Verif.Model.SReal

/-! Specification: the search every isotensional worm-like chain method begins with. -/

namespace Polymers.Spec

open Set

section
variable {α : Type} [Add α] [Sub α] [Mul α] [Div α] [Neg α] [OfScientific α] [NatCast α] [Elem α]

/-- The extension found for the force `η` on the force-extension curve `g`: at most 100 Newton steps, damped by two, from
0.9999, with a central difference for the slope. -/
def wlcSearch (g : α → α) (η : α) : α :=
  math.inverse_newton_raphson_powered η g (fun γ => (g (γ + 1e-8) - g (γ - 1e-8)) / 2e-8) 0.9999 1e-5 100 2

end

/-- The search succeeds: it ends at an extension between zero and one. -/
def SearchSucceeds (p : ForceMethods) (η : ℝ) : Prop := ∀ T, wlcSearch (fun γ => p.nd_force γ T) η ∈ Icc (0:ℝ) 1

/-- The search succeeds, in arithmetic with failures: it ends, at an extension between zero and one. -/
def SearchFinds (g : SReal → SReal) (η : SReal) : Prop := ∃ x ∈ Icc (0:ℝ) 1, wlcSearch g η = SReal.val x

end Polymers.Spec
