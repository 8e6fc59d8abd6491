import Verif.Lemmas.Defined
import Verif.Spec.ApiDefined
import Verif.Spec.Api
import Verif.Props.DefinedBessel
import Verif.Props.EfjcExact
import Verif.Props.ErrorFunction
import Verif.Props.DefinedMorse

/-! Definedness (C46) of the error function and of the extensible chain at fixed force. -/

namespace Polymers.Props

open Polymers.Spec Polymers.SReal Polymers.math Polymers.Lemmas Real

set_option maxHeartbeats 2000000

theorem is_horner {l : List SReal} {l' : List ℝ} (h : List.Forall₂ Is l l') {t' : SReal} {t : ℝ} (ht : Is t' t) :
    Is (horner t' l) (horner t l') := by
  induction h with
  | nil => exact .lit _ _ _
  | cons h hs ih =>
    cases hs with
    | nil => exact h
    | cons _ _ => exact .add h (.mul ih ht)

/-- One row of the table of the scaled complementary error function. -/
def RowIs (a : SReal × List SReal) (b : ℝ × List ℝ) : Prop := Is a.1 b.1 ∧ List.Forall₂ Is a.2 b.2

theorem erfcx_table_is : List.Forall₂ RowIs (erfcx_table : List (SReal × List SReal)) (erfcx_table : List (ℝ × List ℝ)) := by
  unfold erfcx_table
  repeat (first | exact .nil | refine .cons ⟨.lit _ _ _, ?_⟩ ?_ | refine .cons (.lit _ _ _) ?_ | refine .cons (Is.lit _ _ _).neg ?_)

theorem is_erfcx_helper {z' : SReal} {z : ℝ} (hz : Is z' z) : Is (erfcx_helper z') (erfcx_helper z) := by
  have h := erfcx_table_is
  have e : Elem.toNat 255 z' = Elem.toNat 255 z := by rw [show z' = val z from hz]; rfl
  unfold erfcx_helper
  rw [e]
  generalize Elem.toNat 255 z = n
  have : Option.Rel RowIs (erfcx_table : List (SReal × List SReal))[n]? (erfcx_table : List (ℝ × List ℝ))[n]? := by
    generalize (erfcx_table : List (SReal × List SReal)) = A at h
    generalize (erfcx_table : List (ℝ × List ℝ)) = B at h
    induction h generalizing n with
    | nil => simp only [List.getElem?_nil]; exact .none
    | cons h _ ih =>
      cases n with
      | zero => exact .some h
      | succ n => simpa using ih n
  generalize (erfcx_table : List (SReal × List SReal))[n]? = A at this
  generalize (erfcx_table : List (ℝ × List ℝ))[n]? = B at this
  cases this with
  | none => exact .lit _ _ _
  | some h => exact is_horner h.2 (.sub (.mul (.lit _ _ _) hz) h.1)

theorem is_erfcx {x' : SReal} {x : ℝ} (hx : Is x' x) : Is (erfcx x') (erfcx x) := by
  unfold erfcx
  refine .ite_le (.lit _ _ _) hx (fun h => .ite_le (.lit _ _ _) hx (fun h1 => .ite_lt (.lit _ _ _) hx (fun h2 => ?_) fun h2 => ?_) fun h1 => ?_) fun h => ?_
  · have : 0 < x := by norm_num at *; linarith
    defined [hx]
  · have : 0 < x := by norm_num at *; linarith
    defined [hx]
  · have : 0 < 4.0 + x := by norm_num at *; linarith
    exact is_erfcx_helper (by defined [hx])
  · refine .ite_lt hx (by defined) (fun _ => rfl) fun _ => .ite_lt hx (by defined) (fun _ => by defined [hx]) fun _ => ?_
    have : 0 < 4.0 - x := by norm_num at *; linarith
    exact .sub (by defined [hx]) (is_erfcx_helper (by defined [hx]))

theorem is_erf {x' : SReal} {x : ℝ} (hx : Is x' x) : Is (erf x') (erf x) := by
  unfold erf erfc
  have := is_erfcx hx
  defined [hx, is_erfcx hx]

/-- C46: the error function returns an ordinary number for every argument. -/
theorem C46_erf (x : ℝ) : erf (SReal.val x) = SReal.val (erf x) := is_erf rfl

example : erf (SReal.val 3) = SReal.val (erf 3) := C46_erf 3

theorem errorFunction_mono {a b : ℝ} (_ : a ≤ b) : errorFunction a ≤ errorFunction b := by
  have hc : Continuous fun t : ℝ => exp (-t ^ 2) := by fun_prop
  have e := intervalIntegral.integral_add_adjacent_intervals (hc.intervalIntegrable (μ := MeasureTheory.volume) 0 a) (hc.intervalIntegrable a b)
  have h0 : 0 ≤ ∫ t in a..b, exp (-t ^ 2) := intervalIntegral.integral_nonneg ‹_› fun t _ => (exp_pos _).le
  unfold errorFunction
  rw [← e]
  gcongr
  linarith

theorem erf_lower {x : ℝ} (_h : x ≤ 0) : -errorFunction (-x) - 3e-12 ≤ math.erf x := by
  rcases le_or_gt (-26.7) x with h1 | h1
  · have := abs_le.1 (C10_erf_accuracy h1)
    rw [errorFunction_neg]
    linarith [this.1]
  · have h0 := (C10_erf_negative_failure h1).1
    have h2 : 0 ≤ errorFunction (-x) := by
      have := errorFunction_mono (show (0 : ℝ) ≤ -x by linarith)
      rwa [errorFunction_zero] at this
    norm_num at h0 ⊢
    linarith

theorem efjc_erf_bound {κ η : ℝ} (hκ : 0 < κ) (hη : 0 < η) :
    (η / κ - 1) * math.erf ((η - κ) / √(2 * κ)) ≤ (η / κ + 1) * (errorFunction ((η + κ) / √(2 * κ)) + 3e-12) := by
  have hs : 0 < √(2 * κ) := Real.sqrt_pos.2 (by positivity)
  have hq : 0 < η / κ := by positivity
  have hE : 0 ≤ errorFunction ((η + κ) / √(2 * κ)) := by
    have := errorFunction_mono (show (0 : ℝ) ≤ (η + κ) / √(2 * κ) by positivity)
    rwa [errorFunction_zero] at this
  have hE' : 0 ≤ errorFunction ((η + κ) / √(2 * κ)) + 3e-12 := by positivity
  rcases le_or_gt κ η with h | h
  · have hb : 0 ≤ (η - κ) / √(2 * κ) := div_nonneg (by linarith) hs.le
    have h1 := (abs_le.1 (C10_erf_accuracy (x := (η - κ) / √(2 * κ)) (le_trans (by norm_num) hb))).2
    have h2 := errorFunction_mono (show (η - κ) / √(2 * κ) ≤ (η + κ) / √(2 * κ) by gcongr; linarith)
    have h3 : 1 ≤ η / κ := by rwa [le_div_iff₀ hκ, one_mul]
    calc _ ≤ (η / κ - 1) * (errorFunction ((η + κ) / √(2 * κ)) + 3e-12) := by gcongr; linarith
      _ ≤ _ := by gcongr; linarith
  · have hb : (η - κ) / √(2 * κ) ≤ 0 := div_nonpos_of_nonpos_of_nonneg (by linarith) hs.le
    have h1 := erf_lower hb
    have h2 := errorFunction_mono (show -((η - κ) / √(2 * κ)) ≤ (η + κ) / √(2 * κ) by rw [← neg_div]; gcongr; linarith)
    have h3 : η / κ < 1 := by rwa [div_lt_one hκ]
    calc (η / κ - 1) * math.erf ((η - κ) / √(2 * κ)) = (1 - η / κ) * (-math.erf ((η - κ) / √(2 * κ))) := by ring
      _ ≤ (1 - η / κ) * (errorFunction ((η + κ) / √(2 * κ)) + 3e-12) := by
        refine mul_le_mul_of_nonneg_left ?_ (by linarith); linarith
      _ ≤ _ := by refine mul_le_mul_of_nonneg_right ?_ hE'; linarith

theorem efjcDen_pos {κ η : ℝ} (hκ : 0 < κ) (hη : 0 < η) : 0 < efjcDen κ η := by
  have := sinh_pos_iff.2 hη
  rw [efjcDen_eq]
  have := cosh_pos η
  positivity

/-- The argument of the logarithm of the code is positive for forces above `1e-11`. -/
theorem efjc_half_add {κ η : ℝ} (hκ : 0 < κ) (hη : 1e-11 ≤ η) : 0 < 1 / 2 + efjcNum κ η / efjcDen κ η := by
  have hη0 : 0 < η := by norm_num at hη; linarith
  have hden := efjcDen_pos hκ hη0
  have hq : 0 < η / κ := by positivity
  have hs : 0 < √(2 * κ) := Real.sqrt_pos.2 (by positivity)
  have ha : 0 ≤ (η + κ) / √(2 * κ) := by positivity
  have hE : 0 ≤ errorFunction ((η + κ) / √(2 * κ)) := by
    have := errorFunction_mono ha
    rwa [errorFunction_zero] at this
  have h1 := (abs_le.1 (C10_erf_accuracy (x := (η + κ) / √(2 * κ)) (le_trans (by norm_num) ha))).1
  have h2 := efjc_erf_bound hκ hη0
  have hc := cosh_pos η
  have hep := exp_pos η
  have hen := exp_pos (-η)
  have hee : exp (-η) ≤ exp η := exp_le_exp.2 (by linarith)
  have hch : exp η + exp (-η) = 2 * cosh η := by rw [cosh_eq]; ring
  have hth : 3e-12 * cosh η < sinh η := by
    rcases le_or_gt η 1 with h | h
    · have h3 := self_le_sinh_iff.2 hη0.le
      have h4 : cosh η ≤ cosh 1 := cosh_le_cosh.2 (by rw [abs_of_pos hη0, abs_one]; exact h)
      have h5 : cosh 1 ≤ 3 := by
        rw [cosh_eq]
        have := exp_one_lt_d9
        have : exp (-1 : ℝ) ≤ 1 := by rw [exp_le_one_iff]; norm_num
        linarith
      norm_num at hη ⊢
      linarith
    · have h3 : sinh 1 ≤ sinh η := sinh_le_sinh.2 h.le
      have h4 : (1 : ℝ) ≤ sinh 1 := self_le_sinh_iff.2 (by norm_num)
      have h5 : cosh η - sinh η = exp (-η) := cosh_sub_sinh η
      have h6 : exp (-η) ≤ 1 := by rw [exp_le_one_iff]; linarith
      norm_num
      linarith
  have hnum : -(efjcDen κ η / 2) < efjcNum κ η := by
    have e1 : efjcNum κ η = (η / κ + 1) * exp η * math.erf ((η + κ) / √(2 * κ)) -
        ((η / κ - 1) * math.erf ((η - κ) / √(2 * κ))) * exp (-η) := by
      rw [efjcNum, exp_neg]; field_simp
    have e2 : (η / κ + 1) * exp η * (errorFunction ((η + κ) / √(2 * κ)) - 3e-12) ≤
        (η / κ + 1) * exp η * math.erf ((η + κ) / √(2 * κ)) := by gcongr; linarith
    have e3 : ((η / κ - 1) * math.erf ((η - κ) / √(2 * κ))) * exp (-η) ≤
        ((η / κ + 1) * (errorFunction ((η + κ) / √(2 * κ)) + 3e-12)) * exp (-η) := by gcongr
    have e4 : (η / κ + 1) * exp η * (errorFunction ((η + κ) / √(2 * κ)) - 3e-12) -
        ((η / κ + 1) * (errorFunction ((η + κ) / √(2 * κ)) + 3e-12)) * exp (-η) =
        (η / κ + 1) * (errorFunction ((η + κ) / √(2 * κ)) * (exp η - exp (-η)) - 3e-12 * (2 * cosh η)) := by
      rw [← hch]; ring
    have e5 : 0 ≤ errorFunction ((η + κ) / √(2 * κ)) * (exp η - exp (-η)) := mul_nonneg hE (by linarith)
    have e6 : -((η / κ + 1) * (3e-12 * (2 * cosh η))) ≤ (η / κ + 1) *
        (errorFunction ((η + κ) / √(2 * κ)) * (exp η - exp (-η)) - 3e-12 * (2 * cosh η)) := by
      rw [← mul_neg]; gcongr; linarith
    have e7 : efjcDen κ η / 2 = 2 * sinh η + 2 * (η / κ) * cosh η := by rw [efjcDen_eq]; ring
    have e8 : 3e-12 * (η / κ * cosh η) ≤ η / κ * cosh η := by
      have : 0 < η / κ * cosh η := by positivity
      norm_num; linarith
    rw [e1, e7]
    nlinarith
  rw [div_add_div _ _ (by norm_num) hden.ne']
  exact div_pos (by linarith) (by linarith)

theorem efjc_half_code {κ η : ℝ} (hκ : 0 < κ) (hη : 1e-11 ≤ η) :
    0 < 0.5 + ((η / κ + 1.0) * Elem.exp η * math.erf ((η + κ) / Elem.sqrt (2.0 * κ)) -
      (η / κ - 1.0) / Elem.exp η * math.erf ((η - κ) / Elem.sqrt (2.0 * κ))) /
      (4.0 * Elem.sinh η * (1.0 + η / Elem.tanh η / κ)) := by
  have h := efjc_half_add hκ hη
  rw [efjcNum, efjcDen] at h
  simp only [model_real]
  exact h

theorem efjc_one_code {κ η : ℝ} (hκ : 0 < κ) (hη : 1e-11 ≤ η) :
    0 < 1.0 + ((η / κ + 1.0) * Elem.exp η * math.erf ((η + κ) / Elem.sqrt (2.0 * κ)) -
      (η / κ - 1.0) / Elem.exp η * math.erf ((η - κ) / Elem.sqrt (2.0 * κ))) /
      (4.0 * Elem.sinh η * (1.0 + η / Elem.tanh η / κ)) := by
  have h := efjc_half_code hκ hη
  norm_num at h ⊢
  linarith

theorem efjc_zero_code : (1e-11 : ℝ) ≤ ZERO := by simp only [ZERO]; norm_num
theorem sinh_code {η : ℝ} (h : 0 < η) : 0 < Elem.sinh η := sinh_pos_iff.2 h
theorem tanh_code {η : ℝ} (h : 0 < η) : 0 < Elem.tanh η := by
  simp only [model_real, tanh_eq_sinh_div_cosh]; exact div_pos (sinh_pos_iff.2 h) (cosh_pos η)

/-- The nondimensional function of the model is defined for forces above `1e-11`. -/
theorem is_efjc_isotensional_gibbs {ℓ' m' κ' η' T' : SReal} {ℓ m κ η T : ℝ} (eℓ : Is ℓ' ℓ) (em : Is m' m) (eκ : Is κ' κ) (eη : Is η' η) (eT : Is T' T)
    (hℓ : 0 < ℓ) (hm : 0 < m) (hκ : 0 < κ) (hη : 0 < η) (hT : 0 < T) (hη1 : 1e-11 ≤ η) :
    Is (Polymers.efjc.thermodynamics.isotensional.nondimensional_gibbs_free_energy_per_link ℓ' m' κ' η' T')
      (Polymers.efjc.thermodynamics.isotensional.nondimensional_gibbs_free_energy_per_link ℓ m κ η T) := by
  have h1 := efjc_half_code hκ hη1
  have h2 := efjc_one_code hκ hη1
  have h3 := sinh_code hη
  have h4 := tanh_code hη
  defined [is_erf ?_]

/-- The nondimensional function of the model is defined for forces above `1e-11`. -/
theorem is_efjc_isotensional_lengths {κ' η' : SReal} {κ η : ℝ} (eκ : Is κ' κ) (eη : Is η' η)
    (hκ : 0 < κ) (hη : 0 < η) (hη1 : 1e-11 ≤ η) :
    Is (Polymers.efjc.thermodynamics.isotensional.nondimensional_end_to_end_length_per_link κ' η')
      (Polymers.efjc.thermodynamics.isotensional.nondimensional_end_to_end_length_per_link κ η) := by
  have h1 := efjc_half_code hκ hη1
  have h2 := efjc_one_code hκ hη1
  have h3 := sinh_code hη
  have h4 := tanh_code hη
  defined [is_erf ?_]

/-- The nondimensional function of the model is defined for forces above `1e-11`. -/
theorem is_efjc_isotensional_legendre_helmholtz {ℓ' m' κ' η' T' : SReal} {ℓ m κ η T : ℝ} (eℓ : Is ℓ' ℓ) (em : Is m' m) (eκ : Is κ' κ) (eη : Is η' η) (eT : Is T' T)
    (hℓ : 0 < ℓ) (hm : 0 < m) (hκ : 0 < κ) (hη : 0 < η) (hT : 0 < T) (hη1 : 1e-11 ≤ η) :
    Is (Polymers.efjc.thermodynamics.isotensional.legendre.nondimensional_helmholtz_free_energy_per_link ℓ' m' κ' η' T')
      (Polymers.efjc.thermodynamics.isotensional.legendre.nondimensional_helmholtz_free_energy_per_link ℓ m κ η T) := by
  have h1 := efjc_half_code hκ hη1
  have h2 := efjc_one_code hκ hη1
  have h3 := sinh_code hη
  have h4 := tanh_code hη
  defined [is_erf ?_]

/-- The Gibbs free energy as a function of force. -/
theorem is_efjc_gibbs_force {N : ℕ} {ℓ' m' k' x' T' : SReal} {ℓ m k x T : ℝ} (eℓ : Is ℓ' ℓ) (em : Is m' m) (ek : Is k' k) (ex : Is x' x)
    (eT : Is T' T) (hℓ : 0 < ℓ) (hm : 0 < m) (hk : 0 < k) (hT : 0 < T) (hx : 0 < x)
    (h : 1e-11 ≤ x * ℓ / BOLTZMANN_CONSTANT / T) :
    Is (efjc.thermodynamics.isotensional.gibbs_free_energy N ℓ' m' k' x' T')
      (efjc.thermodynamics.isotensional.gibbs_free_energy N ℓ m k x T) ∧
    Is (efjc.thermodynamics.isotensional.gibbs_free_energy_per_link ℓ' m' k' x' T')
      (efjc.thermodynamics.isotensional.gibbs_free_energy_per_link ℓ m k x T) := by
  have hB := Polymers.boltzmann_pos
  have hη : 0 < x * ℓ / BOLTZMANN_CONSTANT / T := by positivity
  have hκ : 0 < k * Elem.powi ℓ 2 / BOLTZMANN_CONSTANT / T := by rw [elem_powi]; positivity
  have h1 := efjc_half_code hκ h
  have h3 := sinh_code hη
  have h4 := tanh_code hη
  constructor <;> defined [is_erf ?_]

/-- The nondimensional Gibbs free energy of the chain. -/
theorem is_efjc_gibbs_nd {N : ℕ} {ℓ' m' κ' η' T' : SReal} {ℓ m κ η T : ℝ} (eℓ : Is ℓ' ℓ) (em : Is m' m) (eκ : Is κ' κ) (eη : Is η' η)
    (eT : Is T' T) (hℓ : 0 < ℓ) (hm : 0 < m) (hκ : 0 < κ) (hT : 0 < T) (hη : 0 < η) (hη1 : 1e-11 ≤ η) :
    Is (efjc.thermodynamics.isotensional.nondimensional_gibbs_free_energy N ℓ' m' κ' η' T')
      (efjc.thermodynamics.isotensional.nondimensional_gibbs_free_energy N ℓ m κ η T) := by
  have h1 := efjc_half_code hκ hη1
  have h3 := sinh_code hη
  have h4 := tanh_code hη
  defined [is_erf ?_]

theorem is_efjc_gibbs_total {N : ℕ} {ℓ' m' k' x' T' : SReal} {ℓ m k x T : ℝ} (eℓ : Is ℓ' ℓ) (em : Is m' m) (ek : Is k' k) (ex : Is x' x)
    (eT : Is T' T) (hℓ : 0 < ℓ) (hm : 0 < m) (hk : 0 < k) (hT : 0 < T) (hx : 0 < x)
    (h : 1e-11 ≤ x * ℓ / BOLTZMANN_CONSTANT / T) :
    Is (efjc.thermodynamics.isotensional.gibbs_free_energy N ℓ' m' k' x' T')
      (efjc.thermodynamics.isotensional.gibbs_free_energy N ℓ m k x T) :=
  (is_efjc_gibbs_force eℓ em ek ex eT hℓ hm hk hT hx h).1

theorem is_efjc_gibbs_link {ℓ' m' k' x' T' : SReal} {ℓ m k x T : ℝ} (eℓ : Is ℓ' ℓ) (em : Is m' m) (ek : Is k' k) (ex : Is x' x)
    (eT : Is T' T) (hℓ : 0 < ℓ) (hm : 0 < m) (hk : 0 < k) (hT : 0 < T) (hx : 0 < x)
    (h : 1e-11 ≤ x * ℓ / BOLTZMANN_CONSTANT / T) :
    Is (efjc.thermodynamics.isotensional.gibbs_free_energy_per_link ℓ' m' k' x' T')
      (efjc.thermodynamics.isotensional.gibbs_free_energy_per_link ℓ m k x T) :=
  (is_efjc_gibbs_force (N := 1) eℓ em ek ex eT hℓ hm hk hT hx h).2

/-- C46: every method of the family is defined for every nondimensional force from `1e-11` up. -/
theorem C46_efjc_isotensional_gibbs {N : ℕ} (hN : 0 < N) {ℓ m k : ℝ} (hℓ : 0 < ℓ) (hm : 0 < m) (hk : 0 < k) :
    (ApiS.efjc_isotensional_gibbs N ℓ m k).DefinedAs (Api.efjc_isotensional_gibbs N ℓ m k) (fun f T => ndForce ℓ f T)
      (fun y _ => 1e-11 ≤ y) := by
  have hN' : (0 : ℝ) < N := Nat.cast_pos.2 (by omega)
  constructor <;> intro x T hT hD <;> refine (?_ : Is _ _)
  all_goals
    have hx : 0 < x := by first | exact lt_of_lt_of_le (by norm_num) hD | exact pos_of_ndForce hℓ hT (lt_of_lt_of_le (by norm_num) hD)
  all_goals defined [is_efjc_isotensional_gibbs ?_ ?_ ?_ ?_ ?_ ?_ ?_ ?_ ?_ ?_ ?_, is_efjc_gibbs_nd ?_ ?_ ?_ ?_ ?_ ?_ ?_ ?_ ?_ ?_ ?_, is_efjc_gibbs_total ?_ ?_ ?_ ?_ ?_ ?_ ?_ ?_ ?_ ?_ ?_, is_efjc_gibbs_link ?_ ?_ ?_ ?_ ?_ ?_ ?_ ?_ ?_ ?_ ?_]
  all_goals first
    | exact hD
    | exact efjc_zero_code
    | (rw [← ndForce_code]; exact hD)
    | (rw [zero_code hℓ hT]; exact efjc_zero_code)

example : (ApiS.efjc_isotensional_gibbs 8 1 1 500).DefinedAs (Api.efjc_isotensional_gibbs 8 1 1 500) (fun f T => ndForce 1 f T)
    (fun y _ => 1e-11 ≤ y) :=
  C46_efjc_isotensional_gibbs (N := 8) (m := 1) (by norm_num) (by norm_num) (by norm_num) (by norm_num)

/-- C46: every method of the family is defined for every nondimensional force from `1e-11` up. -/
theorem C46_efjc_isotensional_lengths {N : ℕ} (hN : 0 < N) {ℓ m k : ℝ} (hℓ : 0 < ℓ) (hk : 0 < k) :
    (ApiS.efjc_isotensional_lengths N ℓ m k).DefinedAs (Api.efjc_isotensional_lengths N ℓ m k) (fun f T => ndForce ℓ f T)
      (fun y _ => 1e-11 ≤ y) := by
  have hN' : (0 : ℝ) < N := Nat.cast_pos.2 (by omega)
  constructor <;> intro x T hT hD <;> refine (?_ : Is _ _)
  all_goals
    have hx : 0 < x := by first | exact lt_of_lt_of_le (by norm_num) hD | exact pos_of_ndForce hℓ hT (lt_of_lt_of_le (by norm_num) hD)
  all_goals defined [is_efjc_isotensional_lengths ?_ ?_ ?_ ?_ ?_]
  all_goals first
    | exact hD
    | (rw [← ndForce_code]; exact hD)

example : (ApiS.efjc_isotensional_lengths 8 1 1 500).DefinedAs (Api.efjc_isotensional_lengths 8 1 1 500) (fun f T => ndForce 1 f T)
    (fun y _ => 1e-11 ≤ y) :=
  C46_efjc_isotensional_lengths (N := 8) (m := 1) (by norm_num) (by norm_num) (by norm_num)

/-- C46: every method of the family is defined for every nondimensional force from `1e-11` up. -/
theorem C46_efjc_isotensional_legendre_helmholtz {N : ℕ} (hN : 0 < N) {ℓ m k : ℝ} (hℓ : 0 < ℓ) (hm : 0 < m) (hk : 0 < k) :
    (ApiS.efjc_isotensional_legendre_helmholtz N ℓ m k).DefinedAs (Api.efjc_isotensional_legendre_helmholtz N ℓ m k) (fun f T => ndForce ℓ f T)
      (fun y _ => 1e-11 ≤ y) := by
  have hN' : (0 : ℝ) < N := Nat.cast_pos.2 (by omega)
  constructor <;> intro x T hT hD <;> refine (?_ : Is _ _)
  all_goals
    have hx : 0 < x := by first | exact lt_of_lt_of_le (by norm_num) hD | exact pos_of_ndForce hℓ hT (lt_of_lt_of_le (by norm_num) hD)
  all_goals defined [is_efjc_isotensional_legendre_helmholtz ?_ ?_ ?_ ?_ ?_ ?_ ?_ ?_ ?_ ?_ ?_]
  all_goals first
    | exact hD
    | exact efjc_zero_code
    | (rw [force_code, ← ndForce_code]; exact hD)
    | (rw [force_code, zero_code hℓ hT]; exact efjc_zero_code)

example : (ApiS.efjc_isotensional_legendre_helmholtz 8 1 1 500).DefinedAs (Api.efjc_isotensional_legendre_helmholtz 8 1 1 500) (fun f T => ndForce 1 f T)
    (fun y _ => 1e-11 ≤ y) :=
  C46_efjc_isotensional_legendre_helmholtz (N := 8) (m := 1) (by norm_num) (by norm_num) (by norm_num) (by norm_num)

end Polymers.Props
