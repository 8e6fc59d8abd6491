import Verif.Lemmas.Partition
import Verif.Lemmas.Lits
import Verif.Spec.Partition
import Mathlib.Analysis.Calculus.Deriv.MeanValue

/-! Helper lemmas about the single-link partition function of extensible links. -/

namespace Polymers.Lemmas

open Polymers.Spec Polymers.math Set

/-- `∂/∂η` of `linkWeight`. -/
noncomputable def linkWeight' (U : ℝ → ℝ) (η x : ℝ) : ℝ :=
  2 * (x * (x * Real.cosh (η * x) / η - Real.sinh (η * x) / η ^ 2)) * Real.exp (-U x)

/-- `∂²/∂η²` of `linkWeight`. -/
noncomputable def linkWeight'' (U : ℝ → ℝ) (η x : ℝ) : ℝ :=
  2 * (x * (x ^ 2 * Real.sinh (η * x) / η - 2 * x * Real.cosh (η * x) / η ^ 2 + 2 * Real.sinh (η * x) / η ^ 3)) *
    Real.exp (-U x)

theorem hasDerivAt_sinh_mul (x η : ℝ) : HasDerivAt (fun η => Real.sinh (η * x)) (x * Real.cosh (η * x)) η := by
  have := (Real.hasDerivAt_sinh (η * x)).comp η (hasDerivAt_mul_const (x := η) x)
  exact this.congr_deriv (by ring)

theorem hasDerivAt_cosh_mul (x η : ℝ) : HasDerivAt (fun η => Real.cosh (η * x)) (x * Real.sinh (η * x)) η := by
  have := (Real.hasDerivAt_cosh (η * x)).comp η (hasDerivAt_mul_const (x := η) x)
  exact this.congr_deriv (by ring)

theorem hasDerivAt_linkWeight (U : ℝ → ℝ) (x : ℝ) {η : ℝ} (hη : η ≠ 0) :
    HasDerivAt (fun η => linkWeight U η x) (linkWeight' U η x) η := by
  unfold linkWeight linkWeight'
  refine (((((hasDerivAt_sinh_mul x η).const_mul x).div (hasDerivAt_id η) hη).const_mul 2).mul_const _).congr_deriv ?_
  simp only [id]
  field_simp

theorem hasDerivAt_linkWeight' (U : ℝ → ℝ) (x : ℝ) {η : ℝ} (hη : η ≠ 0) :
    HasDerivAt (fun η => linkWeight' U η x) (linkWeight'' U η x) η := by
  unfold linkWeight' linkWeight''
  refine (((((((hasDerivAt_cosh_mul x η).const_mul x).div (hasDerivAt_id η) hη).sub
    ((hasDerivAt_sinh_mul x η).div (hasDerivAt_pow 2 η) (pow_ne_zero 2 hη))).const_mul x).const_mul 2).mul_const
      _).congr_deriv ?_
  simp only [id]
  field_simp
  ring

theorem linkWeight_pos (U : ℝ → ℝ) {η x : ℝ} (hη : 0 < η) (hx : 0 < x) : 0 < linkWeight U η x := by
  have := Real.sinh_pos_iff.2 (mul_pos hη hx)
  unfold linkWeight; positivity

theorem linkWeight'_pos (U : ℝ → ℝ) {η x : ℝ} (hη : 0 < η) (hx : 0 < x) : 0 < linkWeight' U η x := by
  have hu := mul_pos hη hx
  have key : Real.sinh (η * x) < η * x * Real.cosh (η * x) := by
    have hc : ∀ y, HasDerivAt (fun y : ℝ => y * Real.cosh y - Real.sinh y) (y * Real.sinh y) y := fun y => by
      refine (((hasDerivAt_id y).mul (Real.hasDerivAt_cosh y)).sub (Real.hasDerivAt_sinh y)).congr_deriv ?_
      simp
    have hm : StrictMonoOn (fun y : ℝ => y * Real.cosh y - Real.sinh y) (Ici 0) :=
      strictMonoOn_of_deriv_pos (convex_Ici 0) (fun y _ => (hc y).continuousAt.continuousWithinAt) fun y hy => by
        rw [interior_Ici] at hy
        rw [(hc y).deriv]
        exact mul_pos hy (Real.sinh_pos_iff.2 hy)
    have := hm (mem_Ici.2 le_rfl) (mem_Ici.2 hu.le) hu
    simp at this; linarith
  have e : linkWeight' U η x = 2 * (x * ((η * x * Real.cosh (η * x) - Real.sinh (η * x)) / η ^ 2)) * Real.exp (-U x) := by
    unfold linkWeight'; field_simp
  rw [e]
  have := sub_pos.2 key
  positivity

theorem linkWeight'_lt (U : ℝ → ℝ) {η x : ℝ} (hη : 0 < η) (hx : 0 < x) : linkWeight' U η x < x * linkWeight U η x := by
  have hu := mul_pos hη hx
  -- (x cosh u)/η - sinh u/η² < x sinh u/η  ⇔  u (cosh u - sinh u) < sinh u, i.e. 2u < e^{2u} - 1
  have key : η * x * (Real.cosh (η * x) - Real.sinh (η * x)) < Real.sinh (η * x) := by
    rw [Real.cosh_sub_sinh, Real.sinh_eq]
    have h1 := Real.add_one_lt_exp (x := 2 * (η * x)) (by positivity)
    have h2 : Real.exp (η * x) = Real.exp (2 * (η * x)) * Real.exp (-(η * x)) := by
      rw [← Real.exp_add]; congr 1; ring
    have h3 := Real.exp_pos (-(η * x))
    rw [h2]; nlinarith
  have e : x * linkWeight U η x - linkWeight' U η x =
      2 * (x * ((Real.sinh (η * x) - η * x * (Real.cosh (η * x) - Real.sinh (η * x))) / η ^ 2)) * Real.exp (-U x) := by
    unfold linkWeight linkWeight'; field_simp; ring
  have := sub_pos.2 key
  have : 0 < x * linkWeight U η x - linkWeight' U η x := by rw [e]; positivity
  linarith

theorem linkWeight_logConvex (U : ℝ → ℝ) {η x : ℝ} (hη : 0 < η) (hx : 0 < x) :
    linkWeight' U η x ^ 2 < linkWeight U η x * linkWeight'' U η x := by
  have hu := mul_pos hη hx
  have h1 := Real.self_lt_sinh_iff.2 hu
  have e : linkWeight U η x * linkWeight'' U η x - linkWeight' U η x ^ 2 =
      4 * x ^ 2 * (Real.sinh (η * x) ^ 2 - (η * x) ^ 2) / η ^ 4 * Real.exp (-U x) ^ 2 := by
    unfold linkWeight linkWeight' linkWeight''
    have := Real.cosh_sq (η * x)
    field_simp
    rw [show η * x = x * η by ring] at this
    ring_nf
    rw [this]
    ring
  have h2 : 0 < Real.sinh (η * x) ^ 2 - (η * x) ^ 2 := by nlinarith
  have : 0 < linkWeight U η x * linkWeight'' U η x - linkWeight' U η x ^ 2 := by
    rw [e]; positivity
  linarith

theorem integrate_1d_eq_midpointSum (f : ℝ → ℝ) (a b : ℝ) (n : ℕ) :
    integrate_1d f a b n = midpointSum f a b n := by
  rw [integrate_1d_eq_sum, midpointSum, mul_comm]
  congr 1
  refine Finset.sum_congr rfl fun i _ => ?_
  rw [show (0.5 : ℝ) + i = i + 1 / 2 by norm_num; ring]

section ratio
variable {U : ℝ → ℝ} {a b : ℝ} {n : ℕ}

/-- The partition function of one link. -/
noncomputable def linkZ (U : ℝ → ℝ) (a b : ℝ) (n : ℕ) (η : ℝ) : ℝ := integrate_1d (linkWeight U η) a b n

/-- The average extension of one link. -/
noncomputable def linkGamma (U : ℝ → ℝ) (a b : ℝ) (n : ℕ) (η : ℝ) : ℝ :=
  integrate_1d (linkWeight' U η) a b n / linkZ U a b n η

theorem linkZ_pos (ha : 0 ≤ a) (hab : a < b) (hn : 0 < n) {η : ℝ} (hη : 0 < η) : 0 < linkZ U a b n η :=
  integrate_1d_pos hab hn fun _ hx => linkWeight_pos U hη (ha.trans_lt hx.1)

theorem hasDerivAt_linkZ (hab : a < b) {η : ℝ} (hη : 0 < η) :
    HasDerivAt (linkZ U a b n) (integrate_1d (linkWeight' U η) a b n) η :=
  hasDerivAt_integrate_1d hab fun x _ => hasDerivAt_linkWeight U x hη.ne'

theorem hasDerivAt_log_linkZ (ha : 0 ≤ a) (hab : a < b) (hn : 0 < n) {η : ℝ} (hη : 0 < η) :
    HasDerivAt (fun η => Real.log (linkZ U a b n η)) (linkGamma U a b n η) η :=
  (hasDerivAt_linkZ hab hη).log (linkZ_pos ha hab hn hη).ne'

theorem linkGamma_pos (ha : 0 ≤ a) (hab : a < b) (hn : 0 < n) {η : ℝ} (hη : 0 < η) : 0 < linkGamma U a b n η :=
  div_pos (integrate_1d_pos hab hn fun _ hx => linkWeight'_pos U hη (ha.trans_lt hx.1)) (linkZ_pos ha hab hn hη)

theorem linkGamma_lt (ha : 0 ≤ a) (hab : a < b) (hn : 0 < n) {η : ℝ} (hη : 0 < η) : linkGamma U a b n η < b := by
  unfold linkGamma
  rw [div_lt_iff₀ (linkZ_pos ha hab hn hη), linkZ, ← integrate_1d_const_mul]
  refine integrate_1d_lt hab hn fun x hx => ?_
  have hx0 := ha.trans_lt hx.1
  have h1 := linkWeight'_lt U hη hx0
  have h2 := mul_lt_mul_of_pos_right hx.2 (linkWeight_pos U hη hx0)
  linarith

theorem linkGamma_strictMonoOn (ha : 0 ≤ a) (hab : a < b) (hn : 0 < n) : StrictMonoOn (linkGamma U a b n) (Ioi 0) := by
  have hd : ∀ η : ℝ, 0 < η → HasDerivAt (linkGamma U a b n)
      ((integrate_1d (linkWeight'' U η) a b n * linkZ U a b n η -
        integrate_1d (linkWeight' U η) a b n * integrate_1d (linkWeight' U η) a b n) / linkZ U a b n η ^ 2) η := by
    intro η hη
    exact (hasDerivAt_integrate_1d hab fun x _ => hasDerivAt_linkWeight' U x hη.ne').div (hasDerivAt_linkZ hab hη)
      (linkZ_pos ha hab hn hη).ne'
  refine strictMonoOn_of_deriv_pos (convex_Ioi 0) (fun η hη => (hd η hη).continuousAt.continuousWithinAt) ?_
  intro η hη
  rw [interior_Ioi] at hη
  rw [(hd η hη).deriv]
  have hZ := linkZ_pos (U := U) ha hab hn hη
  have := integrate_1d_sq_lt (f := linkWeight U η) (g := linkWeight' U η) (h := linkWeight'' U η) hab hn
    (fun x hx => linkWeight_pos U hη (ha.trans_lt hx.1)) fun x hx => linkWeight_logConvex U hη (ha.trans_lt hx.1)
  refine div_pos ?_ (by positivity)
  unfold linkZ
  nlinarith
end ratio

/-- The integrands as the code writes them, with all factors in one exponent. -/
theorem code_weight (U : ℝ → ℝ) {η x : ℝ} (hη : 0 < η) (hx : 0 < x) :
    Real.exp (η * x - U x + Real.log x - Real.log η) - Real.exp (η * x - U x + Real.log x - Real.log η - 2 * η * x)
      = linkWeight U η x := by
  have h1 : Real.exp (η * x - U x + Real.log x - Real.log η) = Real.exp (η * x) * Real.exp (-U x) * x / η := by
    rw [Real.exp_sub, Real.exp_log hη, Real.exp_add, Real.exp_log hx, sub_eq_add_neg, Real.exp_add]
  have h2 : Real.exp (η * x - U x + Real.log x - Real.log η - 2 * η * x) = Real.exp (-(η * x)) * Real.exp (-U x) * x / η := by
    have : η * x - U x + Real.log x - Real.log η - 2 * η * x = -(η * x) + -U x + Real.log x - Real.log η := by ring
    rw [this, Real.exp_sub, Real.exp_log hη, Real.exp_add, Real.exp_log hx, Real.exp_add]
  rw [h1, h2, linkWeight, Real.sinh_eq]
  ring

theorem code_weight' (U : ℝ → ℝ) {η x : ℝ} (hη : 0 < η) (hx : 0 < x) :
    Real.exp (η * x - U x + 2 * Real.log x - Real.log η)
      + Real.exp (η * x - U x + 2 * Real.log x - Real.log η - 2 * η * x)
      - Real.exp (η * x - U x + 2 * Real.log x - Real.log η - Real.log x - Real.log η)
      + Real.exp (η * x - U x + 2 * Real.log x - Real.log η - Real.log x - Real.log η - 2 * η * x)
      = linkWeight' U η x := by
  have hl := Real.exp_log hx
  have hh := Real.exp_log hη
  have h1 : Real.exp (η * x - U x + 2 * Real.log x - Real.log η) = Real.exp (η * x) * Real.exp (-U x) * x * x / η := by
    have : η * x - U x + 2 * Real.log x - Real.log η = η * x + -U x + Real.log x + Real.log x - Real.log η := by ring
    rw [this, Real.exp_sub, hh, Real.exp_add, Real.exp_add, hl, Real.exp_add]
  have h2 : Real.exp (η * x - U x + 2 * Real.log x - Real.log η - 2 * η * x) =
      Real.exp (-(η * x)) * Real.exp (-U x) * x * x / η := by
    have : η * x - U x + 2 * Real.log x - Real.log η - 2 * η * x = -(η * x) + -U x + Real.log x + Real.log x - Real.log η := by
      ring
    rw [this, Real.exp_sub, hh, Real.exp_add, Real.exp_add, hl, Real.exp_add]
  have h3 : Real.exp (η * x - U x + 2 * Real.log x - Real.log η - Real.log x - Real.log η) =
      Real.exp (η * x) * Real.exp (-U x) * x / η / η := by
    have : η * x - U x + 2 * Real.log x - Real.log η - Real.log x - Real.log η =
        η * x + -U x + Real.log x - Real.log η - Real.log η := by ring
    rw [this, Real.exp_sub, Real.exp_sub, hh, Real.exp_add, hl, Real.exp_add]
  have h4 : Real.exp (η * x - U x + 2 * Real.log x - Real.log η - Real.log x - Real.log η - 2 * η * x) =
      Real.exp (-(η * x)) * Real.exp (-U x) * x / η / η := by
    have : η * x - U x + 2 * Real.log x - Real.log η - Real.log x - Real.log η - 2 * η * x =
        -(η * x) + -U x + Real.log x - Real.log η - Real.log η := by ring
    rw [this, Real.exp_sub, Real.exp_sub, hh, Real.exp_add, hl, Real.exp_add]
  rw [h1, h2, h3, h4, linkWeight', Real.sinh_eq, Real.cosh_eq]
  field_simp
  ring

end Polymers.Lemmas
