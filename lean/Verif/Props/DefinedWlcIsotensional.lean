import Verif.Props.DefinedWlc
import Verif.Props.WlcIsotensional
import Verif.Props.WlcSearch

/-! Definedness (C56) of the worm-like chain at fixed force. -/

namespace Polymers.SReal.Is

/-- The powered iteration is defined when a set containing the starting point is mapped to itself by the step, the function and
its (nonvanishing) derivative are defined on it, and the root is not in it. -/
theorem newton_powered {S : ℝ → Prop} {f fp : SReal → SReal} {g gp : ℝ → ℝ} {y guess tol : SReal} {y' guess' tol' : ℝ} {n k p q : ℕ}
    (hn : n = k) (hp : p = q) (hq : q ≠ 0) (hy : Is y y') (hy0 : y' ≠ 0) (hg : Is guess guess') (ht : Is tol tol')
    (hf : ∀ x, S x → Is (f (SReal.val x)) (g x))
    (hfp : ∀ x, S x → Is (fp (SReal.val x)) (gp x)) (hne : ∀ x, S x → gp x ≠ 0) (hroot : ∀ x, S x → g x - y' ≠ 0)
    (hstep : ∀ x, S x → S (x + -(Elem.powi (g x - y') (q : ℤ)) / Elem.powi (g x - y') ((q : ℤ) - 1) / gp x / (q : ℝ))) (h0 : S guess') :
    Is (math.inverse_newton_raphson_powered y f fp guess tol n p) (math.inverse_newton_raphson_powered y' g gp guess' tol' k q) := by
  subst hn hp
  rw [math.inverse_newton_raphson_powered, math.inverse_newton_raphson_powered]
  have hr : Is (1.0 : SReal) (1.0 : ℝ) := lit _ _ _
  generalize (1.0 : SReal) = r, (1.0 : ℝ) = r' at hr
  induction n generalizing guess guess' r r' with
  | zero => exact hg
  | succ n ih =>
    rw [math.inverse_newton_raphson_powered_loop, math.inverse_newton_raphson_powered_loop]
    rw [Is] at hg
    subst hg
    refine ite_lt ht hr (fun _ => ?_) (fun _ => val _)
    have ha := sub (hf _ h0) hy
    have hz := hroot _ h0
    have e : (p : ℤ) - 1 = ((p - 1 : ℕ) : ℤ) := by omega
    have hb : Is (Elem.powi (f (SReal.val guess') - y) ((p : ℤ) - 1)) (Elem.powi (g guess' - y') ((p : ℤ) - 1)) := by
      rw [e]; exact powi_nat ha
    have hb0 : Elem.powi (g guess' - y') ((p : ℤ) - 1) ≠ 0 := by
      rw [elem_powi]; exact zpow_ne_zero _ hz
    have hstep' := div (div (div (neg (powi_nat (n := p) ha)) hb hb0) (hfp _ h0) (hne _ h0)) (natCast (n := p) rfl)
      (Nat.cast_ne_zero.2 hq)
    exact ih (add (val _) hstep') (hstep _ h0) _ _ (abs (div ha hy hy0))

end Polymers.SReal.Is

namespace Polymers.Props

open Polymers.Spec Polymers.SReal Polymers.Lemmas Polymers.wlc.thermodynamics Set

set_option maxHeartbeats 2000000

theorem is_wlc_force_flexible {N : ℕ} {ϖ' γ' : SReal} {ϖ γ : ℝ} (eϖ : Is ϖ' ϖ) (eγ : Is γ' γ) (hN : (0 : ℝ) < N) (hϖ : 0 < ϖ)
    (hϖ1 : ϖ ≤ 1 / 25) (hx : γ ^ 2 < 1) (hγ0 : γ ≠ 0) :
    Is (isometric.nondimensional_force N ϖ' γ') (isometric.nondimensional_force N ϖ γ) := by
  have k1 : 0 < 1.0 - Elem.powi γ 2 := by
    have := one_sub_mul_pos le_rfl hx
    simp only [model_real]; norm_cast; linarith
  have k2 : 0 < 1.0 - wlcC ϖ * Elem.powi γ 2 := by
    have := one_sub_mul_pos (wlcC_lt_one hϖ).le hx
    simp only [model_real]; norm_cast
  have k3 : 0 < 1.0 - Elem.powi 0.473 2 * Elem.powi γ 2 := by
    have := one_sub_mul_pos (show wlcQ ≤ 1 by linarith [wlcQ_lt]) hx
    simp only [model_real]; unfold wlcQ at this; exact_mod_cast this
  have k4 : 0 < math.bessel_i 0 ((-wlcD ϖ) * ϖ * 14.054 * (1.0 + 0.473) * (γ / (1.0 - Elem.powi 0.473 2 * Elem.powi γ 2))) := by
    have e : ((-wlcD ϖ) * ϖ * 14.054 * (1.0 + 0.473) * (γ / (1.0 - Elem.powi 0.473 2 * Elem.powi γ 2))) = wlcArg ϖ γ := by
      simp only [wlcArg, model_real]
    have hD : wlcD ϖ = 1 := if_pos (by linarith)
    have hA : wlcArg ϖ γ = -(wlcK ϖ * (γ / (1 - wlcQ * γ ^ 2))) := by
      rw [wlcArg, hD, wlcK, wlcQ]; ring
    have hk0 : 0 < wlcK ϖ := by unfold wlcK; positivity
    have hk1 : wlcK ϖ ≤ 829 / 1000 := by unfold wlcK; linarith
    have hq := one_sub_mul_pos (show wlcQ ≤ 1 by linarith [wlcQ_lt]) hx
    rw [e]
    have hA' : wlcArg ϖ γ < 31 / 4 := by
      rw [hA]
      have hx1 : |γ| < 1 := by rw [← sq_lt_one_iff_abs_lt_one]; exact hx
      have := abs_lt.1 hx1
      obtain ⟨q0, q1⟩ := wlcQ_mul hx
      have : -1 / (1 - wlcQ * γ ^ 2) ≤ γ / (1 - wlcQ * γ ^ 2) := by gcongr; linarith
      have : -2 ≤ -1 / (1 - wlcQ * γ ^ 2) := by rw [le_div_iff₀ hq]; nlinarith
      nlinarith
    linarith [one_le_bessel_i0 hA']
  simp only [isometric.nondimensional_force]
  rw [wlcC_code, wlcD_code]
  defined [is_wlcC eϖ hϖ, is_wlcD eϖ hϖ, is_bessel ?_, Is.fsum_map fun i hi => Is.fsum_map fun j hj => ?_, is_wlc_coef (by assumption) (by assumption)]

theorem wlcG_nonneg {k x : ℝ} (h0 : 0 ≤ x) (hx : x ^ 2 < 1) : 0 ≤ wlcG k x := by
  obtain ⟨q0, q1⟩ := wlcQ_mul hx
  have hq := one_sub_mul_pos (show wlcQ ≤ 1 by linarith [wlcQ_lt]) hx
  have hT : 0 ≤ wlcT k x := by unfold wlcT; positivity
  have a := besP0_ge hT
  have b := besP1_ge hT
  unfold wlcG wlcB
  have : 0 ≤ besP1 (wlcT k x) / besP0 (wlcT k x) := div_nonneg (by linarith) (by linarith)
  positivity

theorem wlcF_tiny {w C k : ℝ} (hw : 25 ≤ w) (hC : C ≤ 1) (hk1 : k ≤ 8281 / 10000) :
    wlcF w C k 1e-8 ≤ 16 / 10 ^ 9 * w := by
  have hQ := wlcQ_lt
  have hQ0 := wlcQ_pos
  have e1 : 5 * C * (1e-8 / (1 - C * (1e-8 : ℝ) ^ 2)) ≤ 5 * 1 * (1e-8 / (1 - 1 * (1e-8 : ℝ) ^ 2)) := by
    have : (0:ℝ) < 1 - C * (1e-8 : ℝ) ^ 2 := one_sub_mul_pos hC (by norm_num)
    gcongr
  have e2 : 2 * (473 / 1000) * k * (1e-8 / (1 - wlcQ * (1e-8 : ℝ) ^ 2) ^ 2) ≤
      2 * (473 / 1000) * (8281 / 10000) * (1e-8 / (1 - 1 * (1e-8 : ℝ) ^ 2) ^ 2) := by
    have a : (0:ℝ) ≤ 1e-8 / (1 - wlcQ * (1e-8 : ℝ) ^ 2) ^ 2 := by positivity
    have b : 1e-8 / (1 - wlcQ * (1e-8 : ℝ) ^ 2) ^ 2 ≤ 1e-8 / (1 - 1 * (1e-8 : ℝ) ^ 2) ^ 2 := by
      gcongr
      linarith
    gcongr
  unfold wlcF
  norm_num at e1 e2 ⊢
  linarith

/-- The search of a flexible chain is defined. -/
theorem is_wlc_root {N : ℕ} {ϖ' η' : SReal} {ϖ η : ℝ} (eϖ : Is ϖ' ϖ) (eη : Is η' η) (hN : (0 : ℝ) < N) (h : 0 < ϖ)
    (h1 : ϖ ≤ 1 / 25) (hη : 0 < η) (hη0 : 16 / 10 ^ 9 * ϖ⁻¹ ≤ N * η) (hη1 : N * η ≤ 10 ^ 8) :
    Is (math.inverse_newton_raphson_powered η' (fun γ => isometric.nondimensional_force N ϖ' γ)
      (fun γ => (isometric.nondimensional_force N ϖ' (γ + 1e-8) - isometric.nondimensional_force N ϖ' (γ - 1e-8)) / 2e-8)
      0.9999 1e-5 100 2) (wlcRoot N ϖ η) := by
  have hw : 25 ≤ ϖ⁻¹ := by rw [le_inv_comm₀ (by norm_num) h]; norm_num; linarith
  have hC0 := wlcC_nonneg h
  have hC := (wlcC_lt_one h).le
  have hk : 0 ≤ wlcK ϖ := by unfold wlcK; positivity
  have hk1 : wlcK ϖ ≤ 8281 / 10000 := by unfold wlcK; linarith
  have hk2 : wlcK ϖ ^ 2 ≤ 686 / 1000 := by nlinarith
  have hlt : ∀ z : ℝ, z ∈ Ioo (-1:ℝ) 1 → z ^ 2 < 1 := fun z hz => by nlinarith [hz.1, hz.2]
  have hf : ∀ z ∈ Ioo (-1:ℝ) 1, isometric.nondimensional_force N ϖ z = (wlcF ϖ⁻¹ (wlcC ϖ) (wlcK ϖ) z - wlcG (wlcK ϖ) z) / N :=
    fun z hz => wlc_flex_force N h h1 (hlt z hz)
  have hm : ∀ x : ℝ, 0 < x → x ≤ 9999 / 10000 → x ∈ Ioo (-1:ℝ) 1 ∧ x + 1e-8 ∈ Ioo (-1:ℝ) 1 ∧ x - 1e-8 ∈ Ioo (-1:ℝ) 1 :=
    fun x h0 h1 => ⟨⟨by linarith, by linarith⟩, ⟨by norm_num; linarith, by norm_num; linarith⟩,
      ⟨by norm_num; linarith, by norm_num; linarith⟩⟩
  refine Is.newton_powered (S := fun x => 0 < x ∧ x ≤ 9999 / 10000 ∧ N * η < wlcF ϖ⁻¹ (wlcC ϖ) (wlcK ϖ) x - wlcG (wlcK ϖ) x)
    rfl rfl (by norm_num) eη hη.ne' (.lit _ _ _) (.lit _ _ _) ?_ ?_ ?_ ?_ ?_ ?_
  · rintro x ⟨a, b, -⟩
    exact is_wlc_force_flexible eϖ (.val _) hN h h1 (hlt _ (hm x a b).1) a.ne'
  · rintro x ⟨a, b, c⟩
    refine .div (.sub ?_ ?_) (.lit _ _ _) (by norm_num)
    · exact is_wlc_force_flexible eϖ (.add (.val _) (.lit _ _ _)) hN h h1 (hlt _ (hm x a b).2.1)
        (by norm_num; linarith)
    · refine is_wlc_force_flexible eϖ (.sub (.val _) (.lit _ _ _)) hN h h1 (hlt _ (hm x a b).2.2)
        fun e => ?_
      rw [sub_eq_zero] at e
      rw [e] at c
      linarith [wlcF_tiny hw hC hk1, wlcG_nonneg (k := wlcK ϖ) (x := 1e-8) (by norm_num) (by norm_num)]
  · rintro x ⟨a, b, c⟩
    have hs := (wlc_step hw hC0 hC hk hk2 (show 0 ≤ N * η by positivity) a b c).1
    rw [hf _ (hm x a b).2.1, hf _ (hm x a b).2.2, ← sub_div, div_right_comm]
    exact (div_pos hs hN).ne'
  · rintro x ⟨a, b, c⟩
    rw [hf _ (hm x a b).1, sub_ne_zero]
    refine (ne_of_gt ?_)
    rw [lt_div_iff₀ hN, mul_comm]; exact c
  · rintro x ⟨a, b, c⟩
    have hs := (wlc_step hw hC0 hC hk hk2 (show 0 ≤ N * η by positivity) a b c).2
    rw [wlc_step_code hN hf (hm x a b).1 (hm x a b).2.1 (hm x a b).2.2]
    exact ⟨hs.1, hs.2.1.trans b, hs.2.2⟩
  · have := wlc_start hw hC0 hC hk hk2
    norm_num at this ⊢
    linarith

theorem wlc_in_range {x : SReal} {r : ℝ} (e : Is x r) (h : r ∈ Icc (0:ℝ) 1) {u v : SReal} {p q : ℝ} (hv : Is v q) :
    Is (if (!(Elem.le (0.0 : SReal) x && Elem.le x (1.0 : SReal))) = true then u else v)
      (if (!(Elem.le (0.0 : ℝ) r && Elem.le r (1.0 : ℝ))) = true then p else q) := by
  rw [root_test h, (finds_test x).2 ⟨r, h, e⟩]
  exact hv

theorem wlc_link_pos {a b s η γ : ℝ} (ha : 0 < a) (hη : 0 < η) (hγ : 0 < γ) :
    0 < (Elem.exp (a - s - b) - Elem.exp ((-a) - s - b)) * γ / η := by
  simp only [model_real]
  have : Real.exp (-a - s - b) < Real.exp (a - s - b) := Real.exp_lt_exp.2 (by linarith)
  have : 0 < Real.exp (a - s - b) - Real.exp (-a - s - b) := by linarith
  positivity

theorem wlc_link_pos' {a b s η γ n : ℝ} (ha : 0 < a) (hη : 0 < η) (hγ : 0 < γ) (hn : 0 < n) :
    0 < 0.5 * (Elem.exp (a - s - b) - Elem.exp ((-a) - s - b)) * n * γ / η := by
  simp only [model_real]
  have : Real.exp (-a - s - b) < Real.exp (a - s - b) := Real.exp_lt_exp.2 (by linarith)
  have : 0 < Real.exp (a - s - b) - Real.exp (-a - s - b) := by linarith
  positivity

/-- The forces at which the search is shown to be defined. -/
def WlcForce (N : ℕ) (ϖ η : ℝ) : Prop := 0 < η ∧ 16 / 10 ^ 9 * ϖ⁻¹ ≤ N * η ∧ N * η ≤ 10 ^ 8

theorem is_wlc_relative {ϖ' γ' : SReal} {ϖ γ : ℝ} (eϖ : Is ϖ' ϖ) (eγ : Is γ' γ) (hϖ : 0 < ϖ) (h0 : 0 < γ) (h1 : γ < 1) :
    Is (isometric.nondimensional_relative_helmholtz_free_energy ϖ' γ') (isometric.nondimensional_relative_helmholtz_free_energy ϖ γ) := by
  simp only [isometric.nondimensional_relative_helmholtz_free_energy]
  refine .sub ?_ ?_
  · exact is_wlc_helmholtz (.lit _ _ _) (.lit _ _ _) eϖ eγ (.lit _ _ _) (by norm_num) (by norm_num) hϖ h0 h1 (by norm_num)
  · exact is_wlc_helmholtz (.lit _ _ _) (.lit _ _ _) eϖ (.lit _ _ _) (.lit _ _ _) (by norm_num) (by norm_num) hϖ zero_pos'
      (zero_lt_one_grid.trans_eq one_eq') (by norm_num)

theorem is_wlc_length {N : ℕ} {ϖ' η' : SReal} {ϖ η : ℝ} (eϖ : Is ϖ' ϖ) (eη : Is η' η) (hN : (0 : ℝ) < N) (h : 0 < ϖ)
    (h1 : ϖ ≤ 1 / 25) (hη : WlcForce N ϖ η) :
    Is (isotensional.nondimensional_end_to_end_length N ϖ' η') (isotensional.nondimensional_end_to_end_length N ϖ η) := by
  have hr := wlcRoot_mem (Nat.cast_pos.1 hN) h h1 hη.1.le hη.2.2
  have er := is_wlc_root eϖ eη hN h h1 hη.1 hη.2.1 hη.2.2
  have hη0 := hη.1
  unfold isotensional.nondimensional_end_to_end_length
  refine wlc_in_range er ⟨hr.1.le, hr.2.trans (by norm_num)⟩ ?_
  rw [show math.inverse_newton_raphson_powered η _ _ _ _ 100 2 = wlcRoot N ϖ η from rfl]
  have es : Is ((N : SReal) * η' * (math.inverse_newton_raphson_powered η' (fun γ => isometric.nondimensional_force N ϖ' γ)
      (fun γ => (isometric.nondimensional_force N ϖ' (γ + 1e-8) - isometric.nondimensional_force N ϖ' (γ - 1e-8)) / 2e-8)
      0.9999 1e-5 100 2) - isometric.nondimensional_relative_helmholtz_free_energy ϖ' (math.inverse_newton_raphson_powered η'
      (fun γ => isometric.nondimensional_force N ϖ' γ)
      (fun γ => (isometric.nondimensional_force N ϖ' (γ + 1e-8) - isometric.nondimensional_force N ϖ' (γ - 1e-8)) / 2e-8)
      0.9999 1e-5 100 2)) ((N : ℝ) * η * wlcRoot N ϖ η - isometric.nondimensional_relative_helmholtz_free_energy ϖ (wlcRoot N ϖ η)) :=
    .sub (.mul (.mul (.natCast rfl) eη) er) (is_wlc_relative eϖ er h hr.1 (hr.2.trans_lt (by norm_num)))
  simp only []
  generalize (N : SReal) * η' * (math.inverse_newton_raphson_powered η' _ _ _ _ 100 2) - _ = s' at es ⊢
  generalize (N : ℝ) * η * wlcRoot N ϖ η - isometric.nondimensional_relative_helmholtz_free_energy ϖ (wlcRoot N ϖ η) = s at es ⊢
  refine .div ?_ ?_ (math.integrate_1d_pos zero_lt_one_grid (show 0 < POINTS by norm_num [POINTS]) fun t ht => ?_).ne'
  · refine Is.integrate_Ioo rfl (.lit _ _ _) (.lit _ _ _) (by norm_num [POINTS]) zero_lt_one_grid fun t a b => ?_
    have a' : 0 < t := zero_pos'.trans a
    have b' : t < 1 := b.trans_eq one_eq'
    defined [is_wlc_relative eϖ ?_ h a' b']
  · refine Is.integrate_Ioo rfl (.lit _ _ _) (.lit _ _ _) (by norm_num [POINTS]) zero_lt_one_grid fun t a b => ?_
    have a' : 0 < t := zero_pos'.trans a
    have b' : t < 1 := b.trans_eq one_eq'
    defined [is_wlc_relative eϖ ?_ h a' b']
  · have a' : 0 < t := zero_pos'.trans ht.1
    exact wlc_link_pos (by positivity) hη0 a'

theorem is_wlc_gibbs {N : ℕ} {ℓ' m' ϖ' η' T' : SReal} {ℓ m ϖ η T : ℝ} (eℓ : Is ℓ' ℓ) (em : Is m' m) (eϖ : Is ϖ' ϖ) (eη : Is η' η)
    (eT : Is T' T) (hN : (0 : ℝ) < N) (hℓ : 0 < ℓ) (hm : 0 < m) (h : 0 < ϖ)
    (h1 : ϖ ≤ 1 / 25) (hη : WlcForce N ϖ η) (hη2 : η ≤ 100) (hT : 0 < T) :
    Is (isotensional.nondimensional_gibbs_free_energy N ℓ' m' ϖ' η' T') (isotensional.nondimensional_gibbs_free_energy N ℓ m ϖ η T) := by
  have hr := wlcRoot_mem (Nat.cast_pos.1 hN) h h1 hη.1.le hη.2.2
  have er := is_wlc_root eϖ eη hN h h1 hη.1 hη.2.1 hη.2.2
  have hη0 := hη.1
  have k6 := wlc_hinge_code h
  unfold isotensional.nondimensional_gibbs_free_energy
  refine wlc_in_range er ⟨hr.1.le, hr.2.trans (by norm_num)⟩ ?_
  rw [show math.inverse_newton_raphson_powered η _ _ _ _ 100 2 = wlcRoot N ϖ η from rfl]
  have es : Is ((N : SReal) * η' * (math.inverse_newton_raphson_powered η' (fun γ => isometric.nondimensional_force N ϖ' γ)
      (fun γ => (isometric.nondimensional_force N ϖ' (γ + 1e-8) - isometric.nondimensional_force N ϖ' (γ - 1e-8)) / 2e-8)
      0.9999 1e-5 100 2) - isometric.nondimensional_helmholtz_free_energy N ℓ' m' ϖ' (math.inverse_newton_raphson_powered η'
      (fun γ => isometric.nondimensional_force N ϖ' γ)
      (fun γ => (isometric.nondimensional_force N ϖ' (γ + 1e-8) - isometric.nondimensional_force N ϖ' (γ - 1e-8)) / 2e-8)
      0.9999 1e-5 100 2) T') ((N : ℝ) * η * wlcRoot N ϖ η - isometric.nondimensional_helmholtz_free_energy N ℓ m ϖ (wlcRoot N ϖ η) T) :=
    .sub (.mul (.mul (.natCast rfl) eη) er) (is_wlc_helmholtz eℓ em eϖ er eT hℓ hm h hr.1 (hr.2.trans_lt (by norm_num)) hT)
  simp only []
  generalize (N : SReal) * η' * (math.inverse_newton_raphson_powered η' _ _ _ _ 100 2) - _ = s' at es ⊢
  generalize (N : ℝ) * η * wlcRoot N ϖ η - isometric.nondimensional_helmholtz_free_energy N ℓ m ϖ (wlcRoot N ϖ η) T = s at es ⊢
  refine .sub (.sub (.ite_lt (.lit _ _ _) eη (fun hc => ?_) fun _ => ?_) es) ?_
  · norm_num at hc; linarith
  · refine .neg (.ln (.mul (by defined) ?_) (mul_pos (by rw [elem_pi]; have := Real.pi_pos; norm_num; positivity)
      (math.integrate_1d_pos zero_lt_one_grid (show 0 < POINTS by norm_num [POINTS]) fun t ht => ?_)))
    · refine Is.integrate_Ioo rfl (.lit _ _ _) (.lit _ _ _) (by norm_num [POINTS]) zero_lt_one_grid fun t a b => ?_
      have a' : 0 < t := zero_pos'.trans a
      have b' : t < 1 := b.trans_eq one_eq'
      defined [is_wlc_helmholtz ?_ ?_ eϖ ?_ ?_ ?_ ?_ h a' b' ?_]
    · have a' : 0 < t := zero_pos'.trans ht.1
      exact wlc_link_pos' (by positivity) hη0 a' hN
  · defined [(wlc_acos_code h)]

theorem wlcForce_of {N : ℕ} {ℓ p y : ℝ} (hN : (0 : ℝ) < N) (hN1 : (N : ℝ) ≤ 255) (hℓ : 0 < ℓ) (hp : 0 < p) (hp0 : ℓ / 50 ≤ p)
    (h0 : 1e-6 ≤ y) (h1 : y ≤ 10 ^ 5) : WlcForce N (p / (N * ℓ)) y := by
  refine ⟨lt_of_lt_of_le (by norm_num) h0, ?_, by nlinarith⟩
  rw [inv_div, ← mul_div_assoc, div_le_iff₀ hp]
  have : (16:ℝ) / 10 ^ 9 * ℓ ≤ y * p := by
    norm_num at h0
    nlinarith
  nlinarith

/-- C56: every method of the family is defined for a persistence length between 1/50 of a link and 1/25 of the contour. -/
theorem C56_wlc_isotensional_lengths {N : ℕ} (hN : 0 < N) (hN1 : N ≤ 255) {ℓ m p : ℝ} (hℓ : 0 < ℓ) (hp0 : ℓ / 50 ≤ p)
    (hp1 : p ≤ N * ℓ / 25) :
    (ApiS.wlc_isotensional_lengths N ℓ m p).DefinedAs (Api.wlc_isotensional_lengths N ℓ m p) (fun f T => ndForce ℓ f T)
      (fun y _ => 1e-6 ≤ y ∧ y ≤ 10 ^ 5) := by
  have hN' : (0 : ℝ) < N := Nat.cast_pos.2 (by omega)
  have hN1' : (N : ℝ) ≤ 255 := by exact_mod_cast hN1
  have hp : 0 < p := lt_of_lt_of_le (by positivity) hp0
  have hϖ : 0 < p / (N * ℓ) := by positivity
  have hϖ' : 0 < p / N / ℓ := by positivity
  have hf : p / (N * ℓ) ≤ 1 / 25 := by rw [div_le_iff₀ (by positivity)]; linarith
  have hf' : p / N / ℓ ≤ 1 / 25 := by rw [div_div]; exact hf
  have hZ := wlcForce_of hN' hN1' hℓ hp hp0 (y := ZERO) (by norm_num [ZERO]) (by norm_num [ZERO])
  have hZ2 : (ZERO : ℝ) ≤ 100 := by norm_num [ZERO]
  constructor <;> intro x T hT hD <;> refine (?_ : Is _ _)
  all_goals
    have hW := wlcForce_of hN' hN1' hℓ hp hp0 hD.1 (hD.2.trans (by norm_num))
    have hD2 := hD.2
    try rw [← ndForce_code] at hW hD2
    have hW' := hW
    rw [← div_div] at hW'
    have hZ' := hZ
    rw [← div_div] at hZ'
  all_goals defined [is_wlc_length ?_ ?_ ?_ ?_ ?_ (by assumption)]

example : (ApiS.wlc_isotensional_lengths 100 1 1 2).DefinedAs (Api.wlc_isotensional_lengths 100 1 1 2) (fun f T => ndForce 1 f T)
    (fun y _ => 1e-6 ≤ y ∧ y ≤ 10 ^ 5) :=
  C56_wlc_isotensional_lengths (N := 100) (by norm_num) (by norm_num) (by norm_num) (by norm_num) (by norm_num)

/-- C56: every method of the family is defined for a persistence length between 1/50 of a link and 1/25 of the contour. -/
theorem C56_wlc_isotensional_gibbs {N : ℕ} (hN : 0 < N) (hN1 : N ≤ 255) {ℓ m p : ℝ} (hℓ : 0 < ℓ) (hm : 0 < m) (hp0 : ℓ / 50 ≤ p)
    (hp1 : p ≤ N * ℓ / 25) :
    (ApiS.wlc_isotensional_gibbs N ℓ m p).DefinedAs (Api.wlc_isotensional_gibbs N ℓ m p) (fun f T => ndForce ℓ f T)
      (fun y _ => 1e-6 ≤ y ∧ y ≤ 100) := by
  have hN' : (0 : ℝ) < N := Nat.cast_pos.2 (by omega)
  have hN1' : (N : ℝ) ≤ 255 := by exact_mod_cast hN1
  have hp : 0 < p := lt_of_lt_of_le (by positivity) hp0
  have hϖ : 0 < p / (N * ℓ) := by positivity
  have hϖ' : 0 < p / N / ℓ := by positivity
  have hf : p / (N * ℓ) ≤ 1 / 25 := by rw [div_le_iff₀ (by positivity)]; linarith
  have hf' : p / N / ℓ ≤ 1 / 25 := by rw [div_div]; exact hf
  have hZ := wlcForce_of hN' hN1' hℓ hp hp0 (y := ZERO) (by norm_num [ZERO]) (by norm_num [ZERO])
  have hZ2 : (ZERO : ℝ) ≤ 100 := by norm_num [ZERO]
  constructor <;> intro x T hT hD <;> refine (?_ : Is _ _)
  all_goals
    have hW := wlcForce_of hN' hN1' hℓ hp hp0 hD.1 (hD.2.trans (by norm_num))
    have hD2 := hD.2
    try rw [← ndForce_code] at hW hD2
    have hW' := hW
    rw [← div_div] at hW'
    have hZ' := hZ
    rw [← div_div] at hZ'
  all_goals defined [is_wlc_gibbs ?_ ?_ ?_ ?_ ?_ ?_ ?_ ?_ ?_ ?_ (by assumption) (by assumption) ?_]

example : (ApiS.wlc_isotensional_gibbs 100 1 1 2).DefinedAs (Api.wlc_isotensional_gibbs 100 1 1 2) (fun f T => ndForce 1 f T)
    (fun y _ => 1e-6 ≤ y ∧ y ≤ 100) :=
  C56_wlc_isotensional_gibbs (N := 100) (by norm_num) (by norm_num) (by norm_num) (by norm_num) (by norm_num) (by norm_num)

/-- C56: every method of the family is defined for a persistence length between 1/50 of a link and 1/25 of the contour. -/
theorem C56_wlc_isotensional_legendre_helmholtz {N : ℕ} (hN : 0 < N) (hN1 : N ≤ 255) {ℓ m p : ℝ} (hℓ : 0 < ℓ) (hm : 0 < m) (hp0 : ℓ / 50 ≤ p)
    (hp1 : p ≤ N * ℓ / 25) :
    (ApiS.wlc_isotensional_legendre_helmholtz N ℓ m p).DefinedAs (Api.wlc_isotensional_legendre_helmholtz N ℓ m p) (fun f T => ndForce ℓ f T)
      (fun y _ => 1e-6 ≤ y ∧ y ≤ 100) := by
  have hN' : (0 : ℝ) < N := Nat.cast_pos.2 (by omega)
  have hN1' : (N : ℝ) ≤ 255 := by exact_mod_cast hN1
  have hp : 0 < p := lt_of_lt_of_le (by positivity) hp0
  have hϖ : 0 < p / (N * ℓ) := by positivity
  have hϖ' : 0 < p / N / ℓ := by positivity
  have hf : p / (N * ℓ) ≤ 1 / 25 := by rw [div_le_iff₀ (by positivity)]; linarith
  have hf' : p / N / ℓ ≤ 1 / 25 := by rw [div_div]; exact hf
  have hZ := wlcForce_of hN' hN1' hℓ hp hp0 (y := ZERO) (by norm_num [ZERO]) (by norm_num [ZERO])
  have hZ2 : (ZERO : ℝ) ≤ 100 := by norm_num [ZERO]
  constructor <;> intro x T hT hD <;> refine (?_ : Is _ _)
  all_goals
    have hW := wlcForce_of hN' hN1' hℓ hp hp0 hD.1 (hD.2.trans (by norm_num))
    have hD2 := hD.2
    try rw [← ndForce_code] at hW hD2
    have hW' := hW
    rw [← div_div] at hW'
    have hZ' := hZ
    rw [← div_div] at hZ'
  all_goals defined [is_wlc_gibbs ?_ ?_ ?_ ?_ ?_ ?_ ?_ ?_ ?_ ?_ (by assumption) (by assumption) ?_, is_wlc_length ?_ ?_ ?_ ?_ ?_ (by assumption)]

example : (ApiS.wlc_isotensional_legendre_helmholtz 100 1 1 2).DefinedAs (Api.wlc_isotensional_legendre_helmholtz 100 1 1 2) (fun f T => ndForce 1 f T)
    (fun y _ => 1e-6 ≤ y ∧ y ≤ 100) :=
  C56_wlc_isotensional_legendre_helmholtz (N := 100) (by norm_num) (by norm_num) (by norm_num) (by norm_num) (by norm_num) (by norm_num)

end Polymers.Props
