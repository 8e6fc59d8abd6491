import Verif.Lemmas.LennardJonesNewton
import Verif.Props.DefinedMorseIsometric
import Verif.Props.DefinedPotential
import Verif.Props.DefinedLogSquaredIsometric

/-! Definedness (C56) of the Lennard-Jones-FJC model at fixed extension. -/

namespace Polymers.SReal.Is

/-- The powered iteration is defined when the step keeps the points which have not met the tolerance in a set on which the function
and its (nonvanishing) derivative are defined and which does not contain the root. -/
theorem newton_powered_stop {S : ℝ → Prop} {f fp : SReal → SReal} {g gp : ℝ → ℝ} {y guess tol : SReal} {y' guess' tol' : ℝ} {n k p q : ℕ}
    (hn : n = k) (hp : p = q) (hq : q ≠ 0) (hy : Is y y') (hy0 : y' ≠ 0) (hg : Is guess guess') (ht : Is tol tol')
    (hf : ∀ x, S x → Is (f (SReal.val x)) (g x))
    (hfp : ∀ x, S x → Is (fp (SReal.val x)) (gp x)) (hne : ∀ x, S x → gp x ≠ 0) (hroot : ∀ x, S x → g x - y' ≠ 0)
    (hstep : ∀ x, S x → tol' < Elem.abs ((g x - y') / y') →
      S (x + -(Elem.powi (g x - y') (q : ℤ)) / Elem.powi (g x - y') ((q : ℤ) - 1) / gp x / (q : ℝ))) (h0 : S guess') :
    Is (math.inverse_newton_raphson_powered y f fp guess tol n p) (math.inverse_newton_raphson_powered y' g gp guess' tol' k q) := by
  subst hn hp
  rw [math.inverse_newton_raphson_powered, math.inverse_newton_raphson_powered]
  have hr : Is (1.0 : SReal) (1.0 : ℝ) := lit _ _ _
  generalize (1.0 : SReal) = r, (1.0 : ℝ) = r' at hr
  replace h0 : tol' < r' → S guess' := fun _ => h0
  induction n generalizing guess guess' r r' with
  | zero => exact hg
  | succ n ih =>
    rw [math.inverse_newton_raphson_powered_loop, math.inverse_newton_raphson_powered_loop]
    rw [Is] at hg
    subst hg
    refine ite_lt ht hr (fun h => ?_) (fun _ => val _)
    replace h0 := h0 h
    have ha := sub (hf _ h0) hy
    have hz := hroot _ h0
    have e : (p : ℤ) - 1 = ((p - 1 : ℕ) : ℤ) := by omega
    have hb : Is (Elem.powi (f (SReal.val guess') - y) ((p : ℤ) - 1)) (Elem.powi (g guess' - y') ((p : ℤ) - 1)) := by
      rw [e]; exact powi_nat ha
    have hb0 : Elem.powi (g guess' - y') ((p : ℤ) - 1) ≠ 0 := by
      rw [elem_powi]; exact zpow_ne_zero _ hz
    have hstep' := div (div (div (neg (powi_nat (n := p) ha)) hb hb0) (hfp _ h0) (hne _ h0)) (natCast (n := p) rfl)
      (Nat.cast_ne_zero.2 hq)
    exact ih (add (val _) hstep') _ _ (abs (div ha hy hy0)) (hstep _ h0)

end Polymers.SReal.Is

namespace Polymers.Props

open Polymers.Spec Polymers.SReal Polymers.Lemmas

set_option maxHeartbeats 1000000

/-- The step keeps the points which have not met the tolerance in `S`, and lands in `S'`: so does the result. -/
theorem powered_stop_mem {S S' : ℝ → Prop} {f fp : ℝ → ℝ} {y tol : ℝ} {p : ℕ} (hroot : ∀ x, S x → f x ≠ y)
    (hstep : ∀ x, S x → S' (newtonStep y f fp p x) ∧ (tol < |(f x - y) / y| → S (newtonStep y f fp p x)))
    {guess : ℝ} (h : S guess) (h' : S' guess) (n : ℕ) :
    S' (math.inverse_newton_raphson_powered y f fp guess tol n p) := by
  rw [math.inverse_newton_raphson_powered]
  generalize (1.0 : ℝ) = r
  replace h : tol < r → S guess := fun _ => h
  induction n generalizing guess r with
  | zero => exact h'
  | succ n ih =>
    rw [math.inverse_newton_raphson_powered_loop]
    split_ifs with hr
    · replace h := h (by simpa only [elem_lt] using hr)
      simp only [powered_step y f fp p (hroot _ h)]
      exact ih (hstep _ h).1 _ (hstep _ h).2
    · exact h'

/-- The starting guess of the search. -/
theorem lj_guess {C : ℝ → ℝ} {κ γ : ℝ} (hC : ∀ x, 0 < x → 0 ≤ C x) (hκ : 40 ≤ κ) (h6 : κ ≤ 1000000) (h1 : 1 / 1000000 ≤ γ)
    (h2 : γ < langevin (κ / 46)) : LjOk C κ γ (math.inverse_langevin γ) := by
  have h0 : 0 < γ := by linarith
  have hl : γ < 1 := h2.trans (langevin_lt_one (by linarith))
  obtain ⟨p1, p2⟩ := inverse_langevin_spec h0 hl
  have p3 := inverse_langevin_below h0 hl
  norm_num at p2
  generalize math.inverse_langevin γ = x at p1 p2 p3 ⊢
  have t := langevin_lt_third p1
  have p4 := (abs_le.1 p2).1
  have hX : x < κ / 46 := by
    by_contra hc
    have := langevin_strictMonoOn.monotoneOn (Set.mem_Ioi.2 (by linarith : (0:ℝ) < κ / 46)) (Set.mem_Ioi.2 p1) (not_lt.1 hc)
    linarith
  have hb := (ljPsi_bounds (by linarith) p1 hX).1
  have hb' : (1 - 1 / 1000000) * x / 1000000 ≤ (1 - 1 / 1000000) * x / κ := by gcongr
  refine ⟨by linarith, hX, p3, ?_⟩
  have := hC x p1
  linarith

/-- One step from a point where the search has not stopped. -/
theorem _root_.Polymers.Lemmas.LjOk.step {C C' f fp : ℝ → ℝ} {κ γ x : ℝ} (hC : MildCorr C C' (κ / 46)) (hC6 : ∀ x, 0 < x → C x ≤ x / 6) (hκ : 40 ≤ κ)
    (hγ : 1 / 1000000 ≤ γ) (h : LjOk C κ γ x) (hf : f x = langevin x + C x + ljPsi κ x)
    (hfp : fp x = 1 / x ^ 2 - 1 / Real.sinh x ^ 2 + C' x + ljPsi' κ x) :
    (0 < newtonStep γ f fp 4 x ∧ newtonStep γ f fp 4 x < κ / 46) ∧
      (1 / 1000000 < |(f x - γ) / γ| → LjOk C κ γ (newtonStep γ f fp 4 x)) := by
  obtain ⟨s1, s2, s3, -⟩ := lj_quarter_step hC hC6 hκ hγ h (z := newtonStep γ f fp 4 x) (by rw [newtonStep, hf, hfp])
  refine ⟨⟨s1, s2⟩, fun ht => s3 ?_⟩
  have h4 := h.2.2.2
  have h0 : 0 < γ := by linarith
  rw [abs_of_pos (div_pos (by linarith) h0), lt_div_iff₀ h0, hf] at ht
  exact ht

/-- The correction of the asymptotic approach for a Lennard-Jones link. -/
theorem lj_corr {κ : ℝ} (hκ : 0 < κ) : MildCorr (asyC (2 / 23 * κ)) (asyC' (2 / 23 * κ)) (κ / 46) :=
  mildCorr_asy (by linarith) (by linarith)

theorem lj_corr_le {κ : ℝ} (hκ : 40 ≤ κ) (x : ℝ) (hx : 0 < x) : asyC (2 / 23 * κ) x ≤ x / 6 := by
  have h1 := altH_le hx
  have h2 := one_le_div_tanh hx.ne'
  rw [asyC, div_le_iff₀ (by linarith)]
  nlinarith

/-- The largest force as the code computes it. -/
theorem lj_max_code (κ : ℝ) : κ / 6 * (((13 / 7 : ℝ) ^ (1 / 6 : ℝ)) ^ (-7 : ℤ) - ((13 / 7 : ℝ) ^ (1 / 6 : ℝ)) ^ (-13 : ℤ)) =
    κ / 6 * ljF ljMax := by
  simp only [ljF, ljMax, zpow_neg]; norm_cast

theorem lj_guess_code {C : ℝ → ℝ} {κ γ : ℝ} (hC : ∀ x, 0 < x → 0 ≤ C x) (hκ : 40 ≤ κ) (h6 : κ ≤ 1000000) (h1 : 1 / 1000000 ≤ γ)
    (h2 : γ < langevin (κ / 46)) {x : ℝ} (hx : x = if κ / 6 * ljF ljMax <
        (if γ < 1 then math.inverse_langevin γ else 19 / 20 * (κ / 6 * ljF ljMax)) then 19 / 20 * (κ / 6 * ljF ljMax) else
      if γ < 1 then math.inverse_langevin γ else 19 / 20 * (κ / 6 * ljF ljMax)) : LjOk C κ γ x := by
  have hl : γ < 1 := h2.trans (langevin_lt_one (by linarith))
  have hg := lj_guess hC hκ h6 h1 h2
  have := (lj_force_max (show 0 < κ by linarith)).1
  rw [if_pos hl, if_neg (by have := hg.2.1; linarith)] at hx
  rwa [hx]

section leaves

variable {x κ' : SReal} {r κ : ℝ}

theorem lj_reduced_force_mem (hκ : 40 ≤ κ) (h6 : κ ≤ 1000000) (h1 : 1 / 1000000 ≤ r) (h2 : r < langevin (κ / 46)) :
    0 < ufjc.lennard_jones.thermodynamics.isometric.asymptotic.reduced.legendre.nondimensional_force κ r ∧ ufjc.lennard_jones.thermodynamics.isometric.asymptotic.reduced.legendre.nondimensional_force κ r < κ / 46 := by
  have hκ0 : 0 < κ := by linarith
  have hc : (0 : ℝ) < 2 / 23 := by norm_num
  simp only [ufjc.lennard_jones.thermodynamics.isometric.asymptotic.reduced.legendre.nondimensional_force, model_real, lj_stretch_eq,
    lj_max_code]
  generalize hg : (if κ / 6 * ljF ljMax <
        (if r < 1 then math.inverse_langevin r else 19 / 20 * (κ / 6 * ljF ljMax)) then 19 / 20 * (κ / 6 * ljF ljMax) else
      if r < 1 then math.inverse_langevin r else 19 / 20 * (κ / 6 * ljF ljMax)) = x0
  have hok := lj_guess_code (C := (fun _ => 0)) (fun _ _ => le_rfl) hκ h6 h1 h2 hg.symm
  refine powered_stop_mem (S := LjOk (fun _ => 0) κ r) (S' := fun x => 0 < x ∧ x < κ / 46)
    (fun z hz => ?_) (fun z hz => ?_) hok ⟨by linarith [hok.1], hok.2.1⟩ 100
  · have hz0 : 0 < z := by linarith [hz.1]
    have := hz.2.2.2
    simp only [langevin, ljPsi, add_zero] at this ⊢
    refine ne_of_gt ?_
    linarith
  · have hz0 : 0 < z := by linarith [hz.1]
    refine LjOk.step (ls_zero_corr _) (fun x hx => by linarith) hκ h1 hz ?_ ?_
    · simp only [langevin, ljPsi, add_zero]; ring
    · simp only [ljPsi', add_zero]; ring

theorem _root_.Polymers.SReal.Is.lj_reduced_force (hκ' : Is κ' κ) (hx : Is x r)
    (hκ : 40 ≤ κ) (h6 : κ ≤ 1000000) (h1 : 1 / 1000000 ≤ r) (h2 : r < langevin (κ / 46)) :
    Is (ufjc.lennard_jones.thermodynamics.isometric.asymptotic.reduced.legendre.nondimensional_force κ' x) (ufjc.lennard_jones.thermodynamics.isometric.asymptotic.reduced.legendre.nondimensional_force κ r) := by
  have hκ0 : 0 < κ := by linarith
  have hr0 : 0 < r := by linarith
  have hc : (0 : ℝ) < 2 / 23 := by norm_num
  have e1 : (1.0 : ℝ) = 1 := by norm_num
  have e6 : (1e-6 : ℝ) = 1 / 1000000 := by norm_num
  have hpw : (0 : ℝ) < Elem.powf (13.0 / 7.0) (1.0 / 6.0) := by
    simp only [model_real]; positivity
  have hmax : Is (κ' / 6.0 * (Elem.powi (Elem.powf (13.0 / 7.0) (1.0 / 6.0)) (-7) - Elem.powi (Elem.powf (13.0 / 7.0) (1.0 / 6.0)) (-13)))
      (κ / 6.0 * (Elem.powi (Elem.powf (13.0 / 7.0) (1.0 / 6.0)) (-7) - Elem.powi (Elem.powf (13.0 / 7.0) (1.0 / 6.0)) (-13))) := by
    defined [hx, hκ']
  have hg1 : Is (if Elem.lt x 1.0 = true then math.inverse_langevin x else 0.95 * (κ' / 6.0 * (Elem.powi (Elem.powf (13.0 / 7.0) (1.0 / 6.0)) (-7) - Elem.powi (Elem.powf (13.0 / 7.0) (1.0 / 6.0)) (-13))))
      (if Elem.lt r 1.0 = true then math.inverse_langevin r else 0.95 * (κ / 6.0 * (Elem.powi (Elem.powf (13.0 / 7.0) (1.0 / 6.0)) (-7) - Elem.powi (Elem.powf (13.0 / 7.0) (1.0 / 6.0)) (-13)))) :=
    Is.ite_lt hx (Is.lit _ _ _) (fun h1 => Is.inverse_langevin hx ⟨hr0, by rwa [e1] at h1⟩) (fun _ => .mul (.lit _ _ _) hmax)
  have hok := lj_guess_code (C := (fun _ => 0)) (fun _ _ => le_rfl) hκ h6 h1 h2 rfl
  have hM := lj_force_max hκ0
  refine Is.newton_powered_stop (S := LjOk (fun _ => 0) κ r) rfl rfl (by norm_num) hx hr0.ne'
    (Is.ite_lt hmax hg1 (fun _ => .mul (.lit _ _ _) hmax) (fun _ => hg1)) (Is.lit _ _ _)
    (fun z hz => ?_) (fun z hz => ?_) (fun z hz => ?_) (fun z hz => ?_) (fun z hz => ?_) ?_
  · have hz0 : 0 < z := by linarith [hz.1]
    have hzM : z < κ / 6 * ljF ljMax := by linarith [hz.2.1, hM.1]
    defined [hκ', is_lj_stretch ?_ ?_ hκ0 hz0 hzM]
  · have hz0 : 0 < z := by linarith [hz.1]
    have hzp : 0 < z + 1e-6 := by rw [e6]; linarith
    have hzm : 0 < z - 1e-6 := by rw [e6]; linarith [hz.1]
    have hzpM : z + 1e-6 < κ / 6 * ljF ljMax := by rw [e6]; linarith [hz.2.1, hM.2 hκ]
    have hzmM : z - 1e-6 < κ / 6 * ljF ljMax := by rw [e6]; linarith [hz.2.1, hM.1]
    defined [hκ', is_lj_stretch ?_ ?_ hκ0 hzp hzpM, is_lj_stretch ?_ ?_ hκ0 hzm hzmM]
  · have hz0 : 0 < z := by linarith [hz.1]
    have hd := langevin_deriv_pos hz0.ne'
    have h2 := (ls_zero_corr _).slope z hz0 hz.2.1
    have h3 := ljPsi'_ge hκ hz.1 hz.2.1
    have h5 : 0 < 1 / κ := by positivity
    have h4 : 0 < 1 / z ^ 2 - 1 / Real.sinh z ^ 2 + 0 + ljPsi' κ z := by linarith
    simp only [ljPsi'] at h4
    simp only [model_real, lj_stretch_eq, add_zero]
    refine ne_of_gt ?_
    linarith
  · have hz0 : 0 < z := by linarith [hz.1]
    have := hz.2.2.2
    simp only [langevin, ljPsi] at this
    simp only [model_real, lj_stretch_eq, add_zero]
    refine ne_of_gt ?_
    linarith
  · have hz0 : 0 < z := by linarith [hz.1]
    rw [powered_step_val]
    · intro ht
      refine (LjOk.step (ls_zero_corr _) (fun x hx => by linarith) hκ h1 hz ?_ ?_).2 ?_
      · simp only [model_real, lj_stretch_eq, langevin, ljPsi, add_zero]; ring
      · simp only [model_real, lj_stretch_eq, ljPsi', add_zero]; ring
      · simpa only [e6, elem_abs] using ht
    · have := hz.2.2.2
      simp only [langevin, ljPsi] at this
      simp only [model_real, lj_stretch_eq, add_zero]
      refine ne_of_gt ?_
      linarith
  · simpa only [model_real, lj_max_code] using hok

theorem _root_.Polymers.SReal.Is.lj_reduced_energy {N : ℕ} {ℓ m T : ℝ} {ℓ' m' T' : SReal} (hN : 0 < N)
    (Hℓ : Is ℓ' ℓ) (Hm : Is m' m) (HT : Is T' T) (hℓ : 0 < ℓ) (hm : 0 < m) (hT : 0 < T) (hκ' : Is κ' κ) (hx : Is x r)
    (hκ : 40 ≤ κ) (h6 : κ ≤ 1000000) (h1 : 1 / 1000000 ≤ r) (h2 : r < langevin (κ / 46)) :
    Is (ufjc.lennard_jones.thermodynamics.isometric.asymptotic.reduced.legendre.nondimensional_helmholtz_free_energy_per_link N ℓ' m' κ' x T') (ufjc.lennard_jones.thermodynamics.isometric.asymptotic.reduced.legendre.nondimensional_helmholtz_free_energy_per_link N ℓ m κ r T) := by
  have hκ0 : 0 < κ := by linarith
  have hN' : (0 : ℝ) < N := Nat.cast_pos.2 hN
  obtain ⟨hp, hp'⟩ := lj_reduced_force_mem hκ h6 h1 h2
  have hpM := hp'.trans (lj_force_max hκ0).1
  have hs := lj_stretch_pos hκ0 hp hpM
  defined [hx, hκ', Hℓ, Hm, HT, is_lj_stretch ?_ ?_ hκ0 hp hpM, Is.lj_reduced_force hκ' hx hκ h6 h1 h2]

theorem lj_asymptotic_force_mem (hκ : 40 ≤ κ) (h6 : κ ≤ 1000000) (h1 : 1 / 1000000 ≤ r) (h2 : r < langevin (κ / 46)) :
    0 < ufjc.lennard_jones.thermodynamics.isometric.asymptotic.legendre.nondimensional_force κ r ∧ ufjc.lennard_jones.thermodynamics.isometric.asymptotic.legendre.nondimensional_force κ r < κ / 46 := by
  have hκ0 : 0 < κ := by linarith
  have hc : (0 : ℝ) < 2 / 23 := by norm_num
  simp only [ufjc.lennard_jones.thermodynamics.isometric.asymptotic.legendre.nondimensional_force, model_real, lj_stretch_eq,
    lj_max_code]
  generalize hg : (if κ / 6 * ljF ljMax <
        (if r < 1 then math.inverse_langevin r else 19 / 20 * (κ / 6 * ljF ljMax)) then 19 / 20 * (κ / 6 * ljF ljMax) else
      if r < 1 then math.inverse_langevin r else 19 / 20 * (κ / 6 * ljF ljMax)) = x0
  have hok := lj_guess_code (C := (asyC (2 / 23 * κ))) (fun x hx => asyC_nonneg (by linarith) hx) hκ h6 h1 h2 hg.symm
  refine powered_stop_mem (S := LjOk (asyC (2 / 23 * κ)) κ r) (S' := fun x => 0 < x ∧ x < κ / 46)
    (fun z hz => ?_) (fun z hz => ?_) hok ⟨by linarith [hok.1], hok.2.1⟩ 100
  · have hz0 : 0 < z := by linarith [hz.1]
    have := hz.2.2.2
    simp only [langevin, ljPsi, corr_code hc hκ0 hz0] at this ⊢
    refine ne_of_gt ?_
    linarith
  · have hz0 : 0 < z := by linarith [hz.1]
    refine LjOk.step (lj_corr hκ0) (lj_corr_le hκ) hκ h1 hz ?_ ?_
    · simp only [langevin, ljPsi, corr_code hc hκ0 hz0]; ring
    · simp only [ljPsi', corr_slope_code hc hκ0 hz0]; ring

theorem _root_.Polymers.SReal.Is.lj_asymptotic_force (hκ' : Is κ' κ) (hx : Is x r)
    (hκ : 40 ≤ κ) (h6 : κ ≤ 1000000) (h1 : 1 / 1000000 ≤ r) (h2 : r < langevin (κ / 46)) :
    Is (ufjc.lennard_jones.thermodynamics.isometric.asymptotic.legendre.nondimensional_force κ' x) (ufjc.lennard_jones.thermodynamics.isometric.asymptotic.legendre.nondimensional_force κ r) := by
  have hκ0 : 0 < κ := by linarith
  have hr0 : 0 < r := by linarith
  have hc : (0 : ℝ) < 2 / 23 := by norm_num
  have e1 : (1.0 : ℝ) = 1 := by norm_num
  have e6 : (1e-6 : ℝ) = 1 / 1000000 := by norm_num
  have hpw : (0 : ℝ) < Elem.powf (13.0 / 7.0) (1.0 / 6.0) := by
    simp only [model_real]; positivity
  have hmax : Is (κ' / 6.0 * (Elem.powi (Elem.powf (13.0 / 7.0) (1.0 / 6.0)) (-7) - Elem.powi (Elem.powf (13.0 / 7.0) (1.0 / 6.0)) (-13)))
      (κ / 6.0 * (Elem.powi (Elem.powf (13.0 / 7.0) (1.0 / 6.0)) (-7) - Elem.powi (Elem.powf (13.0 / 7.0) (1.0 / 6.0)) (-13))) := by
    defined [hx, hκ']
  have hg1 : Is (if Elem.lt x 1.0 = true then math.inverse_langevin x else 0.95 * (κ' / 6.0 * (Elem.powi (Elem.powf (13.0 / 7.0) (1.0 / 6.0)) (-7) - Elem.powi (Elem.powf (13.0 / 7.0) (1.0 / 6.0)) (-13))))
      (if Elem.lt r 1.0 = true then math.inverse_langevin r else 0.95 * (κ / 6.0 * (Elem.powi (Elem.powf (13.0 / 7.0) (1.0 / 6.0)) (-7) - Elem.powi (Elem.powf (13.0 / 7.0) (1.0 / 6.0)) (-13)))) :=
    Is.ite_lt hx (Is.lit _ _ _) (fun h1 => Is.inverse_langevin hx ⟨hr0, by rwa [e1] at h1⟩) (fun _ => .mul (.lit _ _ _) hmax)
  have hok := lj_guess_code (C := (asyC (2 / 23 * κ))) (fun x hx => asyC_nonneg (by linarith) hx) hκ h6 h1 h2 rfl
  have hM := lj_force_max hκ0
  refine Is.newton_powered_stop (S := LjOk (asyC (2 / 23 * κ)) κ r) rfl rfl (by norm_num) hx hr0.ne'
    (Is.ite_lt hmax hg1 (fun _ => .mul (.lit _ _ _) hmax) (fun _ => hg1)) (Is.lit _ _ _)
    (fun z hz => ?_) (fun z hz => ?_) (fun z hz => ?_) (fun z hz => ?_) (fun z hz => ?_) ?_
  · have hz0 : 0 < z := by linarith [hz.1]
    have hzM : z < κ / 6 * ljF ljMax := by linarith [hz.2.1, hM.1]
    defined [hκ', is_lj_stretch ?_ ?_ hκ0 hz0 hzM]
  · have hz0 : 0 < z := by linarith [hz.1]
    have hzp : 0 < z + 1e-6 := by rw [e6]; linarith
    have hzm : 0 < z - 1e-6 := by rw [e6]; linarith [hz.1]
    have hzpM : z + 1e-6 < κ / 6 * ljF ljMax := by rw [e6]; linarith [hz.2.1, hM.2 hκ]
    have hzmM : z - 1e-6 < κ / 6 * ljF ljMax := by rw [e6]; linarith [hz.2.1, hM.1]
    defined [hκ', is_lj_stretch ?_ ?_ hκ0 hzp hzpM, is_lj_stretch ?_ ?_ hκ0 hzm hzmM]
  · have hz0 : 0 < z := by linarith [hz.1]
    have hd := langevin_deriv_pos hz0.ne'
    have h2 := (lj_corr hκ0).slope z hz0 hz.2.1
    have h3 := ljPsi'_ge hκ hz.1 hz.2.1
    have h5 : 0 < 1 / κ := by positivity
    have h4 : 0 < 1 / z ^ 2 - 1 / Real.sinh z ^ 2 + asyC' (2 / 23 * κ) z + ljPsi' κ z := by linarith
    simp only [ljPsi'] at h4
    simp only [model_real, lj_stretch_eq, corr_slope_code hc hκ0 hz0]
    refine ne_of_gt ?_
    linarith
  · have hz0 : 0 < z := by linarith [hz.1]
    have := hz.2.2.2
    simp only [langevin, ljPsi] at this
    simp only [model_real, lj_stretch_eq, corr_code hc hκ0 hz0]
    refine ne_of_gt ?_
    linarith
  · have hz0 : 0 < z := by linarith [hz.1]
    rw [powered_step_val]
    · intro ht
      refine (LjOk.step (lj_corr hκ0) (lj_corr_le hκ) hκ h1 hz ?_ ?_).2 ?_
      · simp only [model_real, lj_stretch_eq, langevin, ljPsi, corr_code hc hκ0 hz0]; ring
      · simp only [model_real, lj_stretch_eq, ljPsi', corr_slope_code hc hκ0 hz0]; ring
      · simpa only [e6, elem_abs] using ht
    · have := hz.2.2.2
      simp only [langevin, ljPsi] at this
      simp only [model_real, lj_stretch_eq, corr_code hc hκ0 hz0]
      refine ne_of_gt ?_
      linarith
  · simpa only [model_real, lj_max_code] using hok

theorem _root_.Polymers.SReal.Is.lj_asymptotic_energy {N : ℕ} {ℓ m T : ℝ} {ℓ' m' T' : SReal} (hN : 0 < N)
    (Hℓ : Is ℓ' ℓ) (Hm : Is m' m) (HT : Is T' T) (hℓ : 0 < ℓ) (hm : 0 < m) (hT : 0 < T) (hκ' : Is κ' κ) (hx : Is x r)
    (hκ : 40 ≤ κ) (h6 : κ ≤ 1000000) (h1 : 1 / 1000000 ≤ r) (h2 : r < langevin (κ / 46)) :
    Is (ufjc.lennard_jones.thermodynamics.isometric.asymptotic.legendre.nondimensional_helmholtz_free_energy_per_link N ℓ' m' κ' x T') (ufjc.lennard_jones.thermodynamics.isometric.asymptotic.legendre.nondimensional_helmholtz_free_energy_per_link N ℓ m κ r T) := by
  have hκ0 : 0 < κ := by linarith
  have hN' : (0 : ℝ) < N := Nat.cast_pos.2 hN
  obtain ⟨hp, hp'⟩ := lj_asymptotic_force_mem hκ h6 h1 h2
  have hpM := hp'.trans (lj_force_max hκ0).1
  have hs := lj_stretch_pos hκ0 hp hpM
  defined [hx, hκ', Hℓ, Hm, HT, is_lj_stretch ?_ ?_ hκ0 hp hpM, Is.lj_asymptotic_force hκ' hx hκ h6 h1 h2]

end leaves

/-- The parameters and extensions of the theorems below: the stiffness is between forty and a million, and the extension is
at least a millionth and below what the Langevin function reaches at the force `κ/46` (somewhat more than half of the largest force of a link). -/
def LennardJonesDomain (ℓ k y T : ℝ) : Prop :=
  40 ≤ ndStiffness k ℓ T ∧ ndStiffness k ℓ T ≤ 1000000 ∧ 1e-6 ≤ y ∧ y < langevin (ndStiffness k ℓ T / 46)

theorem LennardJonesDomain.ext {ℓ k y T : ℝ} (h : LennardJonesDomain ℓ k y T) {r : ℝ} (hr : r = y ∨ r = (ZERO : ℝ)) :
    1 / 1000000 ≤ r ∧ r < langevin (ndStiffness k ℓ T / 46) := by
  obtain ⟨h1, h2, h3, h4⟩ := h
  have e : (1e-6 : ℝ) = 1 / 1000000 := by norm_num
  rcases hr with rfl | rfl
  · exact ⟨by rwa [e] at h3, h4⟩
  · have ez : (ZERO : ℝ) = 1e-6 := rfl
    rw [ez]
    exact ⟨e.ge, h3.trans_lt h4⟩

/-- A chain at 300 K and half extension is in the domain. -/
example : LennardJonesDomain 1 500000 (1 / 2) 300 := by
  have h1 : 150 ≤ ndStiffness 500000 1 300 := by norm_num [ndStiffness, kT, boltzmann_eq]
  refine ⟨by linarith, by norm_num [ndStiffness, kT, boltzmann_eq], by norm_num, ?_⟩
  have h2 : langevin 3 ≤ langevin (ndStiffness 500000 1 300 / 46) :=
    langevin_strictMonoOn.monotoneOn (Set.mem_Ioi.2 three_pos) (Set.mem_Ioi.2 (by linarith)) (by linarith)
  refine lt_of_lt_of_le ?_ h2
  have h3 : 1 ≤ 1 / Real.tanh 3 := by
    have := self_lt_div_tanh three_pos
    rw [div_eq_mul_one_div] at this
    linarith
  unfold langevin
  linarith

/-- C56: every method of the family is defined on the stated extensions. -/
theorem C56_lennard_jones_isometric_asymptotic_reduced_legendre_helmholtz {N : ℕ} (hN : 0 < N) {ℓ m k : ℝ} (hℓ : 0 < ℓ) (hm : 0 < m) (hk : 0 < k) :
    (ApiS.lennard_jones_isometric_asymptotic_reduced_legendre_helmholtz N ℓ m k).DefinedAs (Api.lennard_jones_isometric_asymptotic_reduced_legendre_helmholtz N ℓ m k) (fun ξ _ => ξ / (N * ℓ))
      (LennardJonesDomain ℓ k) := by
  have hN' : (0 : ℝ) < N := Nat.cast_pos.2 (by omega)
  have eN : (ZERO : ℝ) * N * ℓ / (N * ℓ) = ZERO := by field_simp
  constructor <;> intro x T hT hD <;> refine (?_ : Is _ _)
  all_goals
    have h40 := hD.1
    have h6 := hD.2.1
    have hE := fun r hr => hD.ext (r := r) hr
    rw [Props.ndStiffness_code] at h40 h6
    simp only [Props.ndStiffness_code] at hE
    defined [Is.lj_reduced_energy (by first | exact hN | norm_num) ?_ ?_ ?_ ?_ ?_ ?_ ?_ ?_ h40 h6 (hE _ (by first | exact .inl rfl | exact .inr rfl | exact .inr eN | (rw [div_div]; first | exact .inl rfl | exact .inr eN))).1 (hE _ (by first | exact .inl rfl | exact .inr rfl | exact .inr eN | (rw [div_div]; first | exact .inl rfl | exact .inr eN))).2]

example : (ApiS.lennard_jones_isometric_asymptotic_reduced_legendre_helmholtz 8 1 1 500000).DefinedAs (Api.lennard_jones_isometric_asymptotic_reduced_legendre_helmholtz 8 1 1 500000) (fun ξ _ => ξ / ((8 : ℕ) * 1))
    (LennardJonesDomain 1 500000) :=
  C56_lennard_jones_isometric_asymptotic_reduced_legendre_helmholtz (N := 8) (m := 1) (by norm_num) (by norm_num) (by norm_num) (by norm_num)

/-- C56: every method of the family is defined on the stated extensions. -/
theorem C56_lennard_jones_isometric_asymptotic_reduced_legendre_forces {N : ℕ} (hN : 0 < N) {ℓ m k : ℝ} (hℓ : 0 < ℓ) (hk : 0 < k) :
    (ApiS.lennard_jones_isometric_asymptotic_reduced_legendre_forces N ℓ m k).DefinedAs (Api.lennard_jones_isometric_asymptotic_reduced_legendre_forces N ℓ m k) (fun ξ _ => ξ / (N * ℓ))
      (LennardJonesDomain ℓ k) := by
  have hN' : (0 : ℝ) < N := Nat.cast_pos.2 (by omega)
  have eN : (ZERO : ℝ) * N * ℓ / (N * ℓ) = ZERO := by field_simp
  constructor <;> intro x T hT hD <;> refine (?_ : Is _ _)
  all_goals
    have h40 := hD.1
    have h6 := hD.2.1
    have hE := fun r hr => hD.ext (r := r) hr
    rw [Props.ndStiffness_code] at h40 h6
    simp only [Props.ndStiffness_code] at hE
    defined [Is.lj_reduced_force ?_ ?_ h40 h6 (hE _ (by first | exact .inl rfl | exact .inr rfl | exact .inr eN | (rw [div_div]; first | exact .inl rfl | exact .inr eN))).1 (hE _ (by first | exact .inl rfl | exact .inr rfl | exact .inr eN | (rw [div_div]; first | exact .inl rfl | exact .inr eN))).2]

example : (ApiS.lennard_jones_isometric_asymptotic_reduced_legendre_forces 8 1 1 500000).DefinedAs (Api.lennard_jones_isometric_asymptotic_reduced_legendre_forces 8 1 1 500000) (fun ξ _ => ξ / ((8 : ℕ) * 1))
    (LennardJonesDomain 1 500000) :=
  C56_lennard_jones_isometric_asymptotic_reduced_legendre_forces (N := 8) (m := 1) (by norm_num) (by norm_num) (by norm_num)

/-- C56: every method of the family is defined on the stated extensions. -/
theorem C56_lennard_jones_isometric_asymptotic_legendre_helmholtz {N : ℕ} (hN : 0 < N) {ℓ m k : ℝ} (hℓ : 0 < ℓ) (hm : 0 < m) (hk : 0 < k) :
    (ApiS.lennard_jones_isometric_asymptotic_legendre_helmholtz N ℓ m k).DefinedAs (Api.lennard_jones_isometric_asymptotic_legendre_helmholtz N ℓ m k) (fun ξ _ => ξ / (N * ℓ))
      (LennardJonesDomain ℓ k) := by
  have hN' : (0 : ℝ) < N := Nat.cast_pos.2 (by omega)
  have eN : (ZERO : ℝ) * N * ℓ / (N * ℓ) = ZERO := by field_simp
  constructor <;> intro x T hT hD <;> refine (?_ : Is _ _)
  all_goals
    have h40 := hD.1
    have h6 := hD.2.1
    have hE := fun r hr => hD.ext (r := r) hr
    rw [Props.ndStiffness_code] at h40 h6
    simp only [Props.ndStiffness_code] at hE
    defined [Is.lj_asymptotic_energy (by first | exact hN | norm_num) ?_ ?_ ?_ ?_ ?_ ?_ ?_ ?_ h40 h6 (hE _ (by first | exact .inl rfl | exact .inr rfl | exact .inr eN | (rw [div_div]; first | exact .inl rfl | exact .inr eN))).1 (hE _ (by first | exact .inl rfl | exact .inr rfl | exact .inr eN | (rw [div_div]; first | exact .inl rfl | exact .inr eN))).2]

example : (ApiS.lennard_jones_isometric_asymptotic_legendre_helmholtz 8 1 1 500000).DefinedAs (Api.lennard_jones_isometric_asymptotic_legendre_helmholtz 8 1 1 500000) (fun ξ _ => ξ / ((8 : ℕ) * 1))
    (LennardJonesDomain 1 500000) :=
  C56_lennard_jones_isometric_asymptotic_legendre_helmholtz (N := 8) (m := 1) (by norm_num) (by norm_num) (by norm_num) (by norm_num)

/-- C56: every method of the family is defined on the stated extensions. -/
theorem C56_lennard_jones_isometric_asymptotic_legendre_forces {N : ℕ} (hN : 0 < N) {ℓ m k : ℝ} (hℓ : 0 < ℓ) (hk : 0 < k) :
    (ApiS.lennard_jones_isometric_asymptotic_legendre_forces N ℓ m k).DefinedAs (Api.lennard_jones_isometric_asymptotic_legendre_forces N ℓ m k) (fun ξ _ => ξ / (N * ℓ))
      (LennardJonesDomain ℓ k) := by
  have hN' : (0 : ℝ) < N := Nat.cast_pos.2 (by omega)
  have eN : (ZERO : ℝ) * N * ℓ / (N * ℓ) = ZERO := by field_simp
  constructor <;> intro x T hT hD <;> refine (?_ : Is _ _)
  all_goals
    have h40 := hD.1
    have h6 := hD.2.1
    have hE := fun r hr => hD.ext (r := r) hr
    rw [Props.ndStiffness_code] at h40 h6
    simp only [Props.ndStiffness_code] at hE
    defined [Is.lj_asymptotic_force ?_ ?_ h40 h6 (hE _ (by first | exact .inl rfl | exact .inr rfl | exact .inr eN | (rw [div_div]; first | exact .inl rfl | exact .inr eN))).1 (hE _ (by first | exact .inl rfl | exact .inr rfl | exact .inr eN | (rw [div_div]; first | exact .inl rfl | exact .inr eN))).2]

example : (ApiS.lennard_jones_isometric_asymptotic_legendre_forces 8 1 1 500000).DefinedAs (Api.lennard_jones_isometric_asymptotic_legendre_forces 8 1 1 500000) (fun ξ _ => ξ / ((8 : ℕ) * 1))
    (LennardJonesDomain 1 500000) :=
  C56_lennard_jones_isometric_asymptotic_legendre_forces (N := 8) (m := 1) (by norm_num) (by norm_num) (by norm_num)

end Polymers.Props
