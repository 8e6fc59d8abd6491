import Verif.Lemmas.EfjcAlternative
import Verif.Props.EfjcLegendre

/-!
C26 for the alternative asymptotic model of extensible links: the Newton solver for the force converges for extensions which
the Langevin function reaches below the link stiffness, and for all extensions beyond full extension.
-/

namespace Polymers.Props

open Polymers.Spec Polymers.Api Polymers.Lemmas Set Filter Topology

/-- The domain of the theorems: extensions below the one the Langevin function takes at the stiffness, or beyond full
extension. -/
theorem inverse_langevin_lt_stiffness {κ γ : ℝ} (hκ : 0 < κ) (h0 : 0 < γ) (h : γ < langevin κ) :
    math.inverse_langevin γ < κ := by
  have h1 : γ < 1 := h.trans (langevin_lt_one hκ)
  have hx := (inverse_langevin_spec h0 h1).1
  have := inverse_langevin_below h0 h1
  by_contra hc
  have := langevin_strictMonoOn.monotoneOn (show κ ∈ Ioi 0 from hκ) (show _ ∈ Ioi 0 from hx) (not_lt.1 hc)
  linarith

/-- A first step from above the root, started at most `B` above it on the scale of the stiffness. -/
theorem alt_first {κ γ x B : ℝ} (hκ : 0 < κ) (hok : AltOk κ γ x) (hc : γ ≤ altF κ x) (hB : κ * (altF κ x - γ) ≤ B)
    (hB2 : (1 / x ^ 2 - 1 / Real.sinh x ^ 2) * langevinU x * B ≤
      1 + altH' x + κ * (1 / x ^ 2 - 1 / Real.sinh x ^ 2) / 100) :
    γ - altF κ (altStep κ γ x) ≤ 3 * (altF κ x - γ) ∧ x - altStep κ γ x ≤ B := by
  have hx := hok.1
  have hd := langevin_deriv_pos hx.ne'
  have hU := langevinU_pos hx.le
  have e := altStep_eq (y := γ) hκ hx
  have h1 := altH'_pos hx
  have h2 := altH'_le hx
  have e2 : (x - altStep κ γ x) * (κ * (1 / x ^ 2 - 1 / Real.sinh x ^ 2) + (1 + altH' x)) = κ * (altF κ x - γ) := by
    have : κ * (altF' κ x) = κ * (1 / x ^ 2 - 1 / Real.sinh x ^ 2) + (1 + altH' x) := by unfold altF'; field_simp
    rw [← this]; linear_combination (-κ) * e
  have hs : 0 ≤ x - altStep κ γ x := nonneg_of_mul_nonneg_left (b := altF' κ x) (by linarith) (altF'_pos hκ hx)
  have hK : κ * (1 / κ) = 1 := by field_simp
  have hf := altStep_first hκ hok hc rfl
  generalize 1 / x ^ 2 - 1 / Real.sinh x ^ 2 = d at *
  generalize altH' x = c at *
  generalize langevinU x = u at *
  generalize x - altStep κ γ x = s at *
  have ha : 0 < κ * d := by positivity
  obtain ⟨p, hp⟩ : ∃ p, p = d * u * s := ⟨_, rfl⟩
  have hp0 : 0 ≤ p := by rw [hp]; positivity
  rw [← hp] at hf
  have hpa : p * (κ * d + (1 + c)) ≤ 1 + c + κ * d / 100 := by
    have := mul_le_mul_of_nonneg_left hB (show 0 ≤ d * u by positivity)
    rw [hp]
    calc d * u * s * (κ * d + (1 + c)) = d * u * (κ * (altF κ x - γ)) := by rw [← e2]; ring
      _ ≤ d * u * B := this
      _ ≤ _ := hB2
  refine ⟨hf ?_ ?_, ?_⟩
  · by_contra h
    nlinarith [not_lt.1 h]
  · have h3 : κ * d * p ≤ 2 * (κ * d + 1) * (1 - p) := by
      generalize κ * d = a at *
      have h4 : 0 ≤ (2 * (a + 1) - p * (3 * a + 2)) * (a + (1 + c)) := by
        have : p * (a + (1 + c)) * (3 * a + 2) ≤ (1 + c + a / 100) * (3 * a + 2) :=
          mul_le_mul_of_nonneg_right hpa (by positivity)
        nlinarith
      have := nonneg_of_mul_nonneg_left h4 (by positivity)
      linarith
    have h5 : κ * (2 * (d + 1 / κ) * (1 - p)) = 2 * (κ * d + 1) * (1 - p) := by linear_combination 2 * (1 - p) * hK
    refine le_of_mul_le_mul_left ?_ hκ
    rw [h5, ← mul_assoc]; exact h3
  · nlinarith

theorem deriv_mul_U_le {x : ℝ} (hx : 0 < x) : (1 / x ^ 2 - 1 / Real.sinh x ^ 2) * langevinU x * x ≤ 1 := by
  have hU := langevinU_pos hx.le
  have := mul_le_mul_of_nonneg_left (langevin_deriv_mul_le hx) hU.le
  rw [langevin_eq_of_U hx.le, sub_sub_cancel, mul_one_div_cancel hU.ne'] at this
  linarith

theorem efjc_alternative_solver {κ γ : ℝ} (hκ : 0 < κ) (hγ : 0 < γ) (hγ1 : γ < langevin κ ∨ 1 < γ) :
    0 < efjc.thermodynamics.isometric.asymptotic.alternative.legendre.nondimensional_force κ γ ∧
    altF κ (efjc.thermodynamics.isometric.asymptotic.alternative.legendre.nondimensional_force κ γ) ≤ γ ∧
    γ - altF κ (efjc.thermodynamics.isometric.asymptotic.alternative.legendre.nondimensional_force κ γ) ≤ 3e-6 * γ := by
  have h100 : ∀ c : ℝ, c ≤ γ → (3 / 4) ^ 99 * c ≤ 3e-6 * γ := by
    intro c hc
    have : ((3:ℝ) / 4) ^ 99 ≤ 3e-6 := by norm_num
    have h2 : (0:ℝ) ≤ (3 / 4) ^ 99 := by positivity
    generalize ((3:ℝ) / 4) ^ 99 = q at *
    nlinarith
  have hpos : ∀ z, 0 < z → 0 < altF κ z := fun z hz => by
    have := langevin_pos hz
    have := altH_nonneg hz
    unfold altF; positivity
  simp only [efjc.thermodynamics.isometric.asymptotic.alternative.legendre.nondimensional_force, math.inverse_newton_raphson]
  have hlt1 : Elem.lt (1e-6 : ℝ) 1.0 = true := by simp only [model_real]; norm_num
  generalize hfd : (fun η : ℝ => _) = f
  generalize hfpd : (fun η : ℝ => _) = fp
  have hf : ∀ x, f x = altF κ x := by
    intro x; rw [← hfd]; simp only [model_real, altF, altH, langevin, add_sub_assoc]
  have hfp : ∀ x, fp x = altF' κ x := by
    intro x; rw [← hfpd]; simp only [model_real, altF', altH']
  -- the first step
  have first : ∀ x, AltOk κ γ x → γ ≤ 1 + 3 * (altStep κ γ x / κ) →
      (|γ - altF κ x| / |γ| ≤ 1e-6 → γ - altF κ (altStep κ γ x) ≤ 3e-6 * γ) →
      0 < math.inverse_newton_raphson_loop γ f fp 1e-6 100 x 1.0 ∧
      altF κ (math.inverse_newton_raphson_loop γ f fp 1e-6 100 x 1.0) ≤ γ ∧
      γ - altF κ (math.inverse_newton_raphson_loop γ f fp 1e-6 100 x 1.0) ≤ 3e-6 * γ := by
    intro x hx h1 h2
    rw [math.inverse_newton_raphson_loop, if_pos hlt1]
    have e : x + (γ - altF κ x) / fp x = altStep κ γ x := by rw [hfp, altStep]
    simp only [hf, e, elem_abs]
    obtain ⟨ha, hb⟩ := altStep_below hκ hx
    refine alt_loop hκ hγ hf hfp _ _ _ ha hb h1 ?_ (h100 _ ?_)
    · rw [abs_div]; exact h2
    · linarith [hpos _ ha]
  -- a step from below
  have below : ∀ x, 0 < x → altF κ x ≤ γ → γ ≤ 1 + 3 * (x / κ) →
      0 < math.inverse_newton_raphson_loop γ f fp 1e-6 100 x 1.0 ∧
      altF κ (math.inverse_newton_raphson_loop γ f fp 1e-6 100 x 1.0) ≤ γ ∧
      γ - altF κ (math.inverse_newton_raphson_loop γ f fp 1e-6 100 x 1.0) ≤ 3e-6 * γ := by
    intro x hx h1 h2
    obtain ⟨ha, hb⟩ := altStep_reduces hκ hx h1 h2
    refine first x (.of_below hκ hx h1) ?_ ?_
    · have : x / κ ≤ altStep κ γ x / κ := by gcongr
      linarith
    · rw [abs_of_pos hγ, div_le_iff₀ hγ, abs_of_nonneg (by linarith)]
      intro h
      norm_num at h ⊢
      linarith
  clear hfd hfpd
  by_cases h : γ < 1
  · have h' : γ < langevin κ := hγ1.resolve_right (by linarith)
    have hg : Elem.lt γ (1.0 : ℝ) = true := by simp only [model_real]; norm_num; exact h
    rw [if_pos hg]
    obtain ⟨hx, hacc⟩ := inverse_langevin_spec hγ h
    have hL := inverse_langevin_below hγ h
    have hxκ := inverse_langevin_lt_stiffness hκ hγ h'
    set x := math.inverse_langevin γ with hxd
    clear_value x
    have hxk : 0 < x / κ := by positivity
    rcases le_total (altF κ x) γ with hc | hc
    · exact below x hx hc (by linarith)
    have hok : AltOk κ γ x := .low hx hxκ hL
    obtain ⟨ha, _⟩ := altStep_below hκ hok
    have : 0 < altStep κ γ x / κ := by positivity
    refine first x hok (by linarith) fun hstop => ?_
    rw [abs_of_pos hγ, div_le_iff₀ hγ, abs_of_nonpos (by linarith)] at hstop
    have hxs : x ≤ κ / 100 := by
      rw [abs_of_nonpos (by linarith)] at hacc
      have h3 := altH_nonneg hx
      have h4 : x / κ ≤ 1 / 100 := by
        unfold altF at hstop
        rw [add_div] at hstop
        have : 0 ≤ altH x / κ := by positivity
        norm_num at hstop hacc
        linarith
      rw [div_le_iff₀ hκ] at h4
      linarith
    refine (alt_first (B := x + altH x) hκ hok hc ?_ ?_).1.trans ?_
    · have : κ * (altF κ x - γ) = x + altH x - κ * (γ - langevin x) := by unfold altF; field_simp; ring
      rw [this]
      have := mul_nonneg hκ.le (sub_nonneg.2 hL)
      linarith
    · have hd := langevin_deriv_pos hx.ne'
      have h3 := deriv_mul_U_le hx
      have h4 := altH_key hx
      have hU := langevinU_pos hx.le
      have h5 := altH'_pos hx
      generalize 1 / x ^ 2 - 1 / Real.sinh x ^ 2 = d at *
      generalize langevinU x = u at *
      have h6 : d * u * altH x ≤ d * u * (x * (altH' x + x * d)) :=
        mul_le_mul_of_nonneg_left (by linarith) (by positivity)
      have h7 : d * u * x * (altH' x + x * d) ≤ 1 * (altH' x + x * d) := mul_le_mul_of_nonneg_right h3 (by positivity)
      have h8 : x * d ≤ κ / 100 * d := mul_le_mul_of_nonneg_right hxs hd.le
      linarith
    · norm_num at hstop ⊢
      linarith
  · have h1 : 1 < γ := hγ1.resolve_left fun h2 => h (h2.trans (langevin_lt_one hκ))
    have hg : ¬ Elem.lt γ (1.0 : ℝ) = true := by simp only [model_real]; norm_num; exact h1.le
    rw [if_neg hg]
    have e1 : κ * (γ - 1.0) = κ * (γ - 1) := by norm_num
    rw [e1]
    have hx : 0 < κ * (γ - 1) := mul_pos hκ (by linarith)
    have hxk : κ * (γ - 1) / κ = γ - 1 := by field_simp
    have hok := AltOk.high hκ h1
    set x := κ * (γ - 1) with hxd
    clear_value x
    rcases le_total (altF κ x) γ with hc | hc
    · exact below x hx hc (by rw [hxk]; linarith)
    have hL1 := langevin_lt_one hx
    have hd := langevin_deriv_pos hx.ne'
    have hh := altH_le hx
    obtain ⟨ha, hb⟩ := alt_first (B := 2 / 3 * x) hκ hok hc (by
      have : κ * (altF κ x - γ) = altH x - κ * (1 - langevin x) := by unfold altF; rw [hxd]; field_simp; ring
      rw [this]
      have := mul_nonneg hκ.le (sub_nonneg.2 hL1.le)
      linarith) (by
      have h3 := deriv_mul_U_le hx
      have h5 := altH'_pos hx
      have : 0 < κ * (1 / x ^ 2 - 1 / Real.sinh x ^ 2) := by positivity
      linarith)
    refine first x hok ?_ fun hstop => ?_
    · have : x / 3 / κ ≤ altStep κ γ x / κ := by gcongr; linarith
      have : x / 3 / κ = (γ - 1) / 3 := by rw [← hxk]; ring
      linarith
    · rw [abs_of_pos hγ, div_le_iff₀ hγ, abs_of_nonpos (by linarith)] at hstop
      refine ha.trans ?_
      norm_num at hstop ⊢
      linarith

/-- C26: for extensible links under the alternative asymptotic approach, the force returned for an extension which the
Langevin function reaches below the link stiffness, or for any extension beyond full extension, applied to the chain gives
the extension back to three parts in a million. -/
theorem C26_efjc_alternative (N : ℕ) (ℓ m k : ℝ) (hN : 0 < N) (hℓ : 0 < ℓ) (hk : 0 < k) :
    (efjc_isometric_asymptotic_alternative_legendre_forces N ℓ m k).RoundTrip
      (efjc_isotensional_asymptotic_alternative_lengths N ℓ m k) N ℓ 3e-6
      (fun γ T => 0 < γ ∧ (γ < langevin (ndStiffness k ℓ T) ∨ 1 < γ)) := by
  refine .of_nd hN hℓ (C15_efjc_isometric_asymptotic_alternative_legendre_forces N ℓ m k hN hℓ)
    (C15_efjc_isotensional_asymptotic_alternative_lengths N ℓ m k hN hℓ) ?_
  intro γ T hT hγ
  rw [efjc_alternative_length, abs_of_pos hγ.1]
  obtain ⟨_, h2, h3⟩ := efjc_alternative_solver (ndStiffness_pos hk hℓ hT) hγ.1 hγ.2
  have e : (efjc_isometric_asymptotic_alternative_legendre_forces N ℓ m k).nd_force γ T =
      efjc.thermodynamics.isometric.asymptotic.alternative.legendre.nondimensional_force (ndStiffness k ℓ T) γ := by
    simp only [api_core]
  rw [e]
  unfold altF altH at h2 h3
  simp only [← add_sub_assoc] at h2 h3
  rw [abs_of_nonpos (by linarith)]
  linarith

example : (efjc_isometric_asymptotic_alternative_legendre_forces 8 1 1 500).RoundTrip
      (efjc_isotensional_asymptotic_alternative_lengths 8 1 1 500) 8 1 3e-6
      (fun γ T => 0 < γ ∧ (γ < langevin (ndStiffness 500 1 T) ∨ 1 < γ)) :=
  C26_efjc_alternative 8 1 1 500 (by norm_num) (by norm_num) (by norm_num)

/-- C54: for extensible links under the alternative asymptotic approach, the returned force makes Gibbs energy plus force
times extension largest. -/
theorem C54_efjc_alternative (N : ℕ) (ℓ m k : ℝ) (hN : 0 < N) (hℓ : 0 < ℓ) (hk : 0 < k) :
    (efjc_isometric_asymptotic_alternative_legendre_forces N ℓ m k).Maximises
      (efjc_isotensional_asymptotic_alternative_gibbs N ℓ m k) 3e-6
      (fun γ T => 0 < γ ∧ (γ < langevin (ndStiffness k ℓ T) ∨ 1 < γ)) := by
  intro γ T hT hγ η hη
  have hκ := ndStiffness_pos hk hℓ hT
  have hg : ∀ x : ℝ, 0 < x → HasDerivAt
      (fun η => (efjc_isotensional_asymptotic_alternative_gibbs N ℓ m k).nd_energy_per_link η T)
      (-altF (ndStiffness k ℓ T) x) x := by
    intro x hx
    refine ((C22_efjc_alternative_length_is_gradient N ℓ m k hN hℓ).nd_length_per_link x T hT hx.ne').congr_deriv ?_
    rw [efjc_alternative_length, altF, altH, add_sub_assoc]
  have hc : ConcaveOn ℝ (Ioi 0)
      (fun η => (efjc_isotensional_asymptotic_alternative_gibbs N ℓ m k).nd_energy_per_link η T) := by
    refine concaveOn_of_hasDerivWithinAt2_nonpos (convex_Ioi 0)
      (fun x hx => (hg x hx).continuousAt.continuousWithinAt) (f' := fun x => -altF (ndStiffness k ℓ T) x)
      (f'' := fun x => -altF' (ndStiffness k ℓ T) x) (fun x hx => ?_) (fun x hx => ?_) fun x hx => ?_
    all_goals rw [interior_Ioi] at hx
    · exact (hg x hx).hasDerivWithinAt
    · exact (hasDerivAt_altF hx).neg.hasDerivWithinAt
    · exact neg_nonpos.2 (altF'_pos hκ hx).le
  obtain ⟨hx, h2, h3⟩ := efjc_alternative_solver hκ hγ.1 hγ.2
  have e : (efjc_isometric_asymptotic_alternative_legendre_forces N ℓ m k).nd_force γ T =
      efjc.thermodynamics.isometric.asymptotic.alternative.legendre.nondimensional_force (ndStiffness k ℓ T) γ := by
    simp only [api_core]
  rw [e]
  generalize efjc.thermodynamics.isometric.asymptotic.alternative.legendre.nondimensional_force (ndStiffness k ℓ T) γ = x at *
  have ht := concave_tangent hc (mem_Ioi.2 hx) (mem_Ioi.2 hη) (hg x hx)
  have h4 : (γ - altF (ndStiffness k ℓ T) x) * (η - x) ≤ 3e-6 * γ * |η - x| := by
    refine (le_abs_self _).trans ?_
    rw [abs_mul, abs_of_nonneg (by linarith : 0 ≤ γ - altF (ndStiffness k ℓ T) x)]
    exact mul_le_mul_of_nonneg_right h3 (abs_nonneg _)
  linarith

example : (efjc_isometric_asymptotic_alternative_legendre_forces 8 1 1 500).Maximises
      (efjc_isotensional_asymptotic_alternative_gibbs 8 1 1 500) 3e-6
      (fun γ T => 0 < γ ∧ (γ < langevin (ndStiffness 500 1 T) ∨ 1 < γ)) :=
  C54_efjc_alternative 8 1 1 500 (by norm_num) (by norm_num) (by norm_num)

end Polymers.Props
