import Verif.Lemmas.LatticeSum
import Verif.Lemmas.LangevinShape
import Verif.Props.EfjcLegendre
import Verif.Props.DefinedNetwork

/-!
C82: the network of the damage model is under tension before it is stretched.
-/

namespace Polymers.Props

open Real Set Polymers.Spec Polymers.Lemmas
open Polymers.constitutive.hyperelastic_damage.buche_silberstein

/-! The force of the chain and its weight. -/

theorem ext_inverse {κ γ : ℝ} (hκ : 0 < κ) (hγ : 0 < γ) : ∃ η, 0 < η ∧ extF κ η = γ := by
  have hc : ContinuousOn (extF κ) (Icc 0 (κ * γ)) :=
    (langevin_continuousOn.mono fun x hx => hx.1).add (by fun_prop)
  have hk : 0 < κ * γ := mul_pos hκ hγ
  have h0 : extF κ 0 = 0 := by simp [extF, langevin_zero]
  have h1 : γ ≤ extF κ (κ * γ) := by
    unfold extF
    rw [mul_div_cancel_left₀ _ hκ.ne']
    linarith [langevin_pos hk]
  obtain ⟨η, h, e⟩ := intermediate_value_Icc hk.le hc (show γ ∈ Icc (extF κ 0) (extF κ (κ * γ)) from ⟨by rw [h0]; exact hγ.le, h1⟩)
  refine ⟨η, lt_of_le_of_ne h.1 ?_, e⟩
  rintro rfl
  rw [h0] at e
  linarith

/-- The force at which the chain has a given extension. -/
noncomputable def exactForce {κ : ℝ} (hκ : 0 < κ) {γ : ℝ} (hγ : 0 < γ) : ℝ := (ext_inverse hκ hγ).choose

theorem exactForce_spec {κ : ℝ} (hκ : 0 < κ) {γ : ℝ} (hγ : 0 < γ) : 0 < exactForce hκ hγ ∧ extF κ (exactForce hκ hγ) = γ :=
  (ext_inverse hκ hγ).choose_spec

theorem extF_pos {κ x : ℝ} (hκ : 0 < κ) (hx : 0 < x) : 0 < extF κ x := by
  unfold extF
  have := langevin_pos hx
  positivity

theorem extF_lt {κ x y : ℝ} (hκ : 0 < κ) (hx : 0 < x) (h : x < y) : extF κ x < extF κ y := by
  unfold extF
  have h1 := langevin_strictMonoOn (show x ∈ Ioi 0 from hx) (show y ∈ Ioi 0 from hx.trans h) h
  have h2 : x / κ < y / κ := div_lt_div_of_pos_right h hκ
  linarith

theorem le_of_extF_le {κ x y : ℝ} (hκ : 0 < κ) (hy : 0 < y) (h : extF κ x ≤ extF κ y) : x ≤ y := by
  by_contra hc
  exact absurd (extF_lt hκ hy (not_le.1 hc)) (not_lt.2 h)

/-- The force over the extension, weighted with a narrow enough Gaussian, falls with the force. -/
theorem weight_anti {κ F : ℝ} (hκ : 0 < κ) (hF : √κ / 3 ≤ F) :
    AntitoneOn (fun η => η / extF κ η * exp (-(F * extF κ η ^ 2))) (Ioi 0) := by
  have hd : ∀ η : ℝ, 0 < η → HasDerivAt (fun η => η / extF κ η * exp (-(F * extF κ η ^ 2)))
      (exp (-(F * extF κ η ^ 2)) / extF κ η ^ 2 * (extF κ η - η * (1 / η ^ 2 - 1 / sinh η ^ 2 + 1 / κ) -
        2 * F * extF κ η ^ 2 * (η * (1 / η ^ 2 - 1 / sinh η ^ 2 + 1 / κ)))) η := by
    intro η hη
    have hg := extF_pos hκ hη
    have h1 : HasDerivAt (extF κ) (1 / η ^ 2 - 1 / sinh η ^ 2 + 1 / κ) η :=
      (hasDerivAt_langevin hη.ne').add ((hasDerivAt_id η).div_const κ)
    refine (((hasDerivAt_id η).div h1 hg.ne').mul ((((h1.pow 2).const_mul F).neg).exp)).congr_deriv ?_
    simp only [id, Pi.neg_apply, Pi.pow_apply, Pi.div_apply]
    field_simp
    ring
  refine antitoneOn_of_deriv_nonpos (convex_Ioi 0) (fun η hη => (hd η hη).continuousAt.continuousWithinAt)
    (fun η hη => (hd η (by rwa [interior_Ioi] at hη)).differentiableAt.differentiableWithinAt) ?_
  intro η hη
  rw [interior_Ioi] at hη
  have hη : 0 < η := hη
  rw [(hd η hη).deriv]
  have hs := ext_shape hκ hη
  have hL := langevin_pos hη
  have hp := langevin_deriv_pos hη.ne'
  refine mul_nonpos_of_nonneg_of_nonpos (by positivity) ?_
  have hg' : 0 ≤ η * (1 / η ^ 2 - 1 / sinh η ^ 2 + 1 / κ) := by positivity
  have h1 : langevin η ^ 2 ≤ extF κ η ^ 2 := by
    refine pow_le_pow_left₀ hL.le ?_ 2
    unfold extF
    have : 0 < η / κ := by positivity
    linarith
  have h2 : 2 / 3 * √κ * langevin η ^ 2 ≤ 2 * F * extF κ η ^ 2 := by
    have := sqrt_nonneg κ
    calc 2 / 3 * √κ * langevin η ^ 2 ≤ 2 * F * langevin η ^ 2 := mul_le_mul_of_nonneg_right (by linarith) (sq_nonneg _)
      _ ≤ 2 * F * extF κ η ^ 2 := mul_le_mul_of_nonneg_left h1 (by linarith)
  have h3 := mul_le_mul_of_nonneg_right h2 hg'
  have e : extF κ η - η * (1 / η ^ 2 - 1 / sinh η ^ 2 + 1 / κ) = langevin η - η * (1 / η ^ 2 - 1 / sinh η ^ 2) := by
    unfold extF; ring
  rw [e]
  linarith

/-- The computed force is close to the exact one. -/
theorem chainForce_close {κ γ : ℝ} (hκ : 0 < κ) (hκ' : κ ≤ 1e6) (hγ : 0 < γ) (h1 : γ ≠ 1) :
    chainForce κ γ ≤ exactForce hκ hγ ∧ (1 - 7e-4) * exactForce hκ hγ ≤ chainForce κ γ := by
  obtain ⟨hp, hle, hres⟩ := efjc_reduced_solver hκ hγ h1
  obtain ⟨h0, he⟩ := exactForce_spec hκ hγ
  set x := chainForce κ γ with hx
  set η := exactForce hκ hγ with hη
  change 0 < x at hp
  change extF κ x ≤ γ at hle
  change γ - extF κ x ≤ 1e-6 * γ at hres
  have hle' : x ≤ η := le_of_extF_le hκ h0 (by rw [he]; exact hle)
  refine ⟨hle', ?_⟩
  have hs := ext_shape hκ h0
  have hd := langevin_deriv_pos h0.ne'
  have ht := concave_tangent langevin_concave (show η ∈ Ici 0 from h0.le) (show x ∈ Ici 0 from hp.le) (hasDerivAt_langevin h0.ne')
  have hL := langevin_pos h0
  have hL1 := langevin_lt_one h0
  set p := 1 / η ^ 2 - 1 / sinh η ^ 2 with hpd
  have hq : 0 < p + 1 / κ := by positivity
  have h2 : (η - x) * (p + 1 / κ) ≤ 1e-6 * γ := by
    have e : extF κ x = langevin x + x / κ := rfl
    have e' : γ = langevin η + η / κ := he.symm
    have : (η - x) * (p + 1 / κ) ≤ γ - extF κ x := by
      rw [e, e']
      have : (η - x) * (p + 1 / κ) = (η - x) * p + η / κ - x / κ := by ring
      rw [this]
      linarith
    linarith
  have hsq : √κ ≤ 1000 := by
    rw [sqrt_le_left (by norm_num)]
    norm_num at hκ' ⊢
    exact hκ'
  have h3 : γ ≤ 668 * (η * (p + 1 / κ)) := by
    have hm : 0 ≤ η * (p + 1 / κ) := by positivity
    have h4 : 2 / 3 * √κ * langevin η ^ 2 ≤ 667 := by
      have : langevin η ^ 2 ≤ 1 := pow_le_one₀ hL.le hL1.le
      have h5 := sqrt_nonneg κ
      nlinarith
    have h6 := mul_le_mul_of_nonneg_right h4 hm
    have e' : γ = langevin η + η / κ := he.symm
    have e2 : η * (p + 1 / κ) = η * p + η / κ := by ring
    linarith
  have h4 : (η - x) * (p + 1 / κ) ≤ 7e-4 * η * (p + 1 / κ) := by
    have : 0 ≤ η * (p + 1 / κ) := by positivity
    rw [mul_assoc]
    generalize η * (p + 1 / κ) = m at *
    norm_num at h2 ⊢
    linarith
  have h5 := le_of_mul_le_mul_right h4 hq
  linarith

/-! The sum. -/

/-- The contribution of a point of the grid. -/
theorem disc_pos {h h0 : ℕ → ℝ} (hpos : ∀ n, 2 ≤ n → 0 < h0 n) (hanti : ∀ n, 2 ≤ n → h0 (n + 1) ≤ h0 n)
    (hup : ∀ n, 2 ≤ n → n ≤ 65536 → (∃ i ∈ Finset.range 256, ∃ j ∈ Finset.range 256, n = (i + 1) ^ 2 + (j + 1) ^ 2) →
      h n ≤ h0 n ∧ (1 - 7e-4) * h0 n ≤ h n) :
    0 < ∑ i ∈ Finset.range 256, ∑ j ∈ Finset.range 256, if (i + 1) ^ 2 + (j + 1) ^ 2 ≤ 65536 then
      (2 * ((i : ℝ) + 1) ^ 2 - (j + 1) ^ 2) * (j + 1) * h ((i + 1) ^ 2 + (j + 1) ^ 2) else 0 := by
  have h1 := disc_weighted (w := h0) (hpos 65536 (by norm_num)).le fun m hm _ => hanti m hm
  have h2 : 0 < ∑ i ∈ Finset.range 256, ∑ j ∈ Finset.range 256, if (i + 1) ^ 2 + (j + 1) ^ 2 ≤ 65536 then
      5e-4 * ((2 * ((i : ℝ) + 1) ^ 2 + (j + 1) ^ 2) * (j + 1) * h0 ((i + 1) ^ 2 + (j + 1) ^ 2)) else 0 := by
    obtain ⟨f, hf⟩ : ∃ f : ℕ → ℕ → ℝ, f = fun (i j : ℕ) => if (i + 1) ^ 2 + (j + 1) ^ 2 ≤ 65536 then
        5e-4 * ((2 * ((i : ℝ) + 1) ^ 2 + (j + 1) ^ 2) * (j + 1) * h0 ((i + 1) ^ 2 + (j + 1) ^ 2)) else 0 := ⟨_, rfl⟩
    have hn : ∀ i j, 0 ≤ f i j := by
      intro i j
      rw [hf]
      beta_reduce
      split_ifs
      · have := hpos ((i + 1) ^ 2 + (j + 1) ^ 2) (by
          have a1 := Nat.pow_le_pow_left (show 1 ≤ i + 1 by omega) 2
          have a2 := Nat.pow_le_pow_left (show 1 ≤ j + 1 by omega) 2
          omega)
        positivity
      · exact le_rfl
    have h00 : 0 < f 0 0 := by
      have := hpos 2 le_rfl
      rw [hf]
      norm_num
      exact this
    have hs : 0 < ∑ i ∈ Finset.range 256, ∑ j ∈ Finset.range 256, f i j :=
      Finset.sum_pos' (fun i _ => Finset.sum_nonneg fun j _ => hn i j) ⟨0, Finset.mem_range.2 (by norm_num),
        Finset.sum_pos' (fun j _ => hn 0 j) ⟨0, Finset.mem_range.2 (by norm_num), h00⟩⟩
    rw [hf] at hs
    exact hs
  refine lt_of_lt_of_le (add_pos_of_nonneg_of_pos (div_nonneg h1 (by norm_num : (0:ℝ) ≤ 800)) h2) ?_
  rw [Finset.sum_div, ← Finset.sum_add_distrib]
  refine Finset.sum_le_sum fun i hi => ?_
  rw [Finset.sum_div, ← Finset.sum_add_distrib]
  refine Finset.sum_le_sum fun j hj => ?_
  split_ifs with hM
  · have hn2 : 2 ≤ (i + 1) ^ 2 + (j + 1) ^ 2 := by
      have a1 := Nat.pow_le_pow_left (show 1 ≤ i + 1 by omega) 2
      have a2 := Nat.pow_le_pow_left (show 1 ≤ j + 1 by omega) 2
      omega
    obtain ⟨u1, u2⟩ := hup _ hn2 hM ⟨i, hi, j, hj, rfl⟩
    have hp := hpos _ hn2
    generalize h ((i + 1) ^ 2 + (j + 1) ^ 2) = y at u1 u2 ⊢
    generalize h0 ((i + 1) ^ 2 + (j + 1) ^ 2) = x at u1 u2 hp ⊢
    have hw : (gridWeight (i + 1) (j + 1) : ℝ) = 1598 * (((i : ℝ) + 1) ^ 2 * (j + 1)) - 801 * ((j : ℝ) + 1) ^ 3 := by
      unfold gridWeight; push_cast; ring
    rw [hw]
    have hj1 : 0 ≤ (j : ℝ) + 1 := (Nat.cast_add_one_pos j).le
    have ha : 0 ≤ ((i : ℝ) + 1) ^ 2 * (j + 1) := mul_nonneg (sq_nonneg _) hj1
    have hb : 0 ≤ ((j : ℝ) + 1) ^ 3 := pow_nonneg hj1 3
    clear h1 h2 hM hn2
    have e1 : (2 * ((i : ℝ) + 1) ^ 2 - (j + 1) ^ 2) * (j + 1) = 2 * (((i : ℝ) + 1) ^ 2 * (j + 1)) - ((j : ℝ) + 1) ^ 3 := by ring
    have e2 : (2 * ((i : ℝ) + 1) ^ 2 + (j + 1) ^ 2) * (j + 1) = 2 * (((i : ℝ) + 1) ^ 2 * (j + 1)) + ((j : ℝ) + 1) ^ 3 := by ring
    rw [e1, e2]
    generalize ((i : ℝ) + 1) ^ 2 * (j + 1) = a at *
    generalize ((j : ℝ) + 1) ^ 3 = b at *
    have m1 := mul_le_mul_of_nonneg_left u2 ha
    have m2 := mul_le_mul_of_nonneg_left u1 hb
    norm_num at m1 ⊢
    nlinarith
  · simp

/-- A network with chains at their distribution, neither stretched nor broken, is under tension when the Gaussian is narrow
enough. -/
theorem undeformed_stress_pos {c κ F D : ℝ} {N : ℕ} (hc : 0 < c) (hκ : 0 < κ) (hκ' : κ ≤ 1e6) (hN : 0 < N) (hD : 0 < D)
    (hF : √κ / 3 ≤ F)
    (h1 : ∀ i ∈ Finset.Icc 1 256, ∀ j ∈ Finset.Icc 1 256, (c * (i : ℕ) / 256) ^ 2 + (c * (j : ℕ) / 256) ^ 2 ≠ 1)
    {n : ℝ → ℝ → ℝ} (hn : ∀ z r, n z r = D * exp (-(F * (z ^ 2 + r ^ 2))) * intact c 1 1 z r) :
    0 < networkStress (endRule c) N (chainForce κ) n := by
  set u := c / 256 with hu
  have hu0 : 0 < u := by positivity
  have hγ : ∀ k : ℕ, 2 ≤ k → 0 < u * √k := fun k hk => mul_pos hu0 (sqrt_pos.2 (by exact_mod_cast (by omega : 0 < k)))
  set h0 : ℕ → ℝ := fun k => if hk : 2 ≤ k then exactForce hκ (hγ k hk) / (u * √k) * exp (-(F * (u * √k) ^ 2)) else 0 with hh0
  set h : ℕ → ℝ := fun k => chainForce κ (u * √k) / (u * √k) * exp (-(F * (u * √k) ^ 2)) with hh
  have key := disc_pos (h := h) (h0 := h0) ?_ ?_ ?_
  · have e : networkStress (endRule c) N (chainForce κ) n = 2 * π * D * N * u ^ 5 *
        ∑ i ∈ Finset.range 256, ∑ j ∈ Finset.range 256, if (i + 1) ^ 2 + (j + 1) ^ 2 ≤ 65536 then
          (2 * ((i : ℝ) + 1) ^ 2 - (j + 1) ^ 2) * (j + 1) * h ((i + 1) ^ 2 + (j + 1) ^ 2) else 0 := by
      unfold networkStress endRule
      rw [Finset.mul_sum]
      refine Finset.sum_congr rfl fun i _ => ?_
      rw [Finset.mul_sum, Finset.sum_mul]
      refine Finset.sum_congr rfl fun j _ => ?_
      have ez : c * ((i : ℝ) + 1) / 256 = u * (i + 1) := by rw [hu]; ring
      have er : c * ((j : ℝ) + 1) / 256 = u * (j + 1) := by rw [hu]; ring
      rw [ez, er]
      beta_reduce
      rw [hn]
      have eg : √((u * ((i : ℝ) + 1)) ^ 2 + (u * (j + 1)) ^ 2) = u * √(((i + 1) ^ 2 + (j + 1) ^ 2 : ℕ) : ℝ) := by
        rw [← sqrt_sq hu0.le, ← sqrt_mul (by positivity), sqrt_sq hu0.le]
        congr 1
        push_cast
        ring
      have eg2 : (u * ((i : ℝ) + 1)) ^ 2 + (u * (j + 1)) ^ 2 = (u * √(((i + 1) ^ 2 + (j + 1) ^ 2 : ℕ) : ℝ)) ^ 2 := by
        rw [mul_pow u √_, sq_sqrt (by positivity)]
        push_cast
        ring
      have ei : intact c 1 1 (u * ((i : ℝ) + 1)) (u * (j + 1)) = if (i + 1) ^ 2 + (j + 1) ^ 2 ≤ 65536 then 1 else 0 := by
        unfold intact restLength
        rw [div_one, div_one, one_mul, eg]
        have : u * √(((i + 1) ^ 2 + (j + 1) ^ 2 : ℕ) : ℝ) ≤ c ↔ (i + 1) ^ 2 + (j + 1) ^ 2 ≤ 65536 := by
          have ec : c = u * 256 := by rw [hu]; ring
          rw [ec, mul_le_mul_iff_right₀ hu0, sqrt_le_left (by norm_num)]
          constructor
          · intro h
            have h' : (((i + 1) ^ 2 + (j + 1) ^ 2 : ℕ) : ℝ) ≤ ((65536 : ℕ) : ℝ) := by
              refine h.trans (le_of_eq ?_); norm_num
            exact_mod_cast h'
          · intro h
            have h' : (((i + 1) ^ 2 + (j + 1) ^ 2 : ℕ) : ℝ) ≤ ((65536 : ℕ) : ℝ) := by exact_mod_cast h
            refine h'.trans (le_of_eq ?_); norm_num
        simp only [this]
      rw [ei, eg, eg2]
      simp only [hh]
      split_ifs <;> ring
    rw [e]
    have hNr : (0:ℝ) < N := by exact_mod_cast hN
    have := pi_pos
    positivity
  · intro k hk
    simp only [hh0]
    rw [dif_pos hk]
    have h1 := (exactForce_spec hκ (hγ k hk)).1
    have := hγ k hk
    positivity
  · intro k hk
    simp only [hh0]
    rw [dif_pos hk, dif_pos (by omega)]
    obtain ⟨p1, e1⟩ := exactForce_spec hκ (hγ k hk)
    obtain ⟨p2, e2⟩ := exactForce_spec hκ (hγ (k + 1) (by omega))
    have hle : u * √k ≤ u * √((k + 1 : ℕ) : ℝ) := by
      refine mul_le_mul_of_nonneg_left (sqrt_le_sqrt ?_) hu0.le
      push_cast; linarith
    have := weight_anti hκ hF (show exactForce hκ (hγ k hk) ∈ Ioi 0 from p1)
      (show exactForce hκ (hγ (k + 1) (by omega)) ∈ Ioi 0 from p2) (le_of_extF_le hκ p2 (by rw [e1, e2]; exact hle))
    simp only [e1, e2] at this
    exact this
  · rintro k hk _ ⟨i, hi, j, hj, hij⟩
    simp only [hh0, hh]
    rw [dif_pos hk]
    have hne : u * √k ≠ 1 := by
      intro h
      refine h1 (i + 1) (by simp at hi ⊢; omega) (j + 1) (by simp at hj ⊢; omega) ?_
      have h2 := congrArg (fun x => x ^ 2) h
      simp only [mul_pow, sq_sqrt (Nat.cast_nonneg k), one_pow] at h2
      rw [hij] at h2
      rw [← h2, hu]
      push_cast
      ring
    obtain ⟨a, b⟩ := chainForce_close hκ hκ' (hγ k hk) hne
    have hg := hγ k hk
    have hE := exp_pos (-(F * (u * √k) ^ 2))
    constructor
    · gcongr
    · calc _ = ((1 - 7e-4) * exactForce hκ (hγ k hk)) / (u * √k) * exp (-(F * (u * √k) ^ 2)) := by ring
        _ ≤ _ := by gcongr

/-- C82: with the Gaussian distribution (method 3) the network of the damage model is under tension as long as it has not been
stretched, for links up to a stiffness set by the number of links and the swelling. -/
theorem C82_undeformed_tension {L : ℕ} {c κ : ℝ} {N : ℕ} {J : ℝ} {model : BucheSilberstein ℝ} (hc : 0 < c) (hκ : 10 ≤ κ)
    (hκ' : κ ≤ 1e6) (hJ : 0 < J) (hN : √κ * J ^ (2 / 3 : ℝ) ≤ 3 * N)
    (h1 : ∀ i ∈ Finset.Icc 1 256, ∀ j ∈ Finset.Icc 1 256, (c * (i : ℕ) / 256) ^ 2 + (c * (j : ℕ) / 256) ^ 2 ≠ 1)
    (h : BucheSilberstein.init 3 c κ N J = some model) {hist : List ℝ} {out : List (ℝ × ℝ)}
    (ho : model.uniaxial_tension L hist = some out) {k : ℕ} (hk : k < L) (hk' : k < hist.length)
    (hrest : ∀ s ∈ hist.take (k + 1), s = 1) : ∃ σ p, out[k]? = some (σ, p) ∧ 0 < σ := by
  have hκ0 : 0 < κ := by linarith
  have hm : runningMax hist k = 1 := by
    unfold runningMax
    have : ∀ l : List ℝ, (∀ s ∈ l, s = 1) → l.foldl max 1 = 1 := by
      intro l
      induction l with
      | nil => intro _; rfl
      | cons a l ih =>
        intro h
        rw [List.foldl_cons, h a (by simp), max_self]
        exact ih fun s hs => h s (by simp [hs])
    exact this _ hrest
  have h1k : hist[k] = 1 := hrest _ (by rw [List.mem_take_iff_getElem]; exact ⟨k, by omega, rfl⟩)
  refine ⟨_, _, C79_gaussian hκ0 hJ h ho hk hk', div_pos ?_ hJ⟩
  rw [hm, h1k]
  set a := J ^ (1 / 3 : ℝ) with ha
  have ha0 : 0 < a := rpow_pos_of_pos hJ _
  have ha2 : a ^ 2 = J ^ (2 / 3 : ℝ) := by rw [ha, ← rpow_natCast, ← rpow_mul hJ.le]; norm_num
  have hs : 0 < √κ := sqrt_pos.2 hκ0
  have hN0 : 0 < N := by
    have h3 : 0 < √κ * J ^ (2 / 3 : ℝ) := by positivity
    by_contra h4
    obtain rfl : N = 0 := by omega
    simp at hN
    linarith
  have hNr : (0:ℝ) < N := by exact_mod_cast hN0
  have hv : meanSquareLink κ ≤ 3 / 2 := by
    rw [meanSquareLink_eq hκ0, div_le_iff₀ (by positivity)]
    nlinarith
  have hv0 : 0 < meanSquareLink κ := by rw [meanSquareLink_eq hκ0]; positivity
  set v := meanSquareLink κ with hvd
  refine undeformed_stress_pos (F := 3 * N / (2 * v) / a ^ 2)
    (D := 1 / (4 * π * endRule c fun x => x ^ 2 * exp (-gaussianExponent N v x)) / J) hc hκ0 hκ' hN0 ?_ ?_ h1 ?_
  · have : 0 < endRule c fun x => x ^ 2 * exp (-gaussianExponent N v x) := endRule_pos hc fun x hx => by positivity
    have := pi_pos
    positivity
  · rw [ha2, div_div, div_le_div_iff₀ (by norm_num) (by positivity)]
    have h3 : √κ * J ^ (2 / 3 : ℝ) * (2 * v) ≤ 3 * N * (2 * v) := mul_le_mul_of_nonneg_right hN (by positivity)
    nlinarith
  · intro z r
    unfold network density gaussianExponent restLength
    rw [div_one, one_mul, div_pow, sq_sqrt (by positivity)]
    have e : -(3 * N / (2 * v) * ((z ^ 2 + r ^ 2) / a ^ 2)) = -(3 * N / (2 * v) / a ^ 2 * (z ^ 2 + r ^ 2)) := by
      field_simp
    rw [e]
    ring

/-- C82, concrete case: the dry network of chains of eight links of stiffness 50 with a critical extension of 1.5, at the first
step of any history that begins at rest. -/
example {model : BucheSilberstein ℝ} (h : BucheSilberstein.init 3 (3 / 2) 50 8 1 = some model) {hist : List ℝ}
    {out : List (ℝ × ℝ)} (ho : model.uniaxial_tension 5 (1 :: hist) = some out) : ∃ σ p, out[0]? = some (σ, p) ∧ 0 < σ := by
  refine C82_undeformed_tension (by norm_num) (by norm_num) (by norm_num) (by norm_num) ?_ ?_ h ho (k := 0) (by norm_num) (by simp)
    (by simp)
  · rw [one_rpow, mul_one]
    have : √(50:ℝ) ≤ 8 := by rw [sqrt_le_left (by norm_num)]; norm_num
    norm_num
    linarith
  · intro i _ j _ h
    have h' : (9 : ℝ) * (i ^ 2 + j ^ 2) = 512 ^ 2 := by
      field_simp at h
      linarith
    have h'' : 9 * (i ^ 2 + j ^ 2) = 512 ^ 2 := by exact_mod_cast h'
    omega

end Polymers.Props
