import Verif.Props.Swfjc
import Verif.Lemmas.SwfjcDiverge
import Verif.Props.FjcLegendre
import Verif.Props.FjcPotential
import Verif.Lemmas.Distribution
import Verif.Lemmas.Partition
import Verif.Lemmas.LinkPartition

/-! Properties C28, C36 and C53 of the square-well chain at a fixed end-to-end length (Legendre approximation). -/

namespace Polymers.Props

open Polymers.Spec Polymers.Api Polymers.Lemmas Set Filter Topology

open swfjc.thermodynamics

theorem swG_neg (x : ℝ) : swG (-x) = -swG x := by
  unfold swG; rw [Real.cosh_neg, Real.sinh_neg]; ring

theorem swZ_neg (W η : ℝ) : swZ W (-η) = -swZ W η := by
  unfold swZ; rw [mul_neg, swG_neg, swG_neg]; ring

theorem swZ_div_cube_pos {W η : ℝ} (hW : 1 < W) (hη : η ≠ 0) : 0 < swZ W η / η ^ 3 := by
  rcases lt_or_gt_of_ne hη with h | h
  · have := swZ_pos hW (neg_pos.2 h)
    rw [swZ_neg] at this
    exact div_pos_of_neg_of_neg (by linarith) (by nlinarith [pow_pos (neg_pos.2 h) 3])
  · exact div_pos (swZ_pos hW h) (by positivity)

theorem swfjc_density_eq (N : ℕ) (ℓ w c γ : ℝ) :
    isometric.legendre.nondimensional_equilibrium_distribution N ℓ w c γ =
      (swZ (1 + w / ℓ) (isometric.legendre.nondimensional_force ℓ w γ) / isometric.legendre.nondimensional_force ℓ w γ ^ 3 *
        Real.exp (-isometric.legendre.nondimensional_force ℓ w γ * γ)) ^ N / c := by
  have e : ∀ W η : ℝ, W * η * Real.cosh (W * η) - Real.sinh (W * η) - η * Real.cosh η + Real.sinh η = swZ W η := by
    intro W η; unfold swZ swG; ring
  simp only [isometric.legendre.nondimensional_equilibrium_distribution]
  generalize isometric.legendre.nondimensional_force ℓ w γ = η
  simp only [model_real, e, zpow_natCast]

theorem swfjc_density_nonneg {N : ℕ} {ℓ w c γ : ℝ} (hc : 0 < c) (hℓ : 0 < ℓ) (hw : 0 < w) (hN : 0 < N) :
    0 ≤ isometric.legendre.nondimensional_equilibrium_distribution N ℓ w c γ ∧
    (isometric.legendre.nondimensional_force ℓ w γ ≠ 0 →
      0 < isometric.legendre.nondimensional_equilibrium_distribution N ℓ w c γ) := by
  rw [swfjc_density_eq]
  generalize isometric.legendre.nondimensional_force ℓ w γ = η
  rcases eq_or_ne η 0 with h | h
  · subst h
    exact ⟨by simp [hN.ne'], fun h => absurd rfl h⟩
  · have := swZ_div_cube_pos (one_lt_well hℓ hw) h
    have : 0 < (swZ (1 + w / ℓ) η / η ^ 3 * Real.exp (-η * γ)) ^ N / c := by positivity
    exact ⟨this.le, fun _ => this⟩

/-- C53: wherever the returned force is positive, the end-to-end distribution is the Boltzmann factor of the Helmholtz free
energy. -/
theorem C53_swfjc_isometric_legendre (N : ℕ) (ℓ m w : ℝ) (hN : 0 < N) (hℓ : 0 < ℓ) (hw : 0 < w) :
    (swfjc_isometric_legendre_distribution N ℓ m w).IsBoltzmann (swfjc_isometric_legendre_helmholtz N ℓ m w) N ℓ
      (fun γ => 0 < (swfjc_isometric_legendre_forces N ℓ m w).nd_force γ 300) := by
  have hS := C15_swfjc_isometric_legendre_helmholtz N ℓ m w hN hℓ
  refine .of_nd (C36_scales_swfjc_isometric_legendre_distribution N ℓ m w hN hℓ) hS ?_
  have hN' : (N : ℝ) ≠ 0 := by positivity
  obtain ⟨c, hc⟩ : ∃ c, ∀ γ, (swfjc_isometric_legendre_distribution N ℓ m w).nd_density γ =
    isometric.legendre.nondimensional_equilibrium_distribution N ℓ w c γ := ⟨_, fun _ => rfl⟩
  have key : ∀ γ T, 0 < T → 0 < isometric.legendre.nondimensional_force ℓ w γ →
      (swfjc_isometric_legendre_distribution N ℓ m w).nd_density γ *
      Real.exp ((swfjc_isometric_legendre_helmholtz N ℓ m w).nd_energy γ T) =
      Real.exp (-(N * ((1 - 1 / (N : ℝ)) * Real.log (8 * Real.pi ^ 2 * m * ℓ ^ 2 * (BOLTZMANN_CONSTANT : ℝ) * T /
        (PLANCK_CONSTANT : ℝ) ^ 2)))) / c := by
    intro γ T hT hη
    have e : ∀ W η : ℝ, W * η * Real.cosh (W * η) - Real.sinh (W * η) - η * Real.cosh η + Real.sinh η = swZ W η := by
      intro W η; unfold swZ swG; ring
    have e2 : (swfjc_isometric_legendre_helmholtz N ℓ m w).nd_energy γ T =
        N * isometric.legendre.nondimensional_helmholtz_free_energy_per_link N ℓ m w γ T := rfl
    rw [hc, swfjc_density_eq, e2]
    simp only [isometric.legendre.nondimensional_helmholtz_free_energy_per_link]
    generalize isometric.legendre.nondimensional_force ℓ w γ = η at hη
    simp only [model_real, e]
    have hZ := swZ_pos (one_lt_well hℓ hw) hη
    have e1 : swZ (1 + w / ℓ) η / η ^ 3 * Real.exp (-η * γ) =
        Real.exp (Real.log (swZ (1 + w / ℓ) η) - 3 * Real.log η - η * γ) := by
      rw [Real.exp_sub, Real.exp_sub, Real.exp_log hZ, show 3 * Real.log η = Real.log (η ^ 3) by
        rw [Real.log_pow]; norm_num, Real.exp_log (by positivity), neg_mul, Real.exp_neg]; rfl
    rw [e1, ← Real.exp_nat_mul, div_mul_eq_mul_div, ← Real.exp_add]
    congr 2
    ring
  intro γ₁ γ₂ T hT h1 h2
  rw [key _ _ hT h1, key _ _ hT h2]

/-- The returned force is positive at small extensions. -/
theorem swfjc_small_force (N : ℕ) (ℓ m w γ T : ℝ) (hℓ : 0 < ℓ) (hw : 0 < w) (h0 : 0 < γ) (h1 : γ ≤ 1e-3) :
    0 < (swfjc_isometric_legendre_forces N ℓ m w).nd_force γ T := by
  have hle : Elem.le γ (1e-3 : ℝ) = true := by simp only [model_real]; norm_num at *; exact h1
  change 0 < isometric.legendre.nondimensional_force ℓ w γ
  rw [isometric.legendre.nondimensional_force, if_pos hle]
  have := div_pos hw hℓ
  simp only [model_real]
  positivity

example : (swfjc_isometric_legendre_distribution 8 1 1 (1 / 2)).nd_density (1 / 2000) *
      Real.exp ((swfjc_isometric_legendre_helmholtz 8 1 1 (1 / 2)).nd_energy (1 / 2000) 300) =
    (swfjc_isometric_legendre_distribution 8 1 1 (1 / 2)).nd_density (1 / 1000) *
      Real.exp ((swfjc_isometric_legendre_helmholtz 8 1 1 (1 / 2)).nd_energy (1 / 1000) 300) :=
  (C53_swfjc_isometric_legendre 8 1 1 (1 / 2) (by norm_num) (by norm_num) (by norm_num)).nd_density _ _ _ (by norm_num)
    (swfjc_small_force _ _ _ _ _ _ (by norm_num) (by norm_num) (by norm_num) (by norm_num))
    (swfjc_small_force _ _ _ _ _ _ (by norm_num) (by norm_num) (by norm_num) (by norm_num))

/-- If the returned force is non-zero at one of the points of the construction grid, the radial distribution sums to one on
that grid. -/
theorem swfjc_sums_of_force (N : ℕ) (ℓ m w : ℝ) (hN : 0 < N) (hℓ : 0 < ℓ) (hw : 0 < w) (i : ℕ)
    (hi : i < 64) (h : (swfjc_isometric_legendre_forces N ℓ m w).nd_force
      (1e-6 + (i + 1 / 2) * ((1 + w / ℓ - 1e-6) / 64)) 300 ≠ 0) :
    (swfjc_isometric_legendre_distribution N ℓ m w).SumsToOne N ℓ 1e-6 (1 + w / ℓ) 64 := by
  refine .of_nd hN hℓ (C36_scales_swfjc_isometric_legendre_distribution N ℓ m w hN hℓ) ?_
  have hW := one_lt_well hℓ hw
  have hz : (ZERO : ℝ) = 1e-6 := zero_eq
  have ho : (ONE : ℝ) * (1.0 + w / ℓ) = 1 + w / ℓ := by rw [one_eq', one_mul]; norm_num
  have hP : POINTS = 64 := rfl
  set F : ℝ → ℝ := fun γ => isometric.legendre.nondimensional_equilibrium_radial_distribution N ℓ w 1.0 γ with hF
  have hFn : ∀ γ, 0 ≤ F γ ∧ (0 < γ → isometric.legendre.nondimensional_force ℓ w γ ≠ 0 → 0 < F γ) := by
    intro γ
    have h := swfjc_density_nonneg (N := N) (c := (1.0 : ℝ)) (γ := γ) (by norm_num) hℓ hw hN
    have hπ := Real.pi_pos
    simp only [hF, isometric.legendre.nondimensional_equilibrium_radial_distribution, model_real] at h ⊢
    exact ⟨by have := h.1; positivity, fun h0 hne => by have := h.2 hne; positivity⟩
  have hc : 0 < midpointSum F 1e-6 (1 + w / ℓ) 64 := by
    unfold midpointSum
    refine mul_pos (div_pos (by norm_num; linarith) (by norm_num)) ?_
    refine Finset.sum_pos' (fun j _ => (hFn _).1) ⟨i, Finset.mem_range.2 hi, (hFn _).2 ?_ ?_⟩
    · have : (0 : ℝ) < (1 + w / ℓ - 1e-6) := by norm_num; linarith
      positivity
    · exact_mod_cast h
  have e : (swfjc_isometric_legendre_distribution N ℓ m w).nd_radial = fun γ =>
      F γ / math.integrate_1d F (ZERO : ℝ) (ONE * (1.0 + w / ℓ)) POINTS := by
    funext γ
    change isometric.legendre.nondimensional_equilibrium_radial_distribution N ℓ w (math.integrate_1d F (ZERO : ℝ)
      (ONE * (1.0 + w / ℓ)) POINTS) γ = _
    generalize math.integrate_1d F (ZERO : ℝ) (ONE * (1.0 + w / ℓ)) POINTS = c
    simp only [hF, isometric.legendre.nondimensional_equilibrium_radial_distribution,
      isometric.legendre.nondimensional_equilibrium_distribution, model_real]
    ring
  have hs := math.integrate_1d_div_const F (math.integrate_1d F (ZERO : ℝ) (ONE * (1.0 + w / ℓ)) POINTS)
    (a := (ZERO : ℝ)) (b := ONE * (1.0 + w / ℓ)) (n := POINTS)
  rw [e]
  rw [integrate_1d_eq_midpointSum, integrate_1d_eq_midpointSum, hz, ho, hP] at *
  rw [hs, div_self hc.ne']

/-- An interval that every Newton step maps into itself contains the result. -/
theorem newton_loop_mem {y : ℝ} {f fp : ℝ → ℝ} {S : ℝ → Prop} (hstep : ∀ x, S x → S (x + (y - f x) / fp x)) (tol : ℝ)
    (n : ℕ) : ∀ x res : ℝ, S x → S (math.inverse_newton_raphson_loop y f fp tol n x res) := by
  induction n with
  | zero => intro x res hx; exact hx
  | succ n ih =>
    intro x res hx
    rw [math.inverse_newton_raphson_loop]
    split
    · exact ih _ _ (hstep x hx)
    · exact hx

/-- At the first point of the construction grid the returned force is positive. -/
theorem swfjc_first_force_pos (N : ℕ) (ℓ m w T : ℝ) (hℓ : 0 < ℓ) (hw : 0 < w) (hw8 : w ≤ 8 * ℓ) :
    0 < (swfjc_isometric_legendre_forces N ℓ m w).nd_force (1e-6 + (0 + 1 / 2) * ((1 + w / ℓ - 1e-6) / 64)) T := by
  have hW := one_lt_well hℓ hw
  have hW9 : 1 + w / ℓ ≤ 9 := by
    have : w / ℓ ≤ 8 := by rwa [div_le_iff₀ hℓ]
    linarith
  change 0 < isometric.legendre.nondimensional_force ℓ w _
  set y : ℝ := 1e-6 + (0 + 1 / 2) * ((1 + w / ℓ - 1e-6) / 64) with hy
  have e : ∀ W η : ℝ, W * η * Real.cosh (W * η) - Real.sinh (W * η) - η * Real.cosh η + Real.sinh η = swZ W η := by
    intro W η; unfold swZ swG; ring
  have e' : ∀ W η : ℝ, Real.sinh (W * η) - W * η * Real.cosh (W * η) - Real.sinh η + η * Real.cosh η = -swZ W η := by
    intro W η; unfold swZ swG; ring
  have hy1 : (1 + w / ℓ) / 128 ≤ y := by rw [hy]; norm_num; linarith
  have hy2 : y ≤ (1 + w / ℓ) / 128 + 1e-6 := by rw [hy]; norm_num; linarith
  have hyk : ¬ y ≤ 1 / 1000 := by rw [not_le]; linarith
  simp only [isometric.legendre.nondimensional_force, model_real, if_neg hyk, e, e']
  generalize 1 + w / ℓ = W at *
  have hW0 : 0 < W := by linarith
  have ht1 : y / W ≤ 1 / 128 + 1e-6 := by
    rw [div_le_iff₀ hW0]; norm_num at hy2 ⊢; linarith
  have ht0 : 0 < y / W := div_pos (by linarith) hW0
  have ht9 : y / W < 9 / 10 := lt_of_le_of_lt ht1 (by norm_num)
  have ht9' : y / W < 0.9 := by norm_num at *; exact ht9
  rw [if_pos ht9']
  obtain ⟨hx, hL⟩ := inverse_langevin_spec ht0 (ht9.trans (by norm_num))
  have hx9 : math.inverse_langevin (y / W) ≤ 9 / 320 := by
    by_contra hlt
    rw [not_le] at hlt
    have h1 := langevin_strictMonoOn (show (9 / 320 : ℝ) ∈ Ioi 0 by norm_num) (mem_Ioi.2 hx) hlt
    have h2 := langevin_gt_cubic (show (0 : ℝ) < 9 / 320 by norm_num)
    have h3 := (abs_le.1 hL).2
    norm_num at h2 h3 ht1
    nlinarith
  refine (newton_loop_mem (S := fun x => 0 < x ∧ x ≤ 9 / 320) (fun x hx => ?_) _ _ _ _ ⟨hx, hx9⟩).1
  have hZ := (swZ_pos hW hx.1).ne'
  have h := sw_newton_step hW hW9 hx.1 hx.2 hy1 hy2
  obtain ⟨e1, e2⟩ := sw_extension_eq hx.1.ne' hZ
  simp only [e1, e2]
  exact h

/-- For wells at least eight link lengths wide, at an extension between `0.9` and `0.915` of the largest one, the iteration
never comes near the solution. -/
theorem swfjc_force_far {N : ℕ} {ℓ m w γ T : ℝ} (hℓ : 0 < ℓ) (hw : 8 * ℓ ≤ w) (h0 : 0.9 * (1 + w / ℓ) ≤ γ)
    (h1 : γ ≤ 0.915 * (1 + w / ℓ)) : SwFar (1 + w / ℓ) ((swfjc_isometric_legendre_forces N ℓ m w).nd_force γ T) := by
  have hW : 9 ≤ 1 + w / ℓ := by
    have : 8 ≤ w / ℓ := by rwa [le_div_iff₀ hℓ]
    linarith
  change SwFar _ (isometric.legendre.nondimensional_force ℓ w _)
  have e : ∀ W η : ℝ, W * η * Real.cosh (W * η) - Real.sinh (W * η) - η * Real.cosh η + Real.sinh η = swZ W η := by
    intro W η; unfold swZ swG; ring
  have e' : ∀ W η : ℝ, Real.sinh (W * η) - W * η * Real.cosh (W * η) - Real.sinh η + η * Real.cosh η = -swZ W η := by
    intro W η; unfold swZ swG; ring
  have hyk : ¬ γ ≤ 1 / 1000 := by rw [not_le]; norm_num at h0; linarith
  simp only [isometric.legendre.nondimensional_force, model_real, if_neg hyk, e, e']
  generalize 1 + w / ℓ = W at *
  have hW0 : 0 < W := by linarith
  have ht : ¬ γ / W < 0.9 := by
    rw [not_lt, le_div_iff₀ hW0]
    exact h0
  rw [if_neg ht]
  refine newton_loop_mem (S := SwFar W) (fun x hx => ?_) _ _ _ _ (.inl (by linarith))
  have := sw_far_step (y := γ) hW (by norm_num at h0 ⊢; linarith) (by norm_num at h1 ⊢; linarith) hx
  simpa only [swF, swF'] using this

/-- C26: the square-well chain is a real exception: for wells at least eight link lengths wide and every extension between
90% and 91.5% of the largest one, the returned force applied to the chain misses the extension by at least a twentieth of
the largest extension. -/
theorem C26_swfjc_wide_well (N : ℕ) (ℓ m w γ T : ℝ) (hℓ : 0 < ℓ) (hw : 8 * ℓ ≤ w) (h0 : 0.9 * (1 + w / ℓ) ≤ γ)
    (h1 : γ ≤ 0.915 * (1 + w / ℓ)) :
    (1 + w / ℓ) / 20 ≤ |(swfjc_isotensional_lengths N ℓ m w).nd_length_per_link
      ((swfjc_isometric_legendre_forces N ℓ m w).nd_force γ T) T - γ| := by
  have hW : 9 ≤ 1 + w / ℓ := by
    have : 8 ≤ w / ℓ := by rwa [le_div_iff₀ hℓ]
    linarith
  have h := swfjc_force_far (N := N) (m := m) (T := T) hℓ hw h0 h1
  rw [swfjc_length]
  generalize (swfjc_isometric_legendre_forces N ℓ m w).nd_force γ T = η at *
  generalize 1 + w / ℓ = W at *
  change _ ≤ |swF W η - γ|
  norm_num at h0 h1
  rcases h with h | h
  · have := (sw_far hW h).1
    rw [abs_of_nonneg (by linarith)]; linarith
  · have := (sw_far hW (x := -η) (by linarith)).1
    rw [swF_neg] at this
    rw [abs_of_nonpos (by linarith)]; linarith

example : (1 + 10 / 1) / 20 ≤ |(swfjc_isotensional_lengths 8 1 1 10).nd_length_per_link
      ((swfjc_isometric_legendre_forces 8 1 1 10).nd_force 10 300) 300 - 10| :=
  C26_swfjc_wide_well 8 1 1 10 10 300 (by norm_num) (by norm_num) (by norm_num) (by norm_num)

/-- C36 and C28: the radial distribution of the square-well chain sums to one on the grid used at construction. -/
theorem C36_sum_swfjc_isometric_legendre (N : ℕ) (ℓ m w : ℝ) (hN : 0 < N) (hℓ : 0 < ℓ) (hw : 0 < w) :
    (swfjc_isometric_legendre_distribution N ℓ m w).SumsToOne N ℓ 1e-6 (1 + w / ℓ) 64 := by
  rcases le_total w (8 * ℓ) with hw8 | hw8
  · refine swfjc_sums_of_force N ℓ m w hN hℓ hw 0 (by norm_num) ?_
    exact_mod_cast (swfjc_first_force_pos N ℓ m w 300 hℓ hw hw8).ne'
  · refine swfjc_sums_of_force N ℓ m w hN hℓ hw 58 (by norm_num) ?_
    have hW : 9 ≤ 1 + w / ℓ := by
      have : 8 ≤ w / ℓ := by rwa [le_div_iff₀ hℓ]
      linarith
    have h := swfjc_force_far (N := N) (m := m) (T := 300) (γ := 1e-6 + ((58 : ℕ) + 1 / 2) * ((1 + w / ℓ - 1e-6) / 64)) hℓ hw8
      (by norm_num; linarith) (by norm_num; linarith)
    intro h0
    rw [h0] at h
    rcases h with h | h <;> norm_num at h

example : (swfjc_isometric_legendre_distribution 8 1 1 (1 / 2)).SumsToOne 8 1 1e-6 (1 + (1 / 2) / 1) 64 :=
  C36_sum_swfjc_isometric_legendre 8 1 1 (1 / 2) (by norm_num) (by norm_num) (by norm_num)

/-- C28: the same, stated with the Legendre relations of the square-well chain. -/
theorem C28_swfjc_normalised (N : ℕ) (ℓ m w : ℝ) (hN : 0 < N) (hℓ : 0 < ℓ) (hw : 0 < w) :
    midpointSum (swfjc_isometric_legendre_distribution N ℓ m w).nd_radial 1e-6 (1 + w / ℓ) 64 = 1 :=
  (C36_sum_swfjc_isometric_legendre N ℓ m w hN hℓ hw).nd_radial

example : midpointSum (swfjc_isometric_legendre_distribution 8 1 1 (1 / 2)).nd_radial 1e-6 (1 + (1 / 2) / 1) 64 = 1 :=
  C28_swfjc_normalised 8 1 1 (1 / 2) (by norm_num) (by norm_num) (by norm_num)

end Polymers.Props
