import Verif.Props.ScalingLennardJones
import Verif.Props.Newton
import Verif.Spec.Links
import Verif.Lemmas.ApiCore
import Verif.Lemmas.Gradient
import Verif.Lemmas.Links

/-! Properties C25, C31 and C32 (Lennard-Jones part): the freely jointed chain with Lennard-Jones links. -/

namespace Polymers.Props

open Polymers.Spec Polymers.Api Set Filter Topology

/-- The dimensionless force law `x⁻⁷ - x⁻¹³` and its slope. -/
noncomputable def ljF (x : ℝ) : ℝ := (x ^ 7)⁻¹ - (x ^ 13)⁻¹
noncomputable def ljF' (x : ℝ) : ℝ := 13 * (x ^ 14)⁻¹ - 7 * (x ^ 8)⁻¹
/-- The stretch of largest force. -/
noncomputable def ljMax : ℝ := (13 / 7 : ℝ) ^ (1 / 6 : ℝ)
/-- The link stretch as the code computes it. -/
noncomputable def ljStretch (κ η : ℝ) : ℝ := math.inverse_newton_raphson (6 * η / κ) ljF ljF' 1 (1 / 1000000) 100

theorem lj_stretch_eq (κ η : ℝ) : ufjc.lennard_jones.thermodynamics.nondimensional_link_stretch κ η = ljStretch κ η := by
  have h1 : (fun x : ℝ => x ^ (-7 : ℤ) - x ^ (-13 : ℤ)) = ljF := by
    funext x; simp only [ljF, zpow_neg]; norm_cast
  have h2 : (fun x : ℝ => 13 * x ^ (-14 : ℤ) - 7 * x ^ (-8 : ℤ)) = ljF' := by
    funext x; simp only [ljF', zpow_neg]; norm_cast
  simp only [ufjc.lennard_jones.thermodynamics.nondimensional_link_stretch, model_real]
  unfold ljStretch
  rw [← h1, ← h2]

theorem ljMax_pow : ljMax ^ 6 = 13 / 7 := by
  unfold ljMax
  rw [← Real.rpow_natCast, ← Real.rpow_mul (by norm_num)]
  norm_num

theorem ljMax_pos : 0 < ljMax := by unfold ljMax; positivity

theorem one_lt_ljMax : 1 < ljMax := by
  by_contra h
  have := pow_le_one₀ (n := 6) ljMax_pos.le (not_lt.1 h)
  rw [ljMax_pow] at this
  norm_num at this

theorem lt_ljMax_iff {x : ℝ} (hx : 0 < x) : x < ljMax ↔ 7 * x ^ 6 < 13 := by
  rw [← pow_lt_pow_iff_left₀ hx.le ljMax_pos.le (n := 6) (by norm_num), ljMax_pow]
  constructor <;> intro h <;> linarith

theorem hasDerivAt_ljF {x : ℝ} (hx : x ≠ 0) : HasDerivAt ljF (ljF' x) x := by
  unfold ljF ljF'
  refine (((hasDerivAt_pow 7 x).inv (by positivity)).sub ((hasDerivAt_pow 13 x).inv (by positivity))).congr_deriv ?_
  push_cast
  field_simp
  ring

theorem hasDerivAt_ljF' {x : ℝ} (hx : x ≠ 0) : HasDerivAt ljF' ((56 * x ^ 6 - 182) / x ^ 15) x := by
  unfold ljF'
  refine ((((hasDerivAt_pow 14 x).inv (by positivity)).const_mul 13).sub
    (((hasDerivAt_pow 8 x).inv (by positivity)).const_mul 7)).congr_deriv ?_
  push_cast
  field_simp
  ring

theorem ljF'_eq {x : ℝ} (hx : x ≠ 0) : ljF' x = (13 - 7 * x ^ 6) / x ^ 14 := by
  unfold ljF'; field_simp

theorem ljF'_pos {x : ℝ} (hx : 0 < x) (h : x < ljMax) : 0 < ljF' x := by
  rw [ljF'_eq hx.ne']
  have := (lt_ljMax_iff hx).1 h
  exact div_pos (by linarith) (by positivity)

theorem ljF_concave {s : ℝ} (hs : s ≤ ljMax) : ConcaveOn ℝ (Icc 1 s) ljF := by
  have h0 : ∀ x ∈ Icc 1 s, 0 < x := fun x hx => by linarith [hx.1]
  refine AntitoneOn.concaveOn_of_deriv (convex_Icc 1 s)
    (fun x hx => (hasDerivAt_ljF (h0 x hx).ne').continuousAt.continuousWithinAt) ?_ ?_
  · rw [interior_Icc]
    exact fun x hx => (hasDerivAt_ljF (h0 x (Ioo_subset_Icc_self hx)).ne').differentiableAt.differentiableWithinAt
  · rw [interior_Icc]
    have h1 : AntitoneOn ljF' (Icc 1 s) := by
      refine antitoneOn_of_deriv_nonpos (convex_Icc 1 s)
        (fun x hx => (hasDerivAt_ljF' (h0 x hx).ne').continuousAt.continuousWithinAt) ?_ ?_
      · rw [interior_Icc]
        exact fun x hx => (hasDerivAt_ljF' (h0 x (Ioo_subset_Icc_self hx)).ne').differentiableAt.differentiableWithinAt
      · rw [interior_Icc]
        intro x hx
        have hx0 := h0 x (Ioo_subset_Icc_self hx)
        rw [(hasDerivAt_ljF' hx0.ne').deriv]
        have := (lt_ljMax_iff hx0).1 (hx.2.trans_le hs)
        exact div_nonpos_of_nonpos_of_nonneg (by linarith) (by positivity)
    intro x hx y hy hxy
    have hx' := Ioo_subset_Icc_self hx
    have hy' := Ioo_subset_Icc_self hy
    rw [(hasDerivAt_ljF (h0 x hx').ne').deriv, (hasDerivAt_ljF (h0 y hy').ne').deriv]
    exact h1 hx' hy' hxy

theorem ljF_strictMonoOn : StrictMonoOn ljF (Icc 1 ljMax) := by
  have h0 : ∀ x ∈ Icc 1 ljMax, 0 < x := fun x hx => by linarith [hx.1]
  refine strictMonoOn_of_deriv_pos (convex_Icc 1 ljMax)
    (fun x hx => (hasDerivAt_ljF (h0 x hx).ne').continuousAt.continuousWithinAt) ?_
  rw [interior_Icc]
  intro x hx
  have hx0 := h0 x (Ioo_subset_Icc_self hx)
  rw [(hasDerivAt_ljF hx0.ne').deriv]
  exact ljF'_pos hx0 hx.2

theorem ljF_one : ljF 1 = 0 := by simp [ljF]

theorem exists_lj_root {y : ℝ} (h0 : 0 < y) (h1 : y < ljF ljMax) : ∃ s ∈ Ioo 1 ljMax, ljF s = y := by
  have hc : ContinuousOn ljF (Icc 1 ljMax) := fun x hx =>
    (hasDerivAt_ljF (by linarith [hx.1] : x ≠ 0)).continuousAt.continuousWithinAt
  have := intermediate_value_Ioo one_lt_ljMax.le hc
  rw [ljF_one] at this
  exact this ⟨h0, h1⟩

theorem hasDerivAt_lennardJonesEnergy {κ x : ℝ} (hx : x ≠ 0) :
    HasDerivAt (lennardJonesEnergy κ) (κ / 6 * ljF x) x := by
  unfold lennardJonesEnergy ljF
  have e : (fun x : ℝ => κ / 72 * (1 / x ^ 12 - 2 / x ^ 6)) = fun x => κ / 72 * ((x ^ 12)⁻¹ - 2 * (x ^ 6)⁻¹) := by
    funext x; ring
  rw [e]
  refine ((((hasDerivAt_pow 12 x).inv (by positivity)).sub
    (((hasDerivAt_pow 6 x).inv (by positivity)).const_mul 2)).const_mul (κ / 72)).congr_deriv ?_
  push_cast
  field_simp
  ring

/-- C32: the largest force a Lennard-Jones link can carry is the one at the stretch `(13/7)^(1/6)`. -/
theorem C32_lennard_jones_max_force {κ : ℝ} (hκ : 0 < κ) :
    IsGreatest (deriv (lennardJonesEnergy κ) '' Ioi 0) (deriv (lennardJonesEnergy κ) ((13 / 7) ^ (1 / 6 : ℝ))) := by
  change IsGreatest _ (deriv (lennardJonesEnergy κ) ljMax)
  refine ⟨⟨_, ljMax_pos, rfl⟩, ?_⟩
  rintro _ ⟨x, hx, rfl⟩
  have hx : 0 < x := hx
  rw [(hasDerivAt_lennardJonesEnergy hx.ne').deriv, (hasDerivAt_lennardJonesEnergy ljMax_pos.ne').deriv]
  refine mul_le_mul_of_nonneg_left ?_ (by positivity)
  have hd : ∀ x, 0 < x → DifferentiableAt ℝ ljF x := fun x hx => (hasDerivAt_ljF hx.ne').differentiableAt
  rcases le_total x ljMax with h | h
  · refine monotoneOn_of_deriv_nonneg (convex_Ioc 0 ljMax)
      (fun x hx => (hd x hx.1).continuousAt.continuousWithinAt) ?_ ?_ ⟨hx, h⟩ ⟨ljMax_pos, le_rfl⟩ h
    · rw [interior_Ioc]; exact fun x hx => (hd x hx.1).differentiableWithinAt
    · rw [interior_Ioc]
      intro z hz
      rw [(hasDerivAt_ljF hz.1.ne').deriv]
      exact (ljF'_pos hz.1 hz.2).le
  · refine antitoneOn_of_deriv_nonpos (convex_Ici ljMax)
      (fun x hx => (hd x (ljMax_pos.trans_le hx)).continuousAt.continuousWithinAt) ?_ ?_ self_mem_Ici h h
    · rw [interior_Ici]; exact fun x hx => (hd x (ljMax_pos.trans hx)).differentiableWithinAt
    · rw [interior_Ici]
      intro z hz
      have hz0 : 0 < z := ljMax_pos.trans hz
      rw [(hasDerivAt_ljF hz0.ne').deriv, ljF'_eq hz0.ne']
      have : ¬ 7 * z ^ 6 < 13 := fun h => (lt_irrefl _ (((lt_ljMax_iff hz0).2 h).trans hz))
      exact div_nonpos_of_nonpos_of_nonneg (by linarith) (by positivity)

theorem lj_reduced_length (N : ℕ) (ℓ m k η T : ℝ) :
    (lennard_jones_isotensional_asymptotic_reduced_lengths N ℓ m k).nd_length_per_link η T =
      langevin η + ljStretch (ndStiffness k ℓ T) η - 1 := by
  simp only [api_core,
    ufjc.lennard_jones.thermodynamics.isotensional.asymptotic.reduced.nondimensional_end_to_end_length_per_link,
    model_real, langevin, lj_stretch_eq]

theorem lj_asymptotic_length (N : ℕ) (ℓ m k η T : ℝ) :
    (lennard_jones_isotensional_asymptotic_lengths N ℓ m k).nd_length_per_link η T =
      langevin η + η / ndStiffness k ℓ T * ((Real.tanh η - 1 / Real.tanh η + 1 / η) /
        (2 / 23 * Real.tanh η + η / ndStiffness k ℓ T)) + ljStretch (ndStiffness k ℓ T) η - 1 := by
  simp only [api_core,
    ufjc.lennard_jones.thermodynamics.isotensional.asymptotic.nondimensional_end_to_end_length_per_link,
    model_real, langevin, lj_stretch_eq]

/-- The gap to the largest force is at least a quarter of its linear estimate. -/
theorem ljF_gap {x : ℝ} (hx : x ∈ Icc 1 ljMax) : (ljMax - x) * ljF' x / 4 ≤ ljF ljMax - ljF x := by
  have h0 : ∀ x ∈ Icc 1 ljMax, 0 < x := fun x hx => by linarith [hx.1]
  have hd : ∀ x ∈ Icc 1 ljMax, HasDerivAt (fun x => ljF ljMax - ljF x - (ljMax - x) * ljF' x / 4)
      (-ljF' x - (-1 * ljF' x + (ljMax - x) * ((56 * x ^ 6 - 182) / x ^ 15)) / 4) x := by
    intro x hx
    have hx0 := (h0 x hx).ne'
    refine (((hasDerivAt_ljF hx0).const_sub (ljF ljMax)).sub
      ((((hasDerivAt_id x).const_sub ljMax).mul (hasDerivAt_ljF' hx0)).div_const 4))
  have hanti : AntitoneOn (fun x => ljF ljMax - ljF x - (ljMax - x) * ljF' x / 4) (Icc 1 ljMax) := by
    refine antitoneOn_of_deriv_nonpos (convex_Icc 1 ljMax)
      (fun x hx => (hd x hx).continuousAt.continuousWithinAt) ?_ ?_
    · rw [interior_Icc]
      exact fun x hx => (hd x (Ioo_subset_Icc_self hx)).differentiableAt.differentiableWithinAt
    · rw [interior_Icc]
      intro x hx
      have hx' := Ioo_subset_Icc_self hx
      have hx0 := h0 x hx'
      rw [(hd x hx').deriv, ljF'_eq hx0.ne']
      have e : -((13 - 7 * x ^ 6) / x ^ 14) - (-1 * ((13 - 7 * x ^ 6) / x ^ 14) +
          (ljMax - x) * ((56 * x ^ 6 - 182) / x ^ 15)) / 4 =
          ((ljMax - x) * (182 - 56 * x ^ 6) - 21 * x * (ljMax ^ 6 - x ^ 6)) / (4 * x ^ 15) := by
        rw [ljMax_pow]
        field_simp
        ring
      rw [e]
      refine div_nonpos_of_nonpos_of_nonneg ?_ (by positivity)
      have e2 : ljMax ^ 6 - x ^ 6 = (ljMax - x) * (ljMax ^ 5 + ljMax ^ 4 * x + ljMax ^ 3 * x ^ 2 + ljMax ^ 2 * x ^ 3 +
        ljMax * x ^ 4 + x ^ 5) := by ring
      have hL := one_lt_ljMax.le
      have hx1 := hx.1.le
      have h6 : 6 ≤ ljMax ^ 5 + ljMax ^ 4 * x + ljMax ^ 3 * x ^ 2 + ljMax ^ 2 * x ^ 3 + ljMax * x ^ 4 + x ^ 5 := by
        have a1 := one_le_pow₀ hL (n := 5)
        have a2 := one_le_mul_of_one_le_of_one_le (one_le_pow₀ hL (n := 4)) hx1
        have a3 := one_le_mul_of_one_le_of_one_le (one_le_pow₀ hL (n := 3)) (one_le_pow₀ hx1 (n := 2))
        have a4 := one_le_mul_of_one_le_of_one_le (one_le_pow₀ hL (n := 2)) (one_le_pow₀ hx1 (n := 3))
        have a5 := one_le_mul_of_one_le_of_one_le hL (one_le_pow₀ hx1 (n := 4))
        have a6 := one_le_pow₀ hx1 (n := 5)
        linarith
      rw [e2]
      have h7 : 182 - 56 * x ^ 6 ≤ 21 * x * 6 := by have := one_le_pow₀ hx1 (n := 6); linarith
      have h8 : 21 * x * 6 ≤ 21 * x * (ljMax ^ 5 + ljMax ^ 4 * x + ljMax ^ 3 * x ^ 2 + ljMax ^ 2 * x ^ 3 + ljMax * x ^ 4 +
        x ^ 5) := mul_le_mul_of_nonneg_left h6 (by linarith)
      have := mul_le_mul_of_nonneg_left (h7.trans h8) (by linarith [hx.2] : 0 ≤ ljMax - x)
      linarith
  have := hanti hx (right_mem_Icc.2 one_lt_ljMax.le) hx.2
  simp only [sub_self, zero_mul, zero_div] at this
  linarith

/-- Every Newton step for the link stretch leaves at most three quarters of the residual. -/
theorem lj_newton_residual {y s : ℝ} (hs1 : 1 < s) (hs : s < ljMax) (hfs : ljF s = y) (k : ℕ) :
    y - ljF (newtonIterate y ljF ljF' 1 1 k) ≤ (3 / 4) ^ k * y := by
  have h0 : ∀ x ∈ Icc 1 s, 0 < x := fun x hx => by linarith [hx.1]
  have hd : ∀ x ∈ Icc 1 s, HasDerivAt ljF (ljF' x) x := fun x hx => hasDerivAt_ljF (h0 x hx).ne'
  have hp : ∀ x ∈ Icc 1 s, 0 < ljF' x := fun x hx => ljF'_pos (h0 x hx) (hx.2.trans_lt hs)
  have hmem := newtonIterate_concave hs1.le hfs hd hp (ljF_concave hs.le)
  induction k with
  | zero => simp [newtonIterate, ljF_one]
  | succ k ih =>
    have hx := hmem k
    have hx2 := newtonStep_concave hs1.le hfs hd hp (ljF_concave hs.le) hx
    rw [newtonIterate_succ]
    generalize newtonIterate y ljF ljF' 1 1 k = x at *
    have hxL : x < ljMax := hx.2.trans_lt hs
    have hgap := ljF_gap ⟨hx.1, hxL.le⟩
    have hf' := hp x hx
    set h := (y - ljF x) / ljF' x with hh
    have est : newtonStep y ljF ljF' 1 x = x + h := by rw [newtonStep, hh]; ring
    rw [est] at hx2 ⊢
    have hh0 : 0 ≤ h := by linarith [hx2.1]
    have hhL : h ≤ ljMax - x := by linarith [hx2.2]
    have hy : h * ljF' x = y - ljF x := by rw [hh]; field_simp
    have hpos : 0 < ljMax - x := by linarith
    have ha : 0 ≤ 1 - h / (ljMax - x) := by rw [sub_nonneg, div_le_one hpos]; exact hhL
    have hb : 0 ≤ h / (ljMax - x) := by positivity
    have hc := (ljF_concave le_rfl).2 ⟨hx.1, hxL.le⟩ (right_mem_Icc.2 one_lt_ljMax.le) ha hb (by ring)
    have e : (1 - h / (ljMax - x)) • x + (h / (ljMax - x)) • ljMax = x + h := by
      simp only [smul_eq_mul]; field_simp; ring
    rw [e] at hc
    simp only [smul_eq_mul] at hc
    have h1 : h / (ljMax - x) * ((ljMax - x) * ljF' x / 4) ≤ h / (ljMax - x) * (ljF ljMax - ljF x) :=
      mul_le_mul_of_nonneg_left hgap (by positivity)
    have e2 : h / (ljMax - x) * ((ljMax - x) * ljF' x / 4) = (y - ljF x) / 4 := by
      rw [← hy]; field_simp
    rw [e2] at h1
    rw [pow_succ]
    linarith

/-- The computed stretch lies between one and the exact stretch, and its force is below the target within one part in a
million. -/
theorem ljStretch_bounds {κ η s : ℝ} (hκ : 0 < κ) (hη : 0 < η) (hs1 : 1 < s) (hs : s < ljMax) (hb : κ / 6 * ljF s = η) :
    1 < ljStretch κ η ∧ ljStretch κ η ≤ s ∧ κ / 6 * ljF (ljStretch κ η) ≤ η ∧
      η * (1 - 1 / 1000000) ≤ κ / 6 * ljF (ljStretch κ η) := by
  have hfs : ljF s = 6 * η / κ := by rw [← hb]; field_simp
  have h0 : ∀ x ∈ Icc 1 s, 0 < x := fun x hx => by linarith [hx.1]
  have hd : ∀ x ∈ Icc 1 s, HasDerivAt ljF (ljF' x) x := fun x hx => hasDerivAt_ljF (h0 x hx).ne'
  have hp : ∀ x ∈ Icc 1 s, 0 < ljF' x := fun x hx => ljF'_pos (h0 x hx) (hx.2.trans_lt hs)
  obtain ⟨hmono, hle, -, h1, h2⟩ := C05_newton_concave hs1.le hfs hd hp (ljF_concave hs.le) (1 / 1000000) 100
  have hsub : Icc 1 s ⊆ Icc 1 ljMax := Icc_subset_Icc_right hs.le
  have hf : κ / 6 * ljF (ljStretch κ η) ≤ κ / 6 * ljF s :=
    mul_le_mul_of_nonneg_left (ljF_strictMonoOn.monotoneOn (hsub ⟨h1, h2⟩) (hsub (right_mem_Icc.2 hs1.le)) h2)
      (by positivity)
  obtain ⟨k, hk1, hk, hk2, hk3⟩ := inverse_newton_raphson_run (6 * η / κ) ljF ljF' 1
  have hy : 0 < 6 * η / κ := by positivity
  have hes : ljStretch κ η = newtonIterate (6 * η / κ) ljF ljF' 1 1 k := hk2
  refine ⟨?_, h2, hf.trans_eq hb, ?_⟩
  · rw [hes]
    refine lt_of_lt_of_le ?_ (hmono hk1)
    rw [newtonIterate_succ]
    simp only [newtonStep, newtonIterate, Function.iterate_zero, id, ljF_one, div_one]
    have := hp 1 (left_mem_Icc.2 hs1.le)
    have : 0 < 6 * η / κ / ljF' 1 := by positivity
    linarith [show (0 - 6 * η / κ) / ljF' 1 = -(6 * η / κ / ljF' 1) by ring]
  · have key : 6 * η / κ * (1 - 1 / 1000000) ≤ ljF (ljStretch κ η) := by
      rw [hes]
      have hmem := newtonIterate_concave hs1.le hfs hd hp (ljF_concave hs.le)
      rcases hk.eq_or_lt with rfl | hlt
      · have := lj_newton_residual hs1 hs hfs 100
        have : ((3 / 4 : ℝ)) ^ 100 * (6 * η / κ) ≤ 1 / 1000000 * (6 * η / κ) :=
          mul_le_mul_of_nonneg_right (by norm_num) hy.le
        linarith
      · have hi := hk3 hlt
        have := ljF_strictMonoOn.monotoneOn (hsub (hmem (k - 1))) (hsub (hmem k)) (hmono (Nat.sub_le k 1))
        unfold relResidual at hi
        rw [abs_le, le_div_iff₀ hy] at hi
        have := hi.1
        linarith
    have := mul_le_mul_of_nonneg_left key (by positivity : 0 ≤ κ / 6)
    have e : κ / 6 * (6 * η / κ * (1 - 1 / 1000000)) = η * (1 - 1 / 1000000) := by field_simp
    linarith

/-- C31: for a force below the maximum there is exactly one stretch on the increasing branch at which the derivative of
the Lennard-Jones potential is the force.  The stretch contained in the returned extension is above one and never above
that exact one, and the derivative of the potential there is the force, or less by at most one part in a million. -/
theorem C31_lennard_jones_stretch (N : ℕ) (ℓ m k : ℝ) {η T : ℝ} (hℓ : 0 < ℓ) (hk : 0 < k) (hT : 0 < T)
    (hη : 0 < η) (hη' : η < deriv (lennardJonesEnergy (ndStiffness k ℓ T)) ((13 / 7) ^ (1 / 6 : ℝ))) :
    ∃ x x', 1 < x' ∧ x' ≤ x ∧ x < (13 / 7) ^ (1 / 6 : ℝ) ∧
      HasDerivAt (lennardJonesEnergy (ndStiffness k ℓ T)) η x ∧
      (∀ y, 1 ≤ y → y ≤ (13 / 7) ^ (1 / 6 : ℝ) → HasDerivAt (lennardJonesEnergy (ndStiffness k ℓ T)) η y → y = x) ∧
      deriv (lennardJonesEnergy (ndStiffness k ℓ T)) x' ∈ Icc (η * (1 - 1 / 1000000)) η ∧
      (lennard_jones_isotensional_asymptotic_reduced_lengths N ℓ m k).nd_length_per_link η T =
        (1 / Real.tanh η - 1 / η) + (x' - 1) := by
  have hκ := ndStiffness_pos hk hℓ hT
  rw [lj_reduced_length]
  generalize ndStiffness k ℓ T = κ at *
  change η < deriv _ ljMax at hη'
  change ∃ x x', 1 < x' ∧ x' ≤ x ∧ x < ljMax ∧ HasDerivAt (lennardJonesEnergy κ) η x ∧
    (∀ y, 1 ≤ y → y ≤ ljMax → HasDerivAt (lennardJonesEnergy κ) η y → y = x) ∧ _
  rw [(hasDerivAt_lennardJonesEnergy ljMax_pos.ne').deriv] at hη'
  obtain ⟨s, hs, hfs⟩ := exists_lj_root (y := 6 * η / κ) (by positivity)
    (by rw [div_lt_iff₀ hκ]; nlinarith)
  have hb : κ / 6 * ljF s = η := by rw [hfs]; field_simp
  obtain ⟨h1, h2, h3, h3'⟩ := ljStretch_bounds hκ hη hs.1 hs.2 hb
  refine ⟨s, ljStretch κ η, h1, h2, hs.2,
    (hasDerivAt_lennardJonesEnergy (by linarith [hs.1])).congr_deriv hb, ?_, ?_, by rw [langevin]; ring⟩
  · intro y hy1 hy2 hd
    have h := (hasDerivAt_lennardJonesEnergy (by linarith : y ≠ 0)).unique hd
    refine ljF_strictMonoOn.injOn ⟨hy1, hy2⟩ ⟨hs.1.le, hs.2.le⟩ ?_
    rw [hfs, ← h]; field_simp
  · rw [(hasDerivAt_lennardJonesEnergy (by linarith)).deriv]
    exact ⟨h3', h3⟩

example : ∃ x x', 1 < x' ∧ x' ≤ x ∧ x < (13 / 7) ^ (1 / 6 : ℝ) ∧
    HasDerivAt (lennardJonesEnergy (ndStiffness 500 1 300)) 
      (deriv (lennardJonesEnergy (ndStiffness 500 1 300)) ((13 / 7) ^ (1 / 6 : ℝ)) / 2) x := by
  have hκ : 0 < ndStiffness 500 1 300 := ndStiffness_pos (by norm_num) (by norm_num) (by norm_num)
  have hpos : 0 < deriv (lennardJonesEnergy (ndStiffness 500 1 300)) ((13 / 7) ^ (1 / 6 : ℝ)) := by
    change 0 < deriv _ ljMax
    rw [(hasDerivAt_lennardJonesEnergy ljMax_pos.ne').deriv]
    have := ljF_strictMonoOn (left_mem_Icc.2 one_lt_ljMax.le) (right_mem_Icc.2 one_lt_ljMax.le) one_lt_ljMax
    rw [ljF_one] at this
    positivity
  obtain ⟨x, x', h1, h2, h3, h4, -⟩ := C31_lennard_jones_stretch 8 1 1 500 (T := 300) (by norm_num) (by norm_num)
    (by norm_num) (half_pos hpos) (half_lt_self hpos)
  exact ⟨x, x', h1, h2, h3, h4⟩

/-- The derivative of the link part of the Gibbs energy, in terms of that of the computed stretch. -/
theorem hasDerivAt_lj_part {κ η s' : ℝ} (hs : HasDerivAt (ljStretch κ) s' η) (h0 : ljStretch κ η ≠ 0) :
    HasDerivAt (fun η => κ / 72 * ((ljStretch κ η) ^ (-12 : ℤ) - 2 * (ljStretch κ η) ^ (-6 : ℤ)) -
        η * (ljStretch κ η - 1))
      (-(ljStretch κ η - 1) + (deriv (lennardJonesEnergy κ) (ljStretch κ η) - η) * s') η := by
  have h1 := (hasDerivAt_lennardJonesEnergy (κ := κ) h0).comp η hs
  rw [(hasDerivAt_lennardJonesEnergy (κ := κ) h0).deriv]
  refine hasDerivAt_of_eq (h1.sub ((hasDerivAt_id η).mul (hs.sub_const 1))) (fun x => ?_) ?_
  · simp only [Pi.sub_apply, Pi.mul_apply, Function.comp, lennardJonesEnergy, id, zpow_neg]
    norm_cast
    ring
  · simp only [id]; ring

/-- The Newton loop depends differentiably on the target, the guess and the initial residual wherever no residual met on
the way is exactly the tolerance. -/
theorem inverse_newton_raphson_loop_differentiableAt {y f f' : ℝ → ℝ} {tol t : ℝ} (hy : DifferentiableAt ℝ y t)
    (hy0 : y t ≠ 0) (n : ℕ) (g r : ℝ → ℝ) (hg : DifferentiableAt ℝ g t) (hr : ContinuousAt r t) (hr0 : r t ≠ tol)
    (hf : ∀ k < n, DifferentiableAt ℝ f (newtonIterate (y t) f f' 1 (g t) k))
    (hf' : ∀ k < n, DifferentiableAt ℝ f' (newtonIterate (y t) f f' 1 (g t) k))
    (hf0 : ∀ k < n, f' (newtonIterate (y t) f f' 1 (g t) k) ≠ 0)
    (hres : ∀ k < n, relResidual (y t) f (newtonIterate (y t) f f' 1 (g t) k) ≠ tol) :
    DifferentiableAt ℝ (fun t => math.inverse_newton_raphson_loop (y t) f f' tol n (g t) (r t)) t := by
  induction n generalizing g r with
  | zero => exact hg
  | succ n ih =>
    have hg1 := hf 0 (by omega)
    have hg2 := hf' 0 (by omega)
    have hg3 := hf0 0 (by omega)
    have hg4 := hres 0 (by omega)
    simp only [newtonIterate, Function.iterate_zero, id] at hg1 hg2 hg3 hg4
    have d1 : DifferentiableAt ℝ (fun t => f (g t)) t := DifferentiableAt.comp t (g := f) hg1 hg
    have d2 : DifferentiableAt ℝ (fun t => f' (g t)) t := DifferentiableAt.comp t (g := f') hg2 hg
    have d3 : DifferentiableAt ℝ (fun t => g t + (y t - f (g t)) / f' (g t)) t := hg.add ((hy.sub d1).div d2 hg3)
    have d4 : ContinuousAt (fun t => |(y t - f (g t)) / y t|) t :=
      ((hy.sub d1).div hy hy0).continuousAt.abs
    have e1 : g t + (y t - f (g t)) / f' (g t) = newtonStep (y t) f f' 1 (g t) := by
      unfold newtonStep; rw [div_one, ← neg_sub (y t) (f (g t)), neg_div]; ring
    have e2 : |(y t - f (g t)) / y t| = relResidual (y t) f (g t) := by
      unfold relResidual; rw [← neg_sub, neg_div, abs_neg]
    rcases lt_or_gt_of_ne hr0 with h | h
    · refine hg.congr_of_eventuallyEq ?_
      filter_upwards [hr.eventually_lt continuousAt_const h] with t ht
      have : Elem.lt tol (r t) = false := by
        rw [Bool.eq_false_iff]; intro h; exact absurd ((elem_lt _ _).1 h) (by linarith)
      simp only [math.inverse_newton_raphson_loop, this]
      rfl
    · have := ih _ _ d3 d4 (by rw [e2]; exact hg4)
        (fun k hk => by rw [e1, newtonIterate_succ']; exact hf (k + 1) (by omega))
        (fun k hk => by rw [e1, newtonIterate_succ']; exact hf' (k + 1) (by omega))
        (fun k hk => by rw [e1, newtonIterate_succ']; exact hf0 (k + 1) (by omega))
        (fun k hk => by rw [e1, newtonIterate_succ']; exact hres (k + 1) (by omega))
      refine this.congr_of_eventuallyEq ?_
      filter_upwards [continuousAt_const.eventually_lt hr h] with t ht
      have : Elem.lt tol (r t) = true := (elem_lt _ _).2 ht
      simp only [math.inverse_newton_raphson_loop, this, if_true, elem_abs]

/-- C31: for a force below the maximum, the stretch contained in the extension is a differentiable function of the force,
except at forces where the relative residual of one of the Newton iterates is exactly the tolerance. -/
theorem C31_lennard_jones_stretch_differentiable (N : ℕ) (ℓ m k : ℝ) {η T : ℝ} (hℓ : 0 < ℓ) (hk : 0 < k) (hT : 0 < T)
    (hη : 0 < η) (hη' : η < deriv (lennardJonesEnergy (ndStiffness k ℓ T)) ((13 / 7) ^ (1 / 6 : ℝ)))
    (hres : ∀ j < 100, relResidual (6 * η / ndStiffness k ℓ T) (fun x => (x ^ 7)⁻¹ - (x ^ 13)⁻¹)
      (newtonIterate (6 * η / ndStiffness k ℓ T) (fun x => (x ^ 7)⁻¹ - (x ^ 13)⁻¹)
        (fun x => 13 * (x ^ 14)⁻¹ - 7 * (x ^ 8)⁻¹) 1 1 j) ≠ 1 / 1000000) :
    DifferentiableAt ℝ (fun η => (lennard_jones_isotensional_asymptotic_reduced_lengths N ℓ m k).nd_length_per_link η T -
      (1 / Real.tanh η - 1 / η) + 1) η := by
  have hκ := ndStiffness_pos hk hℓ hT
  simp only [lj_reduced_length]
  generalize ndStiffness k ℓ T = κ at *
  have es : ∀ η, langevin η + ljStretch κ η - 1 - (1 / Real.tanh η - 1 / η) + 1 = ljStretch κ η := by
    intro η; rw [langevin]; ring
  simp only [es]
  change η < deriv _ ljMax at hη'
  change ∀ j < 100, relResidual (6 * η / κ) ljF (newtonIterate (6 * η / κ) ljF ljF' 1 1 j) ≠ 1 / 1000000 at hres
  rw [(hasDerivAt_lennardJonesEnergy ljMax_pos.ne').deriv] at hη'
  obtain ⟨s, hs, hfs⟩ := exists_lj_root (y := 6 * η / κ) (by positivity)
    (by rw [div_lt_iff₀ hκ]; nlinarith)
  have h0 : ∀ x ∈ Icc 1 s, 0 < x := fun x hx => by linarith [hx.1]
  have hd : ∀ x ∈ Icc 1 s, HasDerivAt ljF (ljF' x) x := fun x hx => hasDerivAt_ljF (h0 x hx).ne'
  have hp : ∀ x ∈ Icc 1 s, 0 < ljF' x := fun x hx => ljF'_pos (h0 x hx) (hx.2.trans_lt hs.2)
  have hmem := newtonIterate_concave hs.1.le hfs hd hp (ljF_concave hs.2.le)
  unfold ljStretch math.inverse_newton_raphson
  exact inverse_newton_raphson_loop_differentiableAt (y := fun η => 6 * η / κ) (by fun_prop) (by positivity) 100
    (fun _ => 1) (fun _ => 1.0) (by fun_prop) (by fun_prop) (by norm_num) (fun k _ => (hd _ (hmem k)).differentiableAt)
    (fun k _ => (hasDerivAt_ljF' (h0 _ (hmem k)).ne').differentiableAt) (fun k _ => (hp _ (hmem k)).ne') hres

/-- C31: wherever the computed stretch `s` is differentiable in the force, the gradient of the reduced asymptotic Gibbs
energy is minus the extension up to exactly `(u'(s) - η) s'`, where `u` is the Lennard-Jones potential.  The error
vanishes where the computed stretch balances the force exactly. -/
theorem C31_lennard_jones_reduced_gradient (N : ℕ) (ℓ m k : ℝ) {η s' T : ℝ} (hℓ : 0 < ℓ) (hk : 0 < k) (hT : 0 < T)
    (hη : η ≠ 0) :
    let γ := fun η => (lennard_jones_isotensional_asymptotic_reduced_lengths N ℓ m k).nd_length_per_link η T
    let s := fun η => γ η - (1 / Real.tanh η - 1 / η) + 1
    s η ≠ 0 → HasDerivAt s s' η →
      HasDerivAt (fun η => (lennard_jones_isotensional_asymptotic_reduced_gibbs N ℓ m k).nd_energy_per_link η T)
        (-γ η + (deriv (lennardJonesEnergy (ndStiffness k ℓ T)) (s η) - η) * s') η := by
  have hκ := ndStiffness_pos hk hℓ hT
  simp only [lj_reduced_length]
  simp only [api_core,
    ufjc.lennard_jones.thermodynamics.isotensional.asymptotic.reduced.nondimensional_gibbs_free_energy_per_link,
    model_real, lj_stretch_eq]
  generalize ndStiffness k ℓ T = κ at *
  generalize Real.log (8 * Real.pi ^ 2 * m * ℓ ^ 2 * BOLTZMANN_CONSTANT * T / PLANCK_CONSTANT ^ 2) = C
  have es : ∀ η, langevin η + ljStretch κ η - 1 - (1 / Real.tanh η - 1 / η) + 1 = ljStretch κ η := by
    intro η; rw [langevin]; ring
  simp only [es]
  intro h0 hs
  refine hasDerivAt_of_eq ((((hasDerivAt_log_sinh_div hη).neg.add (hasDerivAt_lj_part hs h0)).sub_const
    (1 / 2 * Real.log (2 * Real.pi * ℓ ^ 2 / κ))).sub_const C) (fun x => ?_) (by ring)
  simp only [Pi.add_apply, Pi.neg_apply]
  ring

/-- C31: the same for the asymptotic Gibbs energy; `s` is the stretch contained in the reduced extension. -/
theorem C31_lennard_jones_asymptotic_gradient (N : ℕ) (ℓ m k : ℝ) {η s' T : ℝ} (hℓ : 0 < ℓ) (hk : 0 < k) (hT : 0 < T)
    (hη : η ≠ 0) :
    let s := fun η => (lennard_jones_isotensional_asymptotic_reduced_lengths N ℓ m k).nd_length_per_link η T -
      (1 / Real.tanh η - 1 / η) + 1
    s η ≠ 0 → HasDerivAt s s' η →
      HasDerivAt (fun η => (lennard_jones_isotensional_asymptotic_gibbs N ℓ m k).nd_energy_per_link η T)
        (-(lennard_jones_isotensional_asymptotic_lengths N ℓ m k).nd_length_per_link η T +
          (deriv (lennardJonesEnergy (ndStiffness k ℓ T)) (s η) - η) * s') η := by
  have hκ := ndStiffness_pos hk hℓ hT
  simp only [lj_reduced_length, lj_asymptotic_length]
  simp only [api_core,
    ufjc.lennard_jones.thermodynamics.isotensional.asymptotic.nondimensional_gibbs_free_energy_per_link,
    model_real, lj_stretch_eq]
  generalize ndStiffness k ℓ T = κ at *
  generalize Real.log (8 * Real.pi ^ 2 * m * ℓ ^ 2 * BOLTZMANN_CONSTANT * T / PLANCK_CONSTANT ^ 2) = C
  have es : ∀ η, langevin η + ljStretch κ η - 1 - (1 / Real.tanh η - 1 / η) + 1 = ljStretch κ η := by
    intro η; rw [langevin]; ring
  simp only [es]
  intro h0 hs
  have hc : (0 : ℝ) < 2 / 23 := by norm_num
  refine hasDerivAt_of_eq (((((hasDerivAt_log_sinh_div hη).neg.sub (hasDerivAt_log_corr hc hκ hη)).add
    (hasDerivAt_lj_part hs h0)).sub_const
    (1 / 2 * Real.log (2 * Real.pi * ℓ ^ 2 / κ))).sub_const C) (fun x => ?_) (by ring)
  simp only [Pi.add_apply, Pi.neg_apply, Pi.sub_apply]
  have : x / Real.tanh x / κ / (2 / 23) = 23 / 2 * x / Real.tanh x / κ := by ring
  rw [this]
  ring

/-- C57: the solver runs damped Newton steps on the isotensional extension, starting below the maximum force of
the potential; its slope is that of the extension with the slope of the computed link stretch `s` replaced by a central
difference. -/
theorem C57_lennard_jones_reduced (N : ℕ) (ℓ m k T : ℝ) (hℓ : 0 < ℓ) (hk : 0 < k) (hT : 0 < T) :
    let γ := fun η => (lennard_jones_isotensional_asymptotic_reduced_lengths N ℓ m k).nd_length_per_link η T
    let s := fun η => γ η - (1 / Real.tanh η - 1 / η) + 1
    ∃ slope : ℝ → ℝ,
      (∀ η, η ≠ 0 → HasDerivAt (fun x => γ x - s x)
        (slope η - (s (η + 1 / 1000000) - s (η - 1 / 1000000)) / (2 / 1000000)) η) ∧
      DampedNewtonRun 4 (fun γ => (lennard_jones_isometric_asymptotic_reduced_legendre_forces N ℓ m k).nd_force γ T)
        γ slope (fun _ => True)
        (fun η => η ≤ deriv (lennardJonesEnergy (ndStiffness k ℓ T)) ((13 / 7) ^ (1 / 6 : ℝ))) := by
  have hκ := ndStiffness_pos hk hℓ hT
  rw [show ((13 / 7) ^ (1 / 6 : ℝ) : ℝ) = ljMax from rfl, (hasDerivAt_lennardJonesEnergy ljMax_pos.ne').deriv]
  simp only [lj_reduced_length]
  have es : ∀ κ η, langevin η + ljStretch κ η - 1 - (1 / Real.tanh η - 1 / η) + 1 = ljStretch κ η := by
    intro κ η; rw [langevin]; ring
  simp only [es]
  simp only [api_core, ufjc.lennard_jones.thermodynamics.isometric.asymptotic.reduced.legendre.nondimensional_force,
    model_real, langevin, lj_stretch_eq]
  generalize ndStiffness k ℓ T = κ at *
  refine ⟨_, ?_, dampedNewtonRun_of_code _ _ _ fun γ _ => ?_⟩
  · intro η hη
    refine hasDerivAt_of_eq ((hasDerivAt_langevin hη).sub_const 1) (fun x => ?_) ?_
    · simp only [langevin]; ring
    · norm_num
  · have e : κ / 6 * (((13 / 7 : ℝ) ^ (1 / 6 : ℝ)) ^ (-7 : ℤ) - ((13 / 7 : ℝ) ^ (1 / 6 : ℝ)) ^ (-13 : ℤ)) =
        κ / 6 * ljF ljMax := by
      simp only [ljF, ljMax, zpow_neg]; norm_cast
    have := ljF_strictMonoOn (left_mem_Icc.2 one_lt_ljMax.le) (right_mem_Icc.2 one_lt_ljMax.le) one_lt_ljMax
    rw [ljF_one] at this
    have hM : 0 < κ / 6 * ljF ljMax := by positivity
    simp only [e]
    split_ifs <;> linarith

/-- C57: asymptotic approach. -/
theorem C57_lennard_jones_asymptotic (N : ℕ) (ℓ m k T : ℝ) (hℓ : 0 < ℓ) (hk : 0 < k) (hT : 0 < T) :
    let γ := fun η => (lennard_jones_isotensional_asymptotic_lengths N ℓ m k).nd_length_per_link η T
    let s := fun η => (lennard_jones_isotensional_asymptotic_reduced_lengths N ℓ m k).nd_length_per_link η T -
      (1 / Real.tanh η - 1 / η) + 1
    ∃ slope : ℝ → ℝ,
      (∀ η, η ≠ 0 → HasDerivAt (fun x => γ x - s x)
        (slope η - (s (η + 1 / 1000000) - s (η - 1 / 1000000)) / (2 / 1000000)) η) ∧
      DampedNewtonRun 4 (fun γ => (lennard_jones_isometric_asymptotic_legendre_forces N ℓ m k).nd_force γ T)
        γ slope (fun _ => True)
        (fun η => η ≤ deriv (lennardJonesEnergy (ndStiffness k ℓ T)) ((13 / 7) ^ (1 / 6 : ℝ))) := by
  have hκ := ndStiffness_pos hk hℓ hT
  rw [show ((13 / 7) ^ (1 / 6 : ℝ) : ℝ) = ljMax from rfl, (hasDerivAt_lennardJonesEnergy ljMax_pos.ne').deriv]
  simp only [lj_reduced_length, lj_asymptotic_length]
  have es : ∀ κ η, langevin η + ljStretch κ η - 1 - (1 / Real.tanh η - 1 / η) + 1 = ljStretch κ η := by
    intro κ η; rw [langevin]; ring
  simp only [es]
  simp only [api_core, ufjc.lennard_jones.thermodynamics.isometric.asymptotic.legendre.nondimensional_force,
    model_real, langevin, lj_stretch_eq]
  generalize ndStiffness k ℓ T = κ at *
  refine ⟨_, ?_, dampedNewtonRun_of_code _ _ _ fun γ _ => ?_⟩
  · intro η hη
    refine hasDerivAt_of_eq (((hasDerivAt_langevin hη).add
      (hasDerivAt_corr (c := 2 / 23) (by norm_num) hκ hη)).sub_const 1) (fun x => ?_) ?_
    · simp only [langevin, Pi.add_apply]; ring
    · norm_num
  · have e : κ / 6 * (((13 / 7 : ℝ) ^ (1 / 6 : ℝ)) ^ (-7 : ℤ) - ((13 / 7 : ℝ) ^ (1 / 6 : ℝ)) ^ (-13 : ℤ)) =
        κ / 6 * ljF ljMax := by
      simp only [ljF, ljMax, zpow_neg]; norm_cast
    have := ljF_strictMonoOn (left_mem_Icc.2 one_lt_ljMax.le) (right_mem_Icc.2 one_lt_ljMax.le) one_lt_ljMax
    rw [ljF_one] at this
    have hM : 0 < κ / 6 * ljF ljMax := by positivity
    simp only [e]
    split_ifs <;> linarith

end Polymers.Props
