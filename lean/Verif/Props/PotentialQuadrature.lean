import Verif.Props.StrongPotential
import Verif.Props.FjcPotential

/-! Property C67: the quadrature of the modified canonical ensemble fails for stiff potentials. -/

namespace Polymers.Props

open Polymers.Spec Polymers.Api Polymers.Lemmas Set Filter Topology MeasureTheory

/-- The midpoint sum of the weights of the extensions diverges from their integral as the potential stiffens. -/
theorem potential_midpoint_diverges {N : ℕ} (ℓ m : ℝ) (hN5 : 5 ≤ N) (hN : N ≤ 26) {d : ℝ} (h0 : 0 < d) (h1 : d < 1) :
    Tendsto (fun c : ℝ => |-Real.log (midpointSum (potentialWeight (fjc_isometric_distribution N ℓ m).nd_radial c d) 1e-6 1 64) +
      Real.log (potentialPartition (fjc_isometric_distribution N ℓ m).nd_radial c d)|) atTop atTop := by
  set R := (fjc_isometric_distribution N ℓ m).nd_radial with hR
  set P := Real.log (fjc.thermodynamics.treloar_sum_0_with_prefactor N d) with hP
  set h : ℝ := (1 - 1e-6) / (64 : ℕ) with hh
  have hhv : h = 999999 / 64000000 := by rw [hh]; norm_num
  set x : ℕ → ℝ := fun i => 1e-6 + (i + 1 / 2) * h with hx
  have hxm : ∀ i ∈ Finset.range 64, 0 < x i ∧ x i < 1 := by
    intro i hi
    have hi : (i : ℝ) ≤ 63 := by exact_mod_cast Nat.le_of_lt_succ (Finset.mem_range.1 hi)
    have hi0 : (0 : ℝ) ≤ i := Nat.cast_nonneg i
    simp only [hx, hhv]
    constructor
    · positivity
    · norm_num
      nlinarith
  have hRp : ∀ i ∈ Finset.range 64, 0 < R (x i) := by
    intro i hi
    obtain ⟨a, b⟩ := hxm i hi
    rw [hR, fjc_nd_radial (by omega) hN ℓ m a]
    have := treloar_sum_pos (by omega : 2 ≤ N) (by omega : N ≤ 34) a b
    have := treloarFactor_pos (by omega : 0 < N)
    have := Real.pi_pos
    positivity
  have hM : ∀ c, midpointSum (potentialWeight R c d) 1e-6 1 64 = h * ∑ i ∈ Finset.range 64, potentialWeight R c d (x i) :=
    fun c => rfl
  -- the weight in terms of the distance to the potential
  have hW : ∀ c, 0 < c → ∀ i ∈ Finset.range 64, potentialWeight R c d (x i) =
      R (x i) / (2 * d * x i) / c * (Real.exp (-(c * (d - x i) ^ 2 / 2)) - Real.exp (-(c * (d + x i) ^ 2 / 2))) := by
    intro c hc i hi
    have hxi := (hxm i hi).1
    have p1 : Real.exp (-(c * (d - x i) ^ 2 / 2)) = Real.exp (-(c * (d ^ 2 + x i ^ 2) / 2)) * Real.exp (c * d * x i) := by
      rw [← Real.exp_add]; ring_nf
    have p2 : Real.exp (-(c * (d + x i) ^ 2 / 2)) = Real.exp (-(c * (d ^ 2 + x i ^ 2) / 2)) * Real.exp (-(c * d * x i)) := by
      rw [← Real.exp_add]; ring_nf
    simp only [potentialWeight, p1, p2, Real.sinh_eq]
    field_simp
  have hWp : ∀ c, 0 < c → ∀ i ∈ Finset.range 64, 0 < potentialWeight R c d (x i) := by
    intro c hc i hi
    have := (hxm i hi).1
    have := hRp i hi
    have hs : 0 < Real.sinh (c * d * x i) := Real.sinh_pos_iff.2 (by positivity)
    have := Real.exp_pos (-(c * (d ^ 2 + x i ^ 2) / 2))
    unfold potentialWeight
    positivity
  have hhp : 0 < h := by rw [hhv]; norm_num
  have hMp : ∀ c, 0 < c → 0 < midpointSum (potentialWeight R c d) 1e-6 1 64 := by
    intro c hc
    rw [hM]
    exact mul_pos hhp (Finset.sum_pos (hWp c hc) ⟨0, by simp⟩)
  -- the logarithm of the integral
  have L := fjc_potentialPartition_laplace ℓ m hN5 hN h0 h1
  rw [← hR, ← hP] at L
  have hg : Tendsto (fun c : ℝ => -Real.log (potentialPartition R c d) + P + 3 / 2 * Real.log (2 * Real.pi / c)) atTop (𝓝 0) := by
    have h2 := L.mul tendsto_inv_atTop_zero
    rw [mul_zero] at h2
    refine h2.congr' ((eventually_gt_atTop 0).mono fun c hc => ?_)
    field_simp
  have hg1 : ∀ᶠ c : ℝ in atTop, |-Real.log (potentialPartition R c d) + P + 3 / 2 * Real.log (2 * Real.pi / c)| < 1 := by
    have := hg.abs
    rw [abs_zero] at this
    exact this.eventually (gt_mem_nhds one_pos)
  have hpi := Real.pi_pos
  by_cases hgrid : ∃ i ∈ Finset.range 64, x i = d
  · -- on the grid the sum is too large
    obtain ⟨i, hi, hxi⟩ := hgrid
    set b := h * (R d / (4 * d ^ 2)) with hb
    have hRd : 0 < R d := by rw [← hxi]; exact hRp i hi
    have hbp : 0 < b := by positivity
    have hlim : Tendsto (fun c : ℝ => 1 / 2 * Real.log c + (Real.log b - P - 3 / 2 * Real.log (2 * Real.pi) - 1)) atTop atTop :=
      tendsto_atTop_add_const_right _ _ (Real.tendsto_log_atTop.const_mul_atTop (by norm_num))
    refine tendsto_atTop_mono' _ ?_ hlim
    have hexp : ∀ᶠ c : ℝ in atTop, Real.exp (-(c * (d + d) ^ 2 / 2)) ≤ 1 / 2 := by
      have : Tendsto (fun c : ℝ => Real.exp (-(c * (d + d) ^ 2 / 2))) atTop (𝓝 0) := by
        refine Real.tendsto_exp_neg_atTop_nhds_zero.comp ?_
        have : ∀ c : ℝ, c * (d + d) ^ 2 / 2 = (2 * d ^ 2) * c := fun c => by ring
        simp only [this]
        exact tendsto_id.const_mul_atTop (by positivity)
      exact (this.eventually (gt_mem_nhds (by norm_num : (0 : ℝ) < 1 / 2))).mono fun c hc => hc.le
    filter_upwards [eventually_gt_atTop 0, hexp, hg1] with c hc he hgc
    have hMb : b / c ≤ midpointSum (potentialWeight R c d) 1e-6 1 64 := by
      rw [hM]
      have hle := Finset.single_le_sum (fun j hj => (hWp c hc j hj).le) hi
      rw [hW c hc i hi, hxi] at hle
      have h3 : R d / (4 * d ^ 2) / c ≤
          R d / (2 * d * d) / c * (Real.exp (-(c * (d - d) ^ 2 / 2)) - Real.exp (-(c * (d + d) ^ 2 / 2))) := by
        have e0 : Real.exp (-(c * (d - d) ^ 2 / 2)) = 1 := by simp
        rw [e0]
        have e4 : R d / (4 * d ^ 2) / c = R d / (2 * d * d) / c * (1 / 2) := by field_simp; ring
        rw [e4]
        refine mul_le_mul_of_nonneg_left (by linarith) (by positivity)
      rw [hb, mul_div_assoc]
      exact mul_le_mul_of_nonneg_left (h3.trans hle) hhp.le
    have hlog := Real.log_le_log (by positivity) hMb
    rw [Real.log_div hbp.ne' hc.ne'] at hlog
    rw [Real.log_div (by positivity) hc.ne'] at hgc
    obtain ⟨g1, g2⟩ := abs_lt.1 hgc
    refine le_trans ?_ (neg_le_abs _)
    linarith
  · -- off the grid it is too small
    push Not at hgrid
    obtain ⟨j, hj, hmin⟩ := (Finset.range 64).exists_min_image (fun i => (d - x i) ^ 2) ⟨0, by simp⟩
    set δ := (d - x j) ^ 2 with hδ
    have hδp : 0 < δ := by
      have : d - x j ≠ 0 := fun h => hgrid j hj (by linarith)
      positivity
    set B := h * ∑ i ∈ Finset.range 64, R (x i) / (2 * d * x i) with hB
    have hBp : 0 < B := by
      refine mul_pos hhp (Finset.sum_pos (fun i hi => ?_) ⟨0, by simp⟩)
      have := (hxm i hi).1
      have := hRp i hi
      positivity
    have hlim : Tendsto (fun c : ℝ => δ / 4 * c + (-Real.log B + P + 3 / 2 * Real.log (2 * Real.pi) - 1)) atTop atTop :=
      tendsto_atTop_add_const_right _ _ (tendsto_id.const_mul_atTop (by positivity))
    refine tendsto_atTop_mono' _ ?_ hlim
    have hlo : ∀ᶠ c : ℝ in atTop, Real.log c ≤ δ / 6 * c := by
      have := Real.isLittleO_log_id_atTop.def (by positivity : 0 < δ / 6)
      filter_upwards [this, eventually_gt_atTop 0] with c hc hc0
      simp only [id, Real.norm_eq_abs, abs_of_pos hc0] at hc
      exact (le_abs_self _).trans hc
    filter_upwards [eventually_ge_atTop 1, hlo, hg1] with c hc1 hl hgc
    have hc : 0 < c := by linarith
    have hMb : midpointSum (potentialWeight R c d) 1e-6 1 64 ≤ B * Real.exp (-(c * δ / 2)) := by
      rw [hM, hB, mul_assoc, Finset.sum_mul]
      refine mul_le_mul_of_nonneg_left (Finset.sum_le_sum fun i hi => ?_) hhp.le
      rw [hW c hc i hi]
      have := (hxm i hi).1
      have hr := hRp i hi
      have e1 : Real.exp (-(c * (d - x i) ^ 2 / 2)) ≤ Real.exp (-(c * δ / 2)) := by
        refine Real.exp_le_exp.2 ?_
        have := mul_le_mul_of_nonneg_left (hmin i hi) hc.le
        linarith
      have e2 := Real.exp_pos (-(c * (d + x i) ^ 2 / 2))
      calc _ ≤ R (x i) / (2 * d * x i) / c * Real.exp (-(c * δ / 2)) :=
            mul_le_mul_of_nonneg_left (by linarith) (by positivity)
        _ ≤ R (x i) / (2 * d * x i) * Real.exp (-(c * δ / 2)) :=
            mul_le_mul_of_nonneg_right (div_le_self (by positivity) hc1) (Real.exp_pos _).le
    have hlog := Real.log_le_log (hMp c hc) hMb
    rw [Real.log_mul hBp.ne' (Real.exp_ne_zero _), Real.log_exp] at hlog
    rw [Real.log_div (by positivity) hc.ne'] at hgc
    obtain ⟨g1, g2⟩ := abs_lt.1 hgc
    refine le_trans ?_ (le_abs_self _)
    linarith

/-- C67: at every distance of the potential, the Helmholtz free energy computed for the modified canonical ensemble departs without
bound from that of the chain in the potential as the potential stiffens: the quadrature has 64 fixed points. -/
theorem C67_modified_canonical_stiff (N : ℕ) (ℓ m : ℝ) (hN5 : 5 ≤ N) (hN : N ≤ 26) (hℓ : 0 < ℓ) {d T : ℝ} (hT : 0 < T) (h0 : 0 < d)
    (h1 : d < 1) :
    Tendsto (fun K => |(fjc_modified_canonical_helmholtz N ℓ m K).nd_energy d T - exactPotentialHelmholtz N ℓ m K d T|) atTop
      atTop := by
  have hD := (potential_midpoint_diverges ℓ m hN5 hN h0 h1).comp (tendsto_stiffness (by omega : 0 < N) hℓ hT)
  refine hD.congr' ?_
  filter_upwards [eventually_gt_atTop 0] with K hK
  rw [C20_partition N ℓ m K (by omega) hN hℓ hK hT h0, exactPotentialHelmholtz, Function.comp]
  congr 1
  ring

example : Tendsto (fun K => |(fjc_modified_canonical_helmholtz 8 1 1 K).nd_energy (1 / 2) 300 -
    exactPotentialHelmholtz 8 1 1 K (1 / 2) 300|) atTop atTop :=
  C67_modified_canonical_stiff 8 1 1 (by norm_num) (by norm_num) (by norm_num) (by norm_num) (by norm_num) (by norm_num)

end Polymers.Props
