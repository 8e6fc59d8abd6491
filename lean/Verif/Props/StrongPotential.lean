import Verif.Props.FjcStretch
import Verif.Props.EnsembleTransform
import Verif.Props.PotentialLimits
import Verif.Lemmas.Laplace

/-! Property C65: how the strong-potential asymptotics of the freely jointed chain differ from the ensemble they approximate. -/

namespace Polymers.Props

open Polymers.Spec Polymers.Api Polymers.Lemmas Set Filter Topology MeasureTheory

/-- Logarithms of functions which differ from a constant by a term of first order. -/
theorem tendsto_mul_log {Y : ℝ → ℝ} {y g : ℝ} (hy : 0 < y) (h : Tendsto (fun c => c * (Y c - y)) atTop (𝓝 g)) :
    Tendsto (fun c => c * (Real.log (Y c) - Real.log y)) atTop (𝓝 (g / y)) ∧ Tendsto Y atTop (𝓝 y) := by
  have h0 : Tendsto Y atTop (𝓝 y) := by
    have h1 := (h.mul tendsto_inv_atTop_zero).add_const y
    rw [mul_zero, zero_add] at h1
    refine h1.congr' ((eventually_gt_atTop 0).mono fun c hc => ?_)
    field_simp
    ring
  refine ⟨?_, h0⟩
  have hd := (Real.hasDerivAt_log hy.ne')
  have hs : Tendsto (fun c => dslope Real.log y (Y c)) atTop (𝓝 (1 / y)) := by
    have hc : ContinuousAt (dslope Real.log y) y := continuousAt_dslope_same.2 hd.differentiableAt
    have := hc.tendsto.comp h0
    rw [dslope_same, hd.deriv, inv_eq_one_div] at this
    exact this
  refine ((h.mul hs).congr fun c => ?_).trans_eq (by ring_nf)
  have := sub_smul_dslope Real.log y (Y c)
  rw [smul_eq_mul] at this
  rw [← this]; ring

/-- The partition function in a strong potential, to first order in its compliance. -/
theorem fjc_potentialPartition_laplace {N : ℕ} (ℓ m : ℝ) (hN5 : 5 ≤ N) (hN : N ≤ 26) {d : ℝ} (h0 : 0 < d) (h1 : d < 1) :
    Tendsto (fun c : ℝ => c * (-Real.log (potentialPartition (fjc_isometric_distribution N ℓ m).nd_radial c d) +
        Real.log (fjc.thermodynamics.treloar_sum_0_with_prefactor N d) + 3 / 2 * Real.log (2 * Real.pi / c))) atTop
      (𝓝 (-((N / 2 - 1) * (N / 2 - 3 / 2) * fjc.thermodynamics.treloar_sum N d ((N : ℤ) - 2 - 2) /
        (2 * fjc.thermodynamics.treloar_sum N d ((N : ℤ) - 2))))) := by
  have hN0 : (0 : ℝ) < N := by positivity
  obtain ⟨F, hF, hS, -⟩ := treloar_transform (by omega : 2 ≤ N) (by omega : N ≤ 34)
  set S : ℝ → ℝ := fun x => fjc.thermodynamics.treloar_sum N x ((N : ℤ) - 2) with hSd
  set S1 : ℝ → ℝ := fun x => fjc.thermodynamics.treloar_sum N x ((N : ℤ) - 2 - 1) with hS1d
  set S2 : ℝ → ℝ := fun x => fjc.thermodynamics.treloar_sum N x ((N : ℤ) - 2 - 2) with hS2d
  set G : ℝ → ℝ := (Ioo (0 : ℝ) 1).indicator F with hG
  have hGS : ∀ x ∈ Ioo (0 : ℝ) 1, G x = S x := fun x hx => by rw [hG, indicator_of_mem hx, ← hS x hx]
  have hGm : Measurable G := hF.measurable.indicator measurableSet_Ioo
  obtain ⟨M, hM⟩ := (isCompact_Icc (a := (0 : ℝ)) (b := 1)).exists_bound_of_continuousOn hF.continuousOn
  have hGM : ∀ x, |G x| ≤ |M| := by
    intro x
    by_cases hx : x ∈ Ioo (0 : ℝ) 1
    · rw [hG, indicator_of_mem hx]
      exact (hM x ⟨hx.1.le, hx.2.le⟩).trans (le_abs_self M)
    · rw [hG, indicator_of_notMem hx, abs_zero]; exact abs_nonneg M
  have hdm : Ioo (0 : ℝ) 1 ∈ 𝓝 d := Ioo_mem_nhds h0 h1
  set a : ℝ := N / 2 - 1 with ha
  set b : ℝ := N / 2 - 3 / 2 with hb
  have d0 : ∀ x ∈ Ioo (0 : ℝ) 1, HasDerivAt S (-a * S1 x) x := by
    intro x hx
    refine (hasDerivAt_treloar_general (by omega) (by omega : N ≤ 34) hx.1 hx.2 ((N : ℤ) - 2) (.inl (by omega))).congr_deriv ?_
    rw [ha]; push_cast; ring
  have d1 : HasDerivAt S1 (-b * S2 d) d := by
    refine (hasDerivAt_treloar_general (by omega) (by omega : N ≤ 34) h0 h1 ((N : ℤ) - 2 - 1) (.inl (by omega))).congr_deriv ?_
    rw [hb, hS2d, show (N : ℤ) - 2 - 1 - 1 = (N : ℤ) - 2 - 2 by ring]; push_cast; ring
  have t1 := taylor_two (G := G) (G1 := fun x => -a * S1 x) (d := d) (g2 := a * b * S2 d)
    (by
      filter_upwards [hdm, eventually_eventually_nhds.2 hdm] with x hx hx'
      exact (d0 x hx).congr_of_eventuallyEq (hx'.mono hGS))
    ((d1.const_mul (-a)).congr_deriv (by ring))
  have L1 := gauss_mean hGm hGM t1
  -- the image of the distance carries no weight
  have hz : ∀ᶠ t in 𝓝 (0 : ℝ), G (-d + t) = 0 := by
    filter_upwards [gt_mem_nhds h0] with t ht
    exact indicator_of_notMem (fun h => by have := h.1; linarith) _
  have t2 : (fun t => G (-d + t) - G (-d) - 0 * t - 0 / 2 * t ^ 2) =o[𝓝 0] fun t => t ^ 2 := by
    refine (Asymptotics.isLittleO_zero _ _).congr' ?_ .rfl
    filter_upwards [hz] with t ht
    have := hz.self_of_nhds
    rw [add_zero] at this
    simp [ht, this]
  have L2 := gauss_mean hGm hGM t2
  have hGd : G d = S d := hGS d ⟨h0, h1⟩
  have hGd' : G (-d) = 0 := by have := hz.self_of_nhds; rwa [add_zero] at this
  have hSp : 0 < S d := treloar_sum_pos (by omega) (by omega : N ≤ 34) h0 h1
  set Y : ℝ → ℝ := fun c => √(c / (2 * Real.pi)) * (∫ r, G r * Real.exp (-(c / 2) * (r - d) ^ 2)) -
    √(c / (2 * Real.pi)) * (∫ r, G r * Real.exp (-(c / 2) * (r - -d) ^ 2)) with hY
  have LY : Tendsto (fun c => c * (Y c - S d)) atTop (𝓝 (a * b * S2 d / 2)) := by
    have := L1.sub L2
    rw [hGd, hGd'] at this
    refine (this.congr fun c => ?_).trans_eq (by ring_nf)
    simp only [hY]; ring
  obtain ⟨LL, LY0⟩ := tendsto_mul_log hSp LY
  have hpos : ∀ᶠ c in atTop, 0 < Y c := LY0.eventually (lt_mem_nhds hSp)
  have htf := treloarFactor_pos (by omega : 0 < N)
  have hpi := Real.pi_pos
  -- the partition function
  have hint : ∀ c : ℝ, 0 < c → ∀ e : ℝ, Integrable fun r => G r * Real.exp (-(c / 2) * (r - e) ^ 2) := by
    intro c hc e
    have hi : Integrable fun r => Real.exp (-(c / 2) * (r - e) ^ 2) :=
      (integrable_exp_neg_mul_sq (by positivity : 0 < c / 2)).comp_sub_right e
    exact hi.bdd_mul (c := |M|) hGm.aestronglyMeasurable (.of_forall fun x => hGM x)
  have hZ : ∀ c, 0 < c → potentialPartition (fjc_isometric_distribution N ℓ m).nd_radial c d =
      2 * Real.pi * treloarFactor N / (c * d) * (√(2 * Real.pi / c) * Y c) := by
    intro c hc
    have e1 : EqOn (potentialWeight (fjc_isometric_distribution N ℓ m).nd_radial c d)
        (fun r => 2 * Real.pi * treloarFactor N / (c * d) *
          (G r * Real.exp (-(c / 2) * (r - d) ^ 2) - G r * Real.exp (-(c / 2) * (r - -d) ^ 2))) (Ioo 0 1) := by
      intro r hr
      have hr0 : 0 < r := hr.1
      have p1 : Real.exp (-(c / 2) * (r - d) ^ 2) = Real.exp (-(c * (d ^ 2 + r ^ 2) / 2)) * Real.exp (c * d * r) := by
        rw [← Real.exp_add]; ring_nf
      have p2 : Real.exp (-(c / 2) * (r - -d) ^ 2) = Real.exp (-(c * (d ^ 2 + r ^ 2) / 2)) * Real.exp (-(c * d * r)) := by
        rw [← Real.exp_add]; ring_nf
      simp only [potentialWeight, fjc_nd_radial (by omega) hN ℓ m hr0, hGS r hr, p1, p2, Real.sinh_eq, hSd]
      field_simp
      ring
    have e2 : ∀ r ∉ Ioc (0 : ℝ) 1, G r * Real.exp (-(c / 2) * (r - d) ^ 2) - G r * Real.exp (-(c / 2) * (r - -d) ^ 2) = 0 := by
      intro r hr
      have : G r = 0 := indicator_of_notMem (fun h => hr ⟨h.1, h.2.le⟩) _
      rw [this]; ring
    rw [potentialPartition, intervalIntegral.integral_congr_Ioo_of_le zero_le_one e1, intervalIntegral.integral_const_mul,
      intervalIntegral.integral_of_le zero_le_one, setIntegral_eq_integral_of_forall_compl_eq_zero e2,
      integral_sub (hint c hc d) (hint c hc (-d))]
    congr 1
    simp only [hY]
    have hs : √(2 * Real.pi / c) * √(c / (2 * Real.pi)) = 1 := by
      rw [← Real.sqrt_mul (by positivity)]
      have : 2 * Real.pi / c * (c / (2 * Real.pi)) = 1 := by field_simp
      rw [this, Real.sqrt_one]
    linear_combination (-((∫ r, G r * Real.exp (-(c / 2) * (r - d) ^ 2)) - ∫ r, G r * Real.exp (-(c / 2) * (r - -d) ^ 2))) * hs
  refine (LL.neg.congr' ?_).trans_eq (by congr 1; simp only [hS2d, hSd, ha, hb]; field_simp)
  filter_upwards [eventually_gt_atTop 0, hpos] with c hc hYc
  rw [hZ c hc, treloar_density_eq (by omega) hN]
  have q1 : Real.log (2 * Real.pi * treloarFactor N / (c * d) * (√(2 * Real.pi / c) * Y c)) =
      Real.log (2 * Real.pi / c) + Real.log (treloarFactor N) - Real.log d + (Real.log (2 * Real.pi / c) / 2 + Real.log (Y c)) := by
    have : 2 * Real.pi * treloarFactor N / (c * d) * (√(2 * Real.pi / c) * Y c) =
      (2 * Real.pi / c * treloarFactor N / d) * (√(2 * Real.pi / c) * Y c) := by field_simp
    have hq : 0 < √(2 * Real.pi / c) := Real.sqrt_pos.2 (by positivity)
    rw [this, Real.log_mul (by positivity) (by positivity), Real.log_div (by positivity) h0.ne',
      Real.log_mul (by positivity) htf.ne', Real.log_mul hq.ne' hYc.ne', Real.log_sqrt (by positivity)]
  have q2 : Real.log (treloarFactor N * (fjc.thermodynamics.treloar_sum N d ((N : ℤ) - 2) / d)) =
      Real.log (treloarFactor N) + Real.log (S d) - Real.log d := by
    rw [Real.log_mul htf.ne' (div_pos hSp h0).ne', Real.log_div hSp.ne' h0.ne']; ring
  rw [q1, q2]
  ring

/-- The Helmholtz free energy of a chain in a harmonic potential, from the exact distribution of its extension: minus the
logarithm of the partition function, and the momentum term the code adds to every Helmholtz free energy. -/
noncomputable def exactPotentialHelmholtz (N : ℕ) (ℓ m K d T : ℝ) : ℝ :=
  -Real.log (potentialPartition (fjc_isometric_distribution N ℓ m).nd_radial ((N : ℝ) ^ 2 * ndStiffness K ℓ T) d) -
    ((N : ℝ) - 1) * Real.log (8 * Real.pi ^ 2 * m * ℓ ^ 2 * BOLTZMANN_CONSTANT * T / PLANCK_CONSTANT ^ 2)

theorem tendsto_stiffness {N : ℕ} (hN : 0 < N) {ℓ T : ℝ} (hℓ : 0 < ℓ) (hT : 0 < T) :
    Tendsto (fun K => (N : ℝ) ^ 2 * ndStiffness K ℓ T) atTop atTop := by
  have hN0 : (0 : ℝ) < N := by exact_mod_cast hN
  have hk := kT_pos hT
  have : ∀ K : ℝ, (N : ℝ) ^ 2 * ndStiffness K ℓ T = (N : ℝ) ^ 2 * (ℓ ^ 2 / kT T) * K := by
    intro K; unfold ndStiffness; field_simp
  simp only [this]
  exact tendsto_id.const_mul_atTop (by positivity)

/-- C65: as the potential stiffens, the strong-potential free energy approaches that of the chain in the potential, but the two
differ by `-N η(d)/(d c)`, where `c` is the stiffness `N² K ℓ²/(kT)` and `η(d)` is the nondimensional force at fixed extension:
an error of the same order `1/c` as the correction which the asymptotics apply. -/
theorem C65_strong_potential_error (N : ℕ) (ℓ m : ℝ) (hN5 : 5 ≤ N) (hN : N ≤ 26) (hℓ : 0 < ℓ) {d T : ℝ} (hT : 0 < T) (h0 : 0 < d)
    (h1 : d < 1) :
    Tendsto (fun K => (N : ℝ) ^ 2 * ndStiffness K ℓ T *
        ((fjc_strong_potential_helmholtz N ℓ m K).nd_energy d T - exactPotentialHelmholtz N ℓ m K d T)) atTop
      (𝓝 (-(N * (fjc_isometric_forces N ℓ m).nd_force d T / d))) := by
  have hN0 : (0 : ℝ) < N := by positivity
  have L := (fjc_potentialPartition_laplace ℓ m hN5 hN h0 h1).comp (tendsto_stiffness (by omega : 0 < N) hℓ hT)
  have hp := treloar_density_pos (by omega) hN h0 h1
  have hSp := treloar_sum_pos (by omega : 2 ≤ N) (by omega : N ≤ 34) h0 h1
  have hL : (0 : ℝ) < N * ℓ := by positivity
  have L2 := (tendsto_const_nhds (x := strongCorrection N d / 2) (f := atTop)).sub L
  refine (L2.congr' ?_).trans_eq ?_
  · filter_upwards [eventually_gt_atTop 0] with K hK
    have hκ := ndStiffness_pos hK hℓ hT
    rw [Function.comp, sp_nd_energy, strong_nd_helmholtz (by omega : 2 ≤ N), exactPotentialHelmholtz,
      Real.log_div hp.ne' (by positivity), Real.log_pow,
      show 2 * Real.pi / ndStiffness K ℓ T / (N : ℝ) ^ 2 = 2 * Real.pi / ((N : ℝ) ^ 2 * ndStiffness K ℓ T) by field_simp]
    push_cast
    field_simp
    ring
  · congr 1
    rw [fjc_isometric_nd_force (by omega), strongCorrection, zpow_neg_one, show d ^ (-2 : ℤ) = (d ^ 2)⁻¹ from zpow_neg d 2]
    have := hSp.ne'
    field_simp
    ring

/-- C65: this error does not vanish at any distance. -/
theorem C65_error_pos (N : ℕ) (ℓ m : ℝ) (hN4 : 4 ≤ N) (hN : N ≤ 26) {d T : ℝ} (h0 : 0 < d) (h1 : d < 1) :
    0 < N * (fjc_isometric_forces N ℓ m).nd_force d T / d := by
  have := C68_fjc_force_pos N ℓ m T hN4 (by omega) h0 h1
  have hN' : (0 : ℝ) < N := by positivity
  positivity

example : 0 < ((8 : ℕ) : ℝ) * (fjc_isometric_forces 8 1 1).nd_force (4 / 5) 300 / (4 / 5) :=
  C65_error_pos 8 1 1 (by norm_num) (by norm_num) (by norm_num) (by norm_num)

/-- The first two derivatives of the exact density. -/
theorem treloar_density_derivs {N : ℕ} (hN5 : 5 ≤ N) (hN : N ≤ 26) {d : ℝ} (h0 : 0 < d) (h1 : d < 1) :
    deriv (fjc.thermodynamics.treloar_sum_0_with_prefactor N) d =
      treloarFactor N * (-(N / 2 - 1) * fjc.thermodynamics.treloar_sum N d ((N : ℤ) - 2 - 1) / d -
        fjc.thermodynamics.treloar_sum N d ((N : ℤ) - 2) / d ^ 2) ∧
    deriv (deriv (fjc.thermodynamics.treloar_sum_0_with_prefactor N)) d =
      treloarFactor N * ((N / 2 - 1) * (N / 2 - 3 / 2) * fjc.thermodynamics.treloar_sum N d ((N : ℤ) - 2 - 2) / d +
        2 * (N / 2 - 1) * fjc.thermodynamics.treloar_sum N d ((N : ℤ) - 2 - 1) / d ^ 2 +
        2 * fjc.thermodynamics.treloar_sum N d ((N : ℤ) - 2) / d ^ 3) := by
  set S : ℝ → ℝ := fun x => fjc.thermodynamics.treloar_sum N x ((N : ℤ) - 2) with hSd
  set S1 : ℝ → ℝ := fun x => fjc.thermodynamics.treloar_sum N x ((N : ℤ) - 2 - 1) with hS1d
  set S2 : ℝ → ℝ := fun x => fjc.thermodynamics.treloar_sum N x ((N : ℤ) - 2 - 2) with hS2d
  set a : ℝ := N / 2 - 1 with ha
  set b : ℝ := N / 2 - 3 / 2 with hb
  have d0 : ∀ x ∈ Ioo (0 : ℝ) 1, HasDerivAt S (-a * S1 x) x := by
    intro x hx
    refine (hasDerivAt_treloar_general (by omega) (by omega : N ≤ 34) hx.1 hx.2 ((N : ℤ) - 2) (.inl (by omega))).congr_deriv ?_
    rw [ha]; push_cast; ring
  have d1 : HasDerivAt S1 (-b * S2 d) d := by
    refine (hasDerivAt_treloar_general (by omega) (by omega : N ≤ 34) h0 h1 ((N : ℤ) - 2 - 1) (.inl (by omega))).congr_deriv ?_
    rw [hb, hS2d, show (N : ℤ) - 2 - 1 - 1 = (N : ℤ) - 2 - 2 by ring]; push_cast; ring
  have eP : fjc.thermodynamics.treloar_sum_0_with_prefactor N = fun x => treloarFactor N * (S x / x) :=
    funext fun x => treloar_density_eq (by omega) hN x
  have p1 : ∀ x ∈ Ioo (0 : ℝ) 1, HasDerivAt (fun x => treloarFactor N * (S x / x))
      (treloarFactor N * (-a * S1 x / x - S x / x ^ 2)) x := by
    intro x hx
    have hx0 : x ≠ 0 := hx.1.ne'
    refine (((d0 x hx).div (hasDerivAt_id x) hx0).const_mul (treloarFactor N)).congr_deriv ?_
    simp only [id]
    field_simp
  have hdm : Ioo (0 : ℝ) 1 ∈ 𝓝 d := Ioo_mem_nhds h0 h1
  rw [eP]
  refine ⟨(p1 d ⟨h0, h1⟩).deriv, ?_⟩
  have e : deriv (fun x => treloarFactor N * (S x / x)) =ᶠ[𝓝 d] fun x => treloarFactor N * (-a * S1 x / x - S x / x ^ 2) :=
    Filter.mem_of_superset hdm fun x hx => (p1 x hx).deriv
  rw [e.deriv_eq]
  have hd := h0.ne'
  have := ((((d1.const_mul (-a)).div (hasDerivAt_id d) hd).sub ((d0 d ⟨h0, h1⟩).div (hasDerivAt_pow 2 d) (by positivity))).const_mul
    (treloarFactor N)).deriv
  refine Eq.trans this ?_
  simp only [id]
  field_simp
  ring

/-- C65: the free energy of the chain in the potential, to first order in `1/c`, is corrected by half the Laplacian
`p'' + 2p'/d` of the exact density `p` of the extension, relative to the density. -/
theorem C65_exact_correction (N : ℕ) (ℓ m : ℝ) (hN5 : 5 ≤ N) (hN : N ≤ 26) (hℓ : 0 < ℓ) {d T : ℝ} (hT : 0 < T) (h0 : 0 < d)
    (h1 : d < 1) :
    let p := (fjc_isometric_distribution N ℓ m).nd_density
    let c := fun K => (N : ℝ) ^ 2 * ndStiffness K ℓ T
    Tendsto (fun K => c K * (exactPotentialHelmholtz N ℓ m K d T - (-Real.log (p d) - 3 / 2 * Real.log (2 * Real.pi / c K) -
        ((N : ℝ) - 1) * Real.log (8 * Real.pi ^ 2 * m * ℓ ^ 2 * BOLTZMANN_CONSTANT * T / PLANCK_CONSTANT ^ 2)))) atTop
      (𝓝 (-((deriv (deriv p) d + 2 * deriv p d / d) / (2 * p d)))) := by
  intro p c
  have L := (fjc_potentialPartition_laplace ℓ m hN5 hN h0 h1).comp (tendsto_stiffness (by omega : 0 < N) hℓ hT)
  have ep : p = fjc.thermodynamics.treloar_sum_0_with_prefactor N := rfl
  obtain ⟨e1, e2⟩ := treloar_density_derivs hN5 hN h0 h1
  have hSp := treloar_sum_pos (by omega : 2 ≤ N) (by omega : N ≤ 34) h0 h1
  have htf := treloarFactor_pos (by omega : 0 < N)
  refine (L.congr fun K => ?_).trans_eq ?_
  · rw [Function.comp, exactPotentialHelmholtz, ep]
    ring
  · rw [ep, e1, e2, treloar_density_eq (by omega) hN]
    congr 1
    have := hSp.ne'
    field_simp
    ring

/-- C65: the strong-potential asymptotics of the code are corrected by half of `p''` alone. -/
theorem C65_code_correction (N : ℕ) (ℓ m K : ℝ) (hN5 : 5 ≤ N) (hN : N ≤ 26) (hℓ : 0 < ℓ) (hK : 0 < K) {d T : ℝ} (hT : 0 < T)
    (h0 : 0 < d) (h1 : d < 1) :
    let p := (fjc_isometric_distribution N ℓ m).nd_density
    let c := (N : ℝ) ^ 2 * ndStiffness K ℓ T
    (fjc_strong_potential_helmholtz N ℓ m K).nd_energy d T = -Real.log (p d) - 3 / 2 * Real.log (2 * Real.pi / c) -
      ((N : ℝ) - 1) * Real.log (8 * Real.pi ^ 2 * m * ℓ ^ 2 * BOLTZMANN_CONSTANT * T / PLANCK_CONSTANT ^ 2) -
      deriv (deriv p) d / (2 * p d) / c := by
  intro p c
  have ep : p = fjc.thermodynamics.treloar_sum_0_with_prefactor N := rfl
  obtain ⟨e1, e2⟩ := treloar_density_derivs hN5 hN h0 h1
  have hSp := treloar_sum_pos (by omega : 2 ≤ N) (by omega : N ≤ 34) h0 h1
  have htf := treloarFactor_pos (by omega : 0 < N)
  have hp := treloar_density_pos (by omega) hN h0 h1
  have hN0 : (0 : ℝ) < N := by positivity
  have hL : (0 : ℝ) < N * ℓ := by positivity
  have hκ := ndStiffness_pos hK hℓ hT
  rw [sp_nd_energy, strong_nd_helmholtz (by omega : 2 ≤ N), ep, e2, Real.log_div hp.ne' (by positivity), Real.log_pow,
    show 2 * Real.pi / ndStiffness K ℓ T / (N : ℝ) ^ 2 = 2 * Real.pi / c by simp only [c]; field_simp]
  have ec : 1 / 2 / ndStiffness K ℓ T / (N : ℝ) ^ 2 * strongCorrection N d = -(treloarFactor N *
      ((N / 2 - 1) * (N / 2 - 3 / 2) * fjc.thermodynamics.treloar_sum N d ((N : ℤ) - 2 - 2) / d +
        2 * (N / 2 - 1) * fjc.thermodynamics.treloar_sum N d ((N : ℤ) - 2 - 1) / d ^ 2 +
        2 * fjc.thermodynamics.treloar_sum N d ((N : ℤ) - 2) / d ^ 3) /
      (2 * fjc.thermodynamics.treloar_sum_0_with_prefactor N d) / c) := by
    rw [treloar_density_eq (by omega) hN, strongCorrection, zpow_neg_one, show d ^ (-2 : ℤ) = (d ^ 2)⁻¹ from zpow_neg d 2]
    simp only [c]
    have := hSp.ne'
    field_simp
    ring
  rw [ec]
  push_cast
  ring

example : Tendsto (fun K => ((8 : ℕ) : ℝ) ^ 2 * ndStiffness K 1 300 *
    ((fjc_strong_potential_helmholtz 8 1 1 K).nd_energy (1 / 2) 300 - exactPotentialHelmholtz 8 1 1 K (1 / 2) 300)) atTop
    (𝓝 (-((8 : ℕ) * (fjc_isometric_forces 8 1 1).nd_force (1 / 2) 300 / (1 / 2)))) :=
  C65_strong_potential_error 8 1 1 (by norm_num) (by norm_num) (by norm_num) (by norm_num) (by norm_num) (by norm_num)

end Polymers.Props
