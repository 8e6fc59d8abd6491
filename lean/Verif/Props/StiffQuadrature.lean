import Verif.Lemmas.StiffGibbs
import Verif.Props.UfjcIsotensional
import Verif.Props.StiffLinks

/-! C71: the quadrature of the extensible links at fixed force cannot resolve stiff links. -/

namespace Polymers.Lemmas

open Polymers.Spec Polymers.math Real Set Filter Topology

/-- In a sum of stiff Boltzmann factors only the smallest energy survives. -/
theorem sum_stiff {n j : ℕ} (u a : ℕ → ℝ) (hj : j < n) (hmin : ∀ i < n, i ≠ j → u j < u i) :
    Tendsto (fun κ => (∑ i ∈ Finset.range n, a i * exp (-(κ * u i))) / exp (-(κ * u j))) atTop (𝓝 (a j)) := by
  have e : ∀ κ, (∑ i ∈ Finset.range n, a i * exp (-(κ * u i))) / exp (-(κ * u j)) =
      ∑ i ∈ Finset.range n, a i * exp (-((u i - u j) * κ)) := fun κ => by
    rw [Finset.sum_div]
    refine Finset.sum_congr rfl fun i _ => ?_
    rw [mul_div_assoc, ← exp_sub]
    congr 2
    ring
  simp only [e]
  have ht : Tendsto (fun κ => ∑ i ∈ Finset.range n, a i * exp (-((u i - u j) * κ))) atTop
      (𝓝 (∑ i ∈ Finset.range n, if i = j then a j else 0)) := by
    refine tendsto_finsetSum _ fun i hi => ?_
    split_ifs with h
    · subst h; simp
    · have h0 := sub_pos.2 (hmin i (Finset.mem_range.1 hi) h)
      have h1 : Tendsto (fun κ => (u i - u j) * κ) atTop atTop := tendsto_id.const_mul_atTop h0
      simpa using (tendsto_exp_neg_atTop_nhds_zero.comp h1).const_mul (a i)
  rwa [Finset.sum_ite_eq' , if_pos (Finset.mem_range.2 hj)] at ht

/-- The points of the quadrature. -/
noncomputable def gridPoint (a b : ℝ) (n i : ℕ) : ℝ := a + (i + 1 / 2) * ((b - a) / n)

theorem gridPoint_lt {a b : ℝ} {n i j : ℕ} (h : a < b) (hn : 0 < n) (hij : i < j) : gridPoint a b n i < gridPoint a b n j := by
  unfold gridPoint
  have : 0 < (b - a) / n := div_pos (by linarith) (by exact_mod_cast hn)
  have : (i : ℝ) < j := by exact_mod_cast hij
  nlinarith

theorem gridPoint_le {a b : ℝ} {n i j : ℕ} (h : a < b) (hn : 0 < n) (hij : i ≤ j) : gridPoint a b n i ≤ gridPoint a b n j := by
  rcases hij.eq_or_lt with rfl | h'
  · exact le_rfl
  · exact (gridPoint_lt h hn h').le

variable {v : ℝ → ℝ} {a b η η' : ℝ} {n j : ℕ}

theorem linkZ_sum (κ : ℝ) : linkZ (fun s => κ * v s) a b n η = (b - a) / n *
    ∑ i ∈ Finset.range n, (2 * (gridPoint a b n i * sinh (η * gridPoint a b n i) / η)) * exp (-(κ * v (gridPoint a b n i))) := by
  rw [linkZ, integrate_1d_eq_midpointSum]
  rfl

theorem linkGamma_stiff (hab : a < b) (hn : 0 < n) (ha : 0 ≤ a) (hη : 0 < η) (hj : j < n)
    (hmin : ∀ i < n, i ≠ j → v (gridPoint a b n j) < v (gridPoint a b n i)) :
    Tendsto (fun κ => linkGamma (fun s => κ * v s) a b n η) atTop (𝓝 (gridPoint a b n j * langevin (η * gridPoint a b n j))) := by
  set s := gridPoint a b n j with hs
  have hdx : 0 < (b - a) / n := div_pos (by linarith) (by exact_mod_cast hn)
  have hs0 : 0 < s := by rw [hs, gridPoint]; positivity
  have hsh := sinh_pos_iff.2 (mul_pos hη hs0)
  have h1 := sum_stiff (fun i => v (gridPoint a b n i)) (fun i => 2 * (gridPoint a b n i *
    (gridPoint a b n i * cosh (η * gridPoint a b n i) / η - sinh (η * gridPoint a b n i) / η ^ 2))) hj hmin
  have h2 := sum_stiff (fun i => v (gridPoint a b n i)) (fun i => 2 * (gridPoint a b n i * sinh (η * gridPoint a b n i) / η)) hj hmin
  have h3 := h1.div h2 (by rw [← hs]; positivity)
  have e : 2 * (s * (s * cosh (η * s) / η - sinh (η * s) / η ^ 2)) / (2 * (s * sinh (η * s) / η)) = s * langevin (η * s) := by
    rw [langevin, tanh_eq_sinh_div_cosh]
    field_simp
  rw [← hs, e] at h3
  refine h3.congr fun κ => ?_
  simp only [Pi.div_apply]
  rw [div_div_div_cancel_right₀ (exp_pos _).ne', linkGamma, linkZ_sum, integrate_1d_eq_midpointSum, midpointSum,
    mul_div_mul_left _ _ hdx.ne']
  rfl

theorem linkZ_stiff (hab : a < b) (hn : 0 < n) (ha : 0 ≤ a) (hη : 0 < η) (hη' : 0 < η') (hj : j < n)
    (hmin : ∀ i < n, i ≠ j → v (gridPoint a b n j) < v (gridPoint a b n i)) :
    Tendsto (fun κ => log (linkZ (fun s => κ * v s) a b n η) - log (linkZ (fun s => κ * v s) a b n η')) atTop
      (𝓝 (log (sinh (η * gridPoint a b n j) / (η * gridPoint a b n j)) -
        log (sinh (η' * gridPoint a b n j) / (η' * gridPoint a b n j)))) := by
  set s := gridPoint a b n j with hs
  have hdx : 0 < (b - a) / n := div_pos (by linarith) (by exact_mod_cast hn)
  have hs0 : 0 < s := by rw [hs, gridPoint]; positivity
  have key : ∀ η > 0, Tendsto (fun κ => log (linkZ (fun s => κ * v s) a b n η) + κ * v s) atTop
      (𝓝 (log ((b - a) / n * 2 * s ^ 2) + log (sinh (η * s) / (η * s)))) := by
    intro η hη
    have hsh := sinh_pos_iff.2 (mul_pos hη hs0)
    have h2 := (sum_stiff (fun i => v (gridPoint a b n i)) (fun i => 2 * (gridPoint a b n i * sinh (η * gridPoint a b n i) / η)) hj
      hmin).const_mul ((b - a) / n)
    rw [← hs] at h2
    have h3 := h2.log (by positivity)
    rw [← log_mul (by positivity) (by positivity)]
    rw [show (b - a) / n * 2 * s ^ 2 * (sinh (η * s) / (η * s)) = (b - a) / n * (2 * (s * sinh (η * s) / η)) by field_simp]
    refine h3.congr' (.of_forall fun κ => ?_)
    have hpos : 0 < linkZ (fun s => κ * v s) a b n η := linkZ_pos ha hab hn hη
    rw [← mul_div_assoc, ← linkZ_sum, log_div hpos.ne' (exp_pos _).ne', log_exp]
    ring
  have := (key η hη).sub (key η' hη')
  rw [add_sub_add_left_eq_sub] at this
  refine this.congr fun κ => ?_
  ring

/-- The links themselves become rigid. -/
theorem stiff_rigid {t : ℝ} (h : StiffLink v t b) (hη : 0 < η) (hη' : 0 < η') :
    Tendsto (fun κ => log (linkPartition (breakAt b fun s => exp (-(κ * v s))) η) -
      log (linkPartition (breakAt b fun s => exp (-(κ * v s))) η')) atTop (𝓝 (log (sinh η / η) - log (sinh η' / η'))) := by
  have key : ∀ η > 0, Tendsto (fun κ => log (linkPartition (breakAt b fun s => exp (-(κ * v s))) η) + κ * v 1 -
      log (∫ s in Ioc 0 b, stiffWeight v κ s)) atTop (𝓝 (log (sinh η / η))) := fun η hη => tendsto_one_of_mul (stiff_log h hη)
  refine ((key η hη).sub (key η' hη')).congr fun κ => ?_
  ring

/-- What is lost when a link of length `s` takes the place of one of length one. -/
noncomputable def rigidLoss (s η : ℝ) : ℝ := log (sinh η / η) - log (sinh (η * s) / (η * s))

theorem rigidLoss_strictMonoOn {s : ℝ} (hs : 0 < s) (hs1 : s < 1) : StrictMonoOn (rigidLoss s) (Ioi 0) := by
  have hd : ∀ x : ℝ, 0 < x → HasDerivAt (rigidLoss s) (langevin x - s * langevin (x * s)) x := fun x hx => by
    have h1 := hasDerivAt_log_sinh_div (x := x) hx.ne'
    have h2 := (hasDerivAt_log_sinh_div (x := x * s) (by positivity)).comp x (hasDerivAt_mul_const s)
    refine (h1.sub h2).congr_deriv ?_
    ring
  refine strictMonoOn_of_deriv_pos (convex_Ioi 0) (fun x hx => (hd x hx).continuousAt.continuousWithinAt) fun x hx => ?_
  rw [interior_Ioi] at hx
  have hx : 0 < x := hx
  rw [(hd x hx).deriv]
  have h1 := langevin_pos hx
  have h2 := langevin_pos (mul_pos hx hs)
  have h3 := langevin_strictMonoOn (mem_Ioi.2 (mul_pos hx hs)) (mem_Ioi.2 hx) (by nlinarith)
  nlinarith

end Polymers.Lemmas

namespace Polymers.Props

open Polymers.Spec Polymers.Api Polymers.Lemmas Real Set Filter Topology

theorem mul_langevin_lt {s η : ℝ} (hs : 0 < s) (hs1 : s < 1) (hη : 0 < η) : s * langevin (η * s) < langevin η := by
  have h1 := langevin_pos hη
  have h2 := langevin_pos (mul_pos hη hs)
  have h3 := langevin_strictMonoOn (mem_Ioi.2 (mul_pos hη hs)) (mem_Ioi.2 hη) (by nlinarith)
  nlinarith

theorem fjc_length (N : ℕ) (ℓ m η T : ℝ) : (fjc_isotensional_lengths N ℓ m).nd_length_per_link η T = langevin η := by
  simp only [api_core, fjc.thermodynamics.isotensional.nondimensional_end_to_end_length_per_link, model_real, langevin]

/-- The limit of the error of the Gibbs energy. -/
theorem stiff_quadrature_error {v : ℝ → ℝ} {a b t : ℝ} {n j : ℕ} {K C : ℝ → ℝ} {G u : ℝ → ℝ → ℝ} (h : StiffLink v t b)
    (hK : Tendsto K atTop atTop) (hab : a < b) (hn : 0 < n) (ha : 0 ≤ a) (hj : j < n)
    (hmin : ∀ i < n, i ≠ j → v (gridPoint a b n j) < v (gridPoint a b n i))
    (hG : ∀ k, ∀ η > 0, G k η = -log (linkZ (fun s => K k * v s) a b n η) - C k)
    (hu : ∀ᶠ k in atTop, u k = fun s => exp (-(K k * v s))) {η η' : ℝ} (hη : 0 < η) (hη' : 0 < η') :
    Tendsto (fun k => gibbsError (G k) (breakAt b (u k)) η η') atTop
      (𝓝 (rigidLoss (gridPoint a b n j) η - rigidLoss (gridPoint a b n j) η')) := by
  have h1 := ((stiff_rigid h hη hη').sub (linkZ_stiff hab hn ha hη hη' hj hmin)).comp hK
  have e : log (sinh η / η) - log (sinh η' / η') - (log (sinh (η * gridPoint a b n j) / (η * gridPoint a b n j)) -
      log (sinh (η' * gridPoint a b n j) / (η' * gridPoint a b n j))) =
      rigidLoss (gridPoint a b n j) η - rigidLoss (gridPoint a b n j) η' := by unfold rigidLoss; ring
  rw [e] at h1
  refine h1.congr' ?_
  filter_upwards [hu] with k hk
  simp only [Function.comp]
  rw [gibbsError, hG k η hη, hG k η' hη', hk]
  ring

theorem rigidLoss_ne {s η η' : ℝ} (hs : 0 < s) (hs1 : s < 1) (hη : 0 < η) (hη' : 0 < η') (h : η ≠ η') :
    rigidLoss s η - rigidLoss s η' ≠ 0 :=
  sub_ne_zero.2 fun e => h ((rigidLoss_strictMonoOn hs hs1).injOn hη hη' e)

/-! ### Log-squared links -/

theorem log_squared_grid : let s := gridPoint (ZERO : ℝ) (exp 1) POINTS 23
    s ∈ Ioo 0.998 0.9982 ∧ ∀ i < POINTS, i ≠ 23 → 1 / 2 * log s ^ 2 < 1 / 2 * log (gridPoint (ZERO : ℝ) (exp 1) POINTS i) ^ 2 := by
  have hz : (ZERO : ℝ) = 1e-6 := rfl
  have hP : POINTS = 64 := rfl
  have e1 := exp_one_gt_d9
  have e2 := exp_one_lt_d9
  have hs : gridPoint (ZERO : ℝ) (exp 1) POINTS 23 ∈ Ioo 0.998 0.9982 := by
    simp only [gridPoint, hz, hP]
    norm_num
    constructor <;> linarith
  refine ⟨hs, fun i hi hij => ?_⟩
  obtain ⟨h1, h2⟩ := hs
  have hlt := fun {i j : ℕ} => gridPoint_lt (i := i) (j := j) logSquaredStretchMax_gt points_pos
  have hle := fun {i j : ℕ} => gridPoint_le (i := i) (j := j) logSquaredStretchMax_gt points_pos
  have hpos : ∀ i, 0 < gridPoint (ZERO : ℝ) (exp 1) POINTS i := fun i => by
    have : 0 < (exp 1 - (ZERO : ℝ)) / (POINTS : ℕ) := div_pos (sub_pos.2 logSquaredStretchMax_gt) (by exact_mod_cast points_pos)
    unfold gridPoint
    have := zero_pos'
    positivity
  have hl : log (gridPoint (ZERO : ℝ) (exp 1) POINTS 23) < 0 := log_neg (hpos 23) (h2.trans (by norm_num))
  have key : |log (gridPoint (ZERO : ℝ) (exp 1) POINTS 23)| < |log (gridPoint (ZERO : ℝ) (exp 1) POINTS i)| := by
    rw [abs_of_neg hl]
    rcases lt_or_gt_of_ne hij with h | h
    · have := log_lt_log (hpos i) (hlt h)
      rw [abs_of_neg (by linarith)]
      linarith
    · have h24 : 1.04 < gridPoint (ZERO : ℝ) (exp 1) POINTS 24 := by
        simp only [gridPoint, hz, hP]
        norm_num
        linarith
      have h3 := h24.trans_le (hle (Nat.succ_le_of_lt h))
      rw [abs_of_nonneg (log_nonneg (by linarith)), ← log_inv]
      refine log_lt_log (inv_pos.2 (hpos 23)) (lt_of_le_of_lt ?_ h3)
      rw [inv_le_comm₀ (hpos 23) (by norm_num)]
      refine le_trans ?_ h1.le
      norm_num
  have := sq_lt_sq.2 key
  linarith

/-- C71: as log-squared links stiffen, the extension at fixed force tends to that of a rigid link of length `s`, the point of the grid
nearest to the minimum of the potential, and not to that of the freely jointed chain; the differences of Gibbs energies
do not tend to those of the log-squared links. -/
theorem C71_log_squared_stiff : ∃ s ∈ Ioo (0.998 : ℝ) 0.9982, ∀ (N : ℕ) (ℓ m T η : ℝ), 0 < ℓ → 0 < T → 0 < η →
    Tendsto (fun k => (log_squared_isotensional_lengths N ℓ m k).nd_length_per_link η T) atTop
      (𝓝 (s * (1 / tanh (η * s) - 1 / (η * s)))) ∧
    s * (1 / tanh (η * s) - 1 / (η * s)) < (fjc_isotensional_lengths N ℓ m).nd_length_per_link η T ∧
    ∀ η' > 0, η ≠ η' → ∃ d ≠ 0, Tendsto (fun k => gibbsError
      (fun η => (log_squared_isotensional_gibbs N ℓ m k).nd_energy_per_link η T)
      (breakAt (exp 1) fun s => exp (-logSquaredEnergy (ndStiffness k ℓ T) s)) η η') atTop (𝓝 d) := by
  obtain ⟨hs, hmin⟩ := log_squared_grid
  have hs0 : 0 < gridPoint (ZERO : ℝ) (exp 1) POINTS 23 := lt_trans (by norm_num) hs.1
  have hs1 : gridPoint (ZERO : ℝ) (exp 1) POINTS 23 < 1 := hs.2.trans (by norm_num)
  have eU : ∀ κ : ℝ, logSquaredEnergy κ = fun s => κ * (1 / 2 * log s ^ 2) := fun κ => by
    funext s; unfold logSquaredEnergy; ring
  refine ⟨_, hs, fun N ℓ m T η hℓ hT hη => ⟨?_, ?_, fun η' hη' hne => ⟨_, rigidLoss_ne hs0 hs1 hη hη' hne, ?_⟩⟩⟩
  · have h := (linkGamma_stiff (v := fun s => 1 / 2 * log s ^ 2) logSquaredStretchMax_gt points_pos zero_nonneg hη
      (by decide : 23 < POINTS) hmin).comp (ndStiffness_tendsto hℓ hT)
    refine h.congr fun k => ?_
    simp only [api_core, Function.comp]
    rw [log_squared_core_length _ hη, eU]
  · rw [fjc_length]
    exact mul_langevin_lt hs0 hs1 hη
  · refine stiff_quadrature_error (stiff_log_squared (one_lt_exp_iff.2 one_pos)) (ndStiffness_tendsto hℓ hT) logSquaredStretchMax_gt
      points_pos zero_nonneg (by decide : 23 < POINTS) hmin
      (C := fun _ => log (8 * π ^ 2 * m * ℓ ^ 2 * BOLTZMANN_CONSTANT * T / PLANCK_CONSTANT ^ 2)) (fun k η hη => ?_)
      (.of_forall fun k => log_squared_weight (ndStiffness k ℓ T)) hη hη'
    simp only [api_core]
    rw [log_squared_core_gibbs _ _ _ _ hη, eU]

/-! ### Lennard-Jones links -/

theorem lj_max_bounds : (13 / 7 : ℝ) ^ (1 / 6 : ℝ) ∈ Ioo 1.1086 1.1088 := by
  change ljMax ∈ Ioo 1.1086 1.1088
  have h := ljMax_pow
  have h0 := ljMax_pos
  constructor
  · refine lt_of_pow_lt_pow_left₀ 6 h0.le ?_
    rw [h]; norm_num
  · refine lt_of_pow_lt_pow_left₀ 6 (by norm_num) ?_
    rw [h]; norm_num

theorem lj_grid : let s := gridPoint (ZERO : ℝ) ((13 / 7 : ℝ) ^ (1 / 6 : ℝ)) POINTS 57
    s ∈ Ioo 0.995 0.997 ∧ ∀ i < POINTS, i ≠ 57 → 1 / 72 * (1 / s ^ 12 - 2 / s ^ 6) <
      1 / 72 * (1 / gridPoint (ZERO : ℝ) ((13 / 7 : ℝ) ^ (1 / 6 : ℝ)) POINTS i ^ 12 -
        2 / gridPoint (ZERO : ℝ) ((13 / 7 : ℝ) ^ (1 / 6 : ℝ)) POINTS i ^ 6) := by
  have hz : (ZERO : ℝ) = 1e-6 := rfl
  have hP : POINTS = 64 := rfl
  obtain ⟨e1, e2⟩ := lj_max_bounds
  have hgt := ljStretchMax_gt
  generalize (13 / 7 : ℝ) ^ (1 / 6 : ℝ) = M at *
  have hs : gridPoint (ZERO : ℝ) M POINTS 57 ∈ Ioo 0.995 0.997 := by
    simp only [gridPoint, hz, hP]
    norm_num at *
    constructor <;> linarith
  refine ⟨hs, fun i hi hij => ?_⟩
  obtain ⟨h1, h2⟩ := hs
  have hlt := fun {i j : ℕ} => gridPoint_lt (i := i) (j := j) hgt points_pos
  have hle := fun {i j : ℕ} => gridPoint_le (i := i) (j := j) hgt points_pos
  have hpos : ∀ i, 0 < gridPoint (ZERO : ℝ) M POINTS i := fun i => by
    have : 0 < (M - (ZERO : ℝ)) / (POINTS : ℕ) := div_pos (sub_pos.2 hgt) (by exact_mod_cast points_pos)
    unfold gridPoint
    have := zero_pos'
    positivity
  have e : ∀ x : ℝ, 0 < x → 1 / 72 * (1 / x ^ 12 - 2 / x ^ 6) = 1 / 72 * ((x ^ 6)⁻¹ - 1) ^ 2 - 1 / 72 := fun x hx => by
    field_simp; ring
  rw [e _ (hpos 57), e _ (hpos i)]
  have hq : 1 < ((gridPoint (ZERO : ℝ) M POINTS 57) ^ 6)⁻¹ :=
    one_lt_inv₀ (pow_pos (hpos 57) 6) |>.2 (pow_lt_one₀ (hpos 57).le (h2.trans (by norm_num)) (by norm_num))
  have key : |((gridPoint (ZERO : ℝ) M POINTS 57) ^ 6)⁻¹ - 1| < |((gridPoint (ZERO : ℝ) M POINTS i) ^ 6)⁻¹ - 1| := by
    rw [abs_of_pos (by linarith)]
    rcases lt_or_gt_of_ne hij with h | h
    · have h3 := inv_strictAnti₀ (pow_pos (hpos i) 6) (pow_lt_pow_left₀ (hlt h) (hpos i).le (by norm_num : (6 : ℕ) ≠ 0))
      rw [abs_of_pos (by linarith)]
      linarith
    · have h58 : 1.012 < gridPoint (ZERO : ℝ) M POINTS 58 := by
        simp only [gridPoint, hz, hP]
        norm_num at *
        linarith
      have h3 := h58.trans_le (hle (Nat.succ_le_of_lt h))
      have h4 : ((gridPoint (ZERO : ℝ) M POINTS i) ^ 6)⁻¹ ≤ ((1.012 : ℝ) ^ 6)⁻¹ :=
        inv_anti₀ (by norm_num) (pow_le_pow_left₀ (by norm_num) h3.le 6)
      have h5 : ((gridPoint (ZERO : ℝ) M POINTS 57) ^ 6)⁻¹ ≤ ((0.995 : ℝ) ^ 6)⁻¹ :=
        inv_anti₀ (by norm_num) (pow_le_pow_left₀ (by norm_num) h1.le 6)
      have h6 : ((0.995 : ℝ) ^ 6)⁻¹ < 1.04 := by norm_num
      have h7 : ((1.012 : ℝ) ^ 6)⁻¹ < 0.95 := by norm_num
      rw [abs_of_neg (by linarith)]
      linarith
  have := sq_lt_sq.2 key
  linarith

/-- C71: the same for Lennard-Jones links. -/
theorem C71_lennard_jones_stiff : ∃ s ∈ Ioo (0.995 : ℝ) 0.997, ∀ (N : ℕ) (ℓ m T η : ℝ), 0 < ℓ → 0 < T → 0 < η →
    Tendsto (fun k => (lennard_jones_isotensional_lengths N ℓ m k).nd_length_per_link η T) atTop
      (𝓝 (s * (1 / tanh (η * s) - 1 / (η * s)))) ∧
    s * (1 / tanh (η * s) - 1 / (η * s)) < (fjc_isotensional_lengths N ℓ m).nd_length_per_link η T ∧
    ∀ η' > 0, η ≠ η' → ∃ d ≠ 0, Tendsto (fun k => gibbsError
      (fun η => (lennard_jones_isotensional_gibbs N ℓ m k).nd_energy_per_link η T)
      (breakAt ((13 / 7 : ℝ) ^ (1 / 6 : ℝ)) fun s => exp (-lennardJonesEnergy (ndStiffness k ℓ T) s)) η η') atTop (𝓝 d) := by
  obtain ⟨hs, hmin⟩ := lj_grid
  have hs0 : 0 < gridPoint (ZERO : ℝ) ((13 / 7 : ℝ) ^ (1 / 6 : ℝ)) POINTS 57 := lt_trans (by norm_num) hs.1
  have hs1 : gridPoint (ZERO : ℝ) ((13 / 7 : ℝ) ^ (1 / 6 : ℝ)) POINTS 57 < 1 := hs.2.trans (by norm_num)
  have eU : ∀ κ : ℝ, lennardJonesEnergy κ = fun s => κ * (1 / 72 * (1 / s ^ 12 - 2 / s ^ 6)) := fun κ => by
    funext s; unfold lennardJonesEnergy; ring
  refine ⟨_, hs, fun N ℓ m T η hℓ hT hη => ⟨?_, ?_, fun η' hη' hne => ⟨_, rigidLoss_ne hs0 hs1 hη hη' hne, ?_⟩⟩⟩
  · have h := (linkGamma_stiff (v := fun s => 1 / 72 * (1 / s ^ 12 - 2 / s ^ 6)) ljStretchMax_gt points_pos zero_nonneg hη
      (by decide : 57 < POINTS) hmin).comp (ndStiffness_tendsto hℓ hT)
    refine h.congr fun k => ?_
    simp only [api_core, Function.comp]
    rw [lennard_jones_core_length _ hη, eU]
  · rw [fjc_length]
    exact mul_langevin_lt hs0 hs1 hη
  · refine stiff_quadrature_error (stiff_lennard_jones (lt_trans (by norm_num) lj_max_bounds.1)) (ndStiffness_tendsto hℓ hT)
      ljStretchMax_gt points_pos zero_nonneg (by decide : 57 < POINTS) hmin
      (C := fun _ => log (8 * π ^ 2 * m * ℓ ^ 2 * BOLTZMANN_CONSTANT * T / PLANCK_CONSTANT ^ 2)) (fun k η hη => ?_)
      (.of_forall fun k => lennard_jones_weight (ndStiffness k ℓ T)) hη hη'
    simp only [api_core]
    rw [lennard_jones_core_gibbs _ _ _ _ hη, eU]

/-! ### Morse links -/

/-- C71: the same for Morse links of parameter `a`, whenever one point of the grid is the nearest to the minimum of the potential. -/
theorem C71_morse_stiff (N : ℕ) (ℓ m : ℝ) {a T η : ℝ} {j : ℕ} (ha : 0 < a) (hℓ : 0 < ℓ) (hT : 0 < T) (hη : 0 < η) (hj : j < 64) :
    let x := fun i : ℕ => 1e-6 + ((i : ℝ) + 1 / 2) * ((1 + log 2 / a - 1e-6) / 64)
    (∀ i < 64, i ≠ j → |1 - exp (-a * (x j - 1))| < |1 - exp (-a * (x i - 1))|) →
    Tendsto (fun k => (morse_isotensional_lengths N ℓ m k (k * ℓ ^ 2 / (2 * a ^ 2))).nd_length_per_link η T) atTop
      (𝓝 (x j * (1 / tanh (η * x j) - 1 / (η * x j)))) ∧
    (x j ≠ 1 → x j * (1 / tanh (η * x j) - 1 / (η * x j)) ≠ (fjc_isotensional_lengths N ℓ m).nd_length_per_link η T) := by
  intro x hmin
  have hM : (ZERO : ℝ) < 1 + log 2 / a := by
    have h0 : (ZERO : ℝ) = 1e-6 := rfl
    have : 0 ≤ log 2 / a := div_nonneg (log_nonneg (by norm_num)) ha.le
    rw [h0]; norm_num; linarith
  have hx : ∀ i, gridPoint (ZERO : ℝ) (1 + log 2 / a) POINTS i = x i := fun i => by
    simp only [gridPoint, x, show (ZERO : ℝ) = 1e-6 from rfl, show POINTS = 64 from rfl]
    norm_num
  have hx0 : 0 < x j := by
    have : 0 ≤ log 2 / a := div_nonneg (log_nonneg (by norm_num)) ha.le
    have : 0 < (1 + log 2 / a - 1e-6) / 64 := by norm_num; linarith
    simp only [x]
    positivity
  refine ⟨?_, fun h1 => ?_⟩
  · have h := (linkGamma_stiff (v := fun s => (1 - exp (-a * (s - 1))) ^ 2 / (2 * a ^ 2)) hM points_pos zero_nonneg hη
      (show j < POINTS from hj) (fun i hi hij => by
        simp only [hx]
        exact div_lt_div_of_pos_right (sq_lt_sq.2 (hmin i hi hij)) (by positivity))).comp (ndStiffness_tendsto hℓ hT)
    rw [hx] at h
    refine h.congr' ?_
    filter_upwards [ndStiffness_eventually_pos hℓ hT] with k hk
    simp only [api_core, Function.comp]
    rw [morse_core_length _ _ hη, ndEnergy_morse, morseStretchMax, morseA_stiff ha hk]
    congr 1
    funext s
    unfold morseEnergy
    rw [show ndStiffness k ℓ T / (2 * (ndStiffness k ℓ T / (2 * a ^ 2))) = a ^ 2 by field_simp, sqrt_sq ha.le]
    ring
  · rw [fjc_length]
    rcases lt_or_gt_of_ne h1 with h | h
    · exact (mul_langevin_lt hx0 h hη).ne
    · have := mul_langevin_lt (s := 1 / x j) (η := η * x j) (by positivity) ((div_lt_one (by linarith)).2 h) (by positivity)
      rw [show η * x j * (1 / x j) = η by field_simp, one_div, inv_mul_lt_iff₀ hx0] at this
      exact this.ne'

/-- With the parameter one the nearest point is `0.992`. -/
example : Tendsto (fun k => (morse_isotensional_lengths 8 1 1 k (k * 1 ^ 2 / (2 * 1 ^ 2))).nd_length_per_link 5 300) atTop
    (𝓝 ((1e-6 + ((37 : ℕ) + 1 / 2) * ((1 + log 2 / 1 - 1e-6) / 64)) *
      (1 / tanh (5 * (1e-6 + ((37 : ℕ) + 1 / 2) * ((1 + log 2 / 1 - 1e-6) / 64))) -
        1 / (5 * (1e-6 + ((37 : ℕ) + 1 / 2) * ((1 + log 2 / 1 - 1e-6) / 64)))))) := by
  refine (C71_morse_stiff 8 1 1 (a := 1) (T := 300) (η := 5) (j := 37) one_pos one_pos (by norm_num) (by norm_num) (by norm_num) ?_).1
  intro i hi hij
  beta_reduce
  have l1 := log_two_gt_d9
  have l2 := log_two_lt_d9
  have hx : ∀ i : ℕ, (1e-6 : ℝ) + (i + 1 / 2) * ((1 + log 2 / 1 - 1e-6) / 64) ≤ 0.9921 ∧ i ≤ 37 ∨
      (1.018 : ℝ) ≤ 1e-6 + (i + 1 / 2) * ((1 + log 2 / 1 - 1e-6) / 64) := fun i => by
    rcases le_or_gt i 37 with h | h
    · left
      have h' : (i : ℝ) ≤ 37 := by exact_mod_cast h
      refine ⟨?_, h⟩
      have hd : 0 ≤ (1 + log 2 / 1 - 1e-6) / 64 := by norm_num at *; linarith
      have := mul_le_mul_of_nonneg_right (add_le_add_left h' (1 / 2)) hd
      norm_num at l1 l2 this ⊢; linarith
    · right
      have h' : (38 : ℝ) ≤ i := by exact_mod_cast h
      have hd : 0 ≤ (1 + log 2 / 1 - 1e-6) / 64 := by norm_num at *; linarith
      have := mul_le_mul_of_nonneg_right (add_le_add_left h' (1 / 2)) hd
      norm_num at l1 l2 this ⊢; linarith
  have h37 : (0.992 : ℝ) ≤ 1e-6 + ((37 : ℕ) + 1 / 2) * ((1 + log 2 / 1 - 1e-6) / 64) := by norm_num at *; linarith
  have h37' : (1e-6 : ℝ) + ((37 : ℕ) + 1 / 2) * ((1 + log 2 / 1 - 1e-6) / 64) ≤ 0.9921 := by norm_num at *; linarith
  have hlt : i < 37 → (1e-6 : ℝ) + (i + 1 / 2) * ((1 + log 2 / 1 - 1e-6) / 64) <
      1e-6 + ((37 : ℕ) + 1 / 2) * ((1 + log 2 / 1 - 1e-6) / 64) := fun h => by
    have : (i : ℝ) + 1 ≤ 37 := by exact_mod_cast h
    norm_num at *; nlinarith
  generalize (1e-6 : ℝ) + ((37 : ℕ) + 1 / 2) * ((1 + log 2 / 1 - 1e-6) / 64) = y at *
  have hxi := hx i
  generalize (1e-6 : ℝ) + ((i : ℝ) + 1 / 2) * ((1 + log 2 / 1 - 1e-6) / 64) = z at *
  have hy : 1 < exp (-1 * (y - 1)) := one_lt_exp_iff.2 (by norm_num at *; linarith)
  rw [abs_of_neg (by linarith)]
  rcases hxi with ⟨h1, h2⟩ | h1
  · have := exp_lt_exp.2 (show -1 * (y - 1) < -1 * (z - 1) by linarith [hlt (lt_of_le_of_ne h2 hij)])
    rw [abs_of_neg (by linarith)]
    linarith
  · have b1 : exp (-1 * (y - 1)) ≤ exp 0.008 := exp_le_exp.2 (by norm_num at *; linarith)
    have b2 : exp (0.008 : ℝ) < 1.009 := by
      have := exp_bound_div_one_sub_of_interval (x := 0.008) (by norm_num) (by norm_num)
      norm_num at *; linarith
    have b3 : exp (-1 * (z - 1)) ≤ exp (-0.018) := exp_le_exp.2 (by norm_num at *; linarith)
    have b4 : exp (-0.018 : ℝ) < 0.99 := by
      have := exp_bound_div_one_sub_of_interval (x := -0.018)
      have h5 : exp (0.018 : ℝ) ≥ 1.018 := by have := add_one_le_exp (0.018 : ℝ); norm_num at *; linarith
      rw [exp_neg, inv_lt_comm₀ (exp_pos _) (by norm_num)]
      refine lt_of_lt_of_le (by norm_num) h5
    rw [abs_of_pos (by linarith)]
    linarith

end Polymers.Props
