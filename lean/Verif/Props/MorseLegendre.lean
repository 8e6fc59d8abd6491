import Verif.Lemmas.MorseNewton
import Verif.Props.EfjcAsymptotic
import Verif.Props.Newton

/-!
C26 and C54 for Morse links, reduced and full asymptotic approaches: the solver for the force takes a quarter of a Newton
step at a time and converges for extensions up to the one at 95% of the largest force.
-/

namespace Polymers.Props

open Polymers.Spec Polymers.Api Polymers.Lemmas Set Filter Topology

/-- Where the solver starts. -/
theorem morse_guess {C C' : ℝ → ℝ} {a M κ γ : ℝ} (hC : GoodCorr C C' M) (ha : 0 < a) (hM : 0 < M) (hκ : 4 * a * M = κ)
    (hγ : 0 < γ) (h : (γ < langevin M ∧ κ ≤ 1000000) ∨ ((1000002 / 1000000 * langevin M ≤ γ ∨ 1 ≤ γ) ∧
      γ < langevin (19 / 20 * M) + C (19 / 20 * M) + morsePsi a M (19 / 20 * M))) {x : ℝ}
    (hx : x = if M < (if γ < 1 then math.inverse_langevin γ else 19 / 20 * M) then 19 / 20 * M else
      if γ < 1 then math.inverse_langevin γ else 19 / 20 * M) :
    0 < x ∧ x < M ∧ langevin x ≤ γ ∧ γ < langevin x + C x + morsePsi a M x ∧
      (γ ≤ langevin (19 / 20 * M) ∨ γ ≥ langevin M → x ≤ 19 / 20 * M) := by
  have hLM := langevin_pos hM
  have hm : ∀ {u v : ℝ}, 0 < u → 0 < v → langevin u < langevin v → u < v := fun hu hv h =>
    (langevin_strictMonoOn.lt_iff_lt (mem_Ioi.2 hu) (mem_Ioi.2 hv)).1 h
  have hm' : ∀ {u v : ℝ}, 0 < u → 0 < v → langevin u ≤ langevin v → u ≤ v := fun hu hv h =>
    (langevin_strictMonoOn.le_iff_le (mem_Ioi.2 hu) (mem_Ioi.2 hv)).1 h
  have h95 : 0 < 19 / 20 * M := by positivity
  rcases h with ⟨h1, h2⟩ | ⟨h1, h2⟩
  · have hg1 : γ < 1 := h1.trans (langevin_lt_one hM)
    obtain ⟨p1, p2⟩ := inverse_langevin_spec hγ hg1
    have p3 := inverse_langevin_below hγ hg1
    have p4 := hm p1 hM (p3.trans_lt h1)
    rw [if_pos hg1, if_neg (by linarith)] at hx
    rw [← hx] at p1 p2 p3 p4
    refine ⟨p1, p4, p3, ?_, fun h5 => ?_⟩
    · have h5 := le_morsePsi ha hM p1.le p4
      have h6 := hC.nonneg x p1
      have h7 := langevin_lt_third p1
      rw [hκ] at h5
      have h8 : x / 1000000 ≤ x / κ := by
        have : 0 < κ := by rw [← hκ]; positivity
        gcongr
      rw [abs_of_nonpos (by linarith)] at p2
      norm_num at p2
      linarith
    · rcases h5 with h5 | h5
      · exact hm' p1 h95 (p3.trans h5)
      · linarith
  · have hx' : x = 19 / 20 * M := by
      rw [hx]
      by_cases hg1 : γ < 1
      · rw [if_pos hg1, if_pos]
        have h1 := h1.resolve_right (by linarith)
        obtain ⟨p1, p2⟩ := inverse_langevin_spec hγ hg1
        refine hm hM p1 ?_
        have := (abs_le.1 p2).1
        norm_num at this h1
        nlinarith
      · rw [if_neg hg1, if_neg (by linarith)]
    clear hx
    subst hx'
    have hle : langevin (19 / 20 * M) < langevin M := langevin_strictMonoOn (mem_Ioi.2 h95) (mem_Ioi.2 hM) (by linarith)
    refine ⟨h95, by linarith, ?_, h2, fun _ => le_rfl⟩
    rcases h1 with h1 | h1
    · norm_num at h1
      linarith
    · linarith [langevin_lt_one hM]

/-- The whole run. -/
theorem morse_run {C C' : ℝ → ℝ} {a M γ x : ℝ} (hC : GoodCorr C C' M) (ha : 7 / 10 ≤ a) (hκ : 10 ≤ 4 * a * M)
    (hx : 0 < x) (hxM : x ≤ 19 / 20 * M) (hL : langevin x ≤ γ) (hlt : γ < langevin x + C x + morsePsi a M x)
    {f fp : ℝ → ℝ} {r : ℝ} (hr : r = math.inverse_newton_raphson_powered γ f fp x (1 / 1000000) 100 4)
    (hf : ∀ z, 0 < z → z < M → f z = langevin z + C z + morsePsi a M z)
    (hfp : ∀ z, 0 < z → z < M → fp z = 1 / z ^ 2 - 1 / Real.sinh z ^ 2 + C' z + morsePsi' a M z) :
    0 < r ∧ r < M ∧ γ < langevin r + C r + morsePsi a M r ∧ langevin r + C r + morsePsi a M r - γ ≤ 3e-6 * γ := by
  have ha0 : 0 < a := by linarith
  have hγ : 0 < γ := (langevin_pos hx).trans_le hL
  have hst := morse_start hC ha hκ hx hxM hL
  have inv : ∀ n, 0 < newtonIterate γ f fp 4 x n ∧ newtonIterate γ f fp 4 x n ≤ 19 / 20 * M ∧
      langevin (newtonIterate γ f fp 4 x n) ≤ γ ∧ γ < f (newtonIterate γ f fp 4 x n) ∧
      f (newtonIterate γ f fp 4 x n) - γ ≤ (87 / 100) ^ n * (33 / 10 * γ) ∧
      f (newtonIterate γ f fp 4 x (n + 1)) - γ ≤ 87 / 100 * (f (newtonIterate γ f fp 4 x n) - γ) := by
    intro n
    have step : ∀ z, 0 < z → z ≤ 19 / 20 * M → langevin z ≤ γ → γ < f z →
        0 < newtonStep γ f fp 4 z ∧ newtonStep γ f fp 4 z ≤ 19 / 20 * M ∧ langevin (newtonStep γ f fp 4 z) ≤ γ ∧
        γ < f (newtonStep γ f fp 4 z) ∧ f (newtonStep γ f fp 4 z) - γ ≤ 87 / 100 * (f z - γ) := by
      intro z hz hzM hzL hzγ
      have hzM' : z < M := by linarith
      rw [hf z hz hzM'] at hzγ
      obtain ⟨s1, s2, s3, s4, s5⟩ := morse_quarter_step hC ha0 hz hzM' hzL hzγ (z := newtonStep γ f fp 4 z)
        (by rw [newtonStep, hf z hz hzM', hfp z hz hzM'])
      have s0 : 0 < newtonStep γ f fp 4 z := by linarith
      rw [hf _ s0 (by linarith), hf z hz hzM']
      exact ⟨s0, by linarith, s3, s4, s5 hzM⟩
    induction n with
    | zero =>
      have e0 : newtonIterate γ f fp 4 x 0 = x := rfl
      have e1 : newtonIterate γ f fp 4 x (0 + 1) = newtonStep γ f fp 4 x := rfl
      rw [e0, e1]
      have hlt' : γ < f x := by rw [hf x hx (by linarith)]; exact hlt
      refine ⟨hx, hxM, hL, hlt', ?_, (step x hx hxM hL hlt').2.2.2.2⟩
      rw [hf x hx (by linarith), pow_zero, one_mul]
      exact hst
    | succ n ih =>
      obtain ⟨i1, i2, i3, i4, i5, i6⟩ := ih
      obtain ⟨s1, s2, s3, s4, s5⟩ := step _ i1 i2 i3 i4
      rw [newtonIterate_succ γ f fp 4 x (n + 1)]
      rw [newtonIterate_succ] at i6 ⊢
      obtain ⟨-, -, -, -, t5⟩ := step _ s1 s2 s3 s4
      refine ⟨s1, s2, s3, s4, ?_, t5⟩
      rw [pow_succ]
      linarith
  obtain ⟨k, hk1, hk2, e, hres⟩ := inverse_newton_raphson_powered_run_four γ f fp x fun j _ => (inv j).2.2.2.1.ne'
  obtain ⟨i1, i2, i3, i4, i5, -⟩ := inv k
  rw [hr, e, ← hf _ i1 (by linarith)]
  refine ⟨i1, by linarith, i4, ?_⟩
  rcases hk2.lt_or_eq with h | h
  · have hr := hres h
    obtain ⟨-, -, -, j4, -, j6⟩ := inv (k - 1)
    rw [Nat.sub_add_cancel hk1] at j6
    rw [relResidual, abs_div, abs_of_pos hγ, div_le_iff₀ hγ, abs_of_pos (by linarith)] at hr
    norm_num
    linarith
  · rw [h] at i5 ⊢
    have : ((87:ℝ) / 100) ^ 100 * (33 / 10) ≤ 3e-6 := by norm_num
    calc _ ≤ _ := i5
      _ = (87 / 100) ^ 100 * (33 / 10) * γ := by ring
      _ ≤ _ := mul_le_mul_of_nonneg_right this hγ.le

theorem morse_four {κ ε : ℝ} (hκ : 0 < κ) (hε : 0 < ε) : 4 * morseA κ ε * morseMax κ ε = κ := by
  rw [morseMax_eq hκ hε]
  have : morseA κ ε ^ 2 = κ / ε / 2 := Real.sq_sqrt (by positivity)
  have e : 4 * morseA κ ε * (ε * morseA κ ε / 2) = 2 * ε * morseA κ ε ^ 2 := by ring
  rw [e, this]
  field_simp

theorem le_morseA {κ ε : ℝ} (hε : 0 < ε) (h : ε ≤ κ) : 7 / 10 ≤ morseA κ ε := by
  refine Real.le_sqrt_of_sq_le ?_
  rw [div_div, le_div_iff₀ (by positivity)]
  linarith

theorem morse_corr {κ ε : ℝ} (hε : 0 < ε) (h : ε ≤ κ) :
    GoodCorr (asyC (1 / (1 + 3 / 2 * morseA κ ε) * κ)) (asyC' (1 / (1 + 3 / 2 * morseA κ ε) * κ)) (morseMax κ ε) := by
  have hκ : 0 < κ := by linarith
  have ha := le_morseA hε h
  refine goodCorr_asy (morseMax_pos hκ hε) ?_
  have e := morse_four hκ hε
  have hM := morseMax_pos hκ hε
  generalize morseA κ ε = a at *
  generalize morseMax κ ε = M at *
  rw [← e, one_div, inv_mul_eq_div, le_div_iff₀ (by positivity)]
  nlinarith

/-- The extensions for which the solver for Morse links starts above the solution and at most at 95% of the largest force
`M`; `top` is the extension there. Below it starts from the inverse of the Langevin function, above from 95% of the largest
force. Excluded is the small range where the inverse of the Langevin function is within 5% below the largest force, or so
little above it that its error matters. -/
def MorseRange (M top γ : ℝ) : Prop :=
  0 < γ ∧ (γ ≤ langevin (19 / 20 * M) ∨ (1.000002 * langevin M ≤ γ ∨ 1 ≤ γ) ∧ γ < top)

theorem morse_range_guess {C C' : ℝ → ℝ} {a M κ γ : ℝ} (hC : GoodCorr C C' M) (ha : 0 < a) (hM : 0 < M) (hκ : 4 * a * M = κ)
    (hκ6 : κ ≤ 1000000) (h : MorseRange M (langevin (19 / 20 * M) + C (19 / 20 * M) + morsePsi a M (19 / 20 * M)) γ) {x : ℝ}
    (hx : x = if M < (if γ < 1 then math.inverse_langevin γ else 19 / 20 * M) then 19 / 20 * M else
      if γ < 1 then math.inverse_langevin γ else 19 / 20 * M) :
    0 < x ∧ x ≤ 19 / 20 * M ∧ langevin x ≤ γ ∧ γ < langevin x + C x + morsePsi a M x := by
  have e : (1.000002 : ℝ) = 1000002 / 1000000 := by norm_num
  rw [MorseRange, e] at h
  have hle : langevin (19 / 20 * M) < langevin M :=
    langevin_strictMonoOn (mem_Ioi.2 (by positivity)) (mem_Ioi.2 hM) (by linarith)
  obtain ⟨g1, g2, g3, g4, g5⟩ := morse_guess hC ha hM hκ h.1 (h.2.imp (fun h => ⟨by linarith, hκ6⟩) id) hx
  refine ⟨g1, g5 (h.2.imp id fun h => ?_), g3, g4⟩
  have := langevin_lt_one hM
  have := langevin_pos hM
  rcases h.1 with h | h <;> linarith

theorem morse_reduced_solver {κ ε γ : ℝ} (hε : 0 < ε) (h1 : ε ≤ κ) (h2 : 10 ≤ κ) (h3 : κ ≤ 1000000)
    (h : MorseRange (morseMax κ ε)
      (langevin (19 / 20 * morseMax κ ε) + 0 + morsePsi (morseA κ ε) (morseMax κ ε) (19 / 20 * morseMax κ ε)) γ) {x : ℝ}
    (hx : x = ufjc.morse.thermodynamics.isometric.asymptotic.reduced.legendre.nondimensional_force κ ε γ) :
    0 < x ∧ x < morseMax κ ε ∧ γ < langevin x + 0 + morsePsi (morseA κ ε) (morseMax κ ε) x ∧
      langevin x + 0 + morsePsi (morseA κ ε) (morseMax κ ε) x - γ ≤ 3e-6 * γ := by
  have hκ : 0 < κ := by linarith
  have hM := morseMax_pos hκ hε
  have ha := le_morseA hε h1
  have h4 := morse_four hκ hε
  have hM' : √(ε * κ / 8) = morseMax κ ε := rfl
  have ha' : √(κ / ε / 2) = morseA κ ε := rfl
  simp only [ufjc.morse.thermodynamics.isometric.asymptotic.reduced.legendre.nondimensional_force, model_real, hM', ha'] at hx
  generalize hg : (if morseMax κ ε < (if γ < 1 then math.inverse_langevin γ else 19 / 20 * morseMax κ ε) then
    19 / 20 * morseMax κ ε else if γ < 1 then math.inverse_langevin γ else 19 / 20 * morseMax κ ε) = x0 at hx
  obtain ⟨g1, g2, g3, g4⟩ := morse_range_guess (goodCorr_zero _) (by linarith) hM h4 h3 h hg.symm
  refine morse_run (goodCorr_zero _) ha (by linarith) g1 g2 g3 g4 hx (fun z _ _ => ?_) (fun z _ hz => ?_)
  · simp only [langevin, morsePsi, add_zero]
  · simp only [morsePsi', add_zero, morse_slope hM hz]

theorem morse_asymptotic_solver {κ ε γ : ℝ} (hε : 0 < ε) (h1 : ε ≤ κ) (h2 : 10 ≤ κ) (h3 : κ ≤ 1000000)
    (h : MorseRange (morseMax κ ε)
      (langevin (19 / 20 * morseMax κ ε) + asyC (1 / (1 + 3 / 2 * morseA κ ε) * κ) (19 / 20 * morseMax κ ε) +
        morsePsi (morseA κ ε) (morseMax κ ε) (19 / 20 * morseMax κ ε)) γ) {x : ℝ}
    (hx : x = ufjc.morse.thermodynamics.isometric.asymptotic.legendre.nondimensional_force κ ε γ) :
    0 < x ∧ x < morseMax κ ε ∧
      γ < langevin x + asyC (1 / (1 + 3 / 2 * morseA κ ε) * κ) x + morsePsi (morseA κ ε) (morseMax κ ε) x ∧
      langevin x + asyC (1 / (1 + 3 / 2 * morseA κ ε) * κ) x + morsePsi (morseA κ ε) (morseMax κ ε) x - γ ≤ 3e-6 * γ := by
  have hκ : 0 < κ := by linarith
  have hM := morseMax_pos hκ hε
  have ha := le_morseA hε h1
  have h4 := morse_four hκ hε
  have hM' : √(ε * κ / 8) = morseMax κ ε := rfl
  have ha' : √(κ / ε / 2) = morseA κ ε := rfl
  have hc : 0 < 1 / (1 + 3 / 2 * morseA κ ε) := by positivity
  simp only [ufjc.morse.thermodynamics.isometric.asymptotic.legendre.nondimensional_force, model_real, hM', ha'] at hx
  generalize hg : (if morseMax κ ε < (if γ < 1 then math.inverse_langevin γ else 19 / 20 * morseMax κ ε) then
    19 / 20 * morseMax κ ε else if γ < 1 then math.inverse_langevin γ else 19 / 20 * morseMax κ ε) = x0 at hx
  obtain ⟨g1, g2, g3, g4⟩ := morse_range_guess (morse_corr hε h1) (by linarith) hM h4 h3 h hg.symm
  refine morse_run (morse_corr hε h1) ha (by linarith) g1 g2 g3 g4 hx (fun z hz _ => ?_) (fun z hz' hz => ?_)
  · simp only [langevin, morsePsi, corr_code hc hκ hz]
  · simp only [morsePsi', morse_slope hM hz, corr_slope_code hc hκ hz']

/-- The Gibbs energy lies below its tangents. -/
theorem morse_tangent {C C' : ℝ → ℝ} {a M : ℝ} (hC : GoodCorr C C' M) (ha : 0 < a) (hM : 0 < M) {g : ℝ → ℝ}
    (hg : ∀ x, 0 < x → x < M → HasDerivAt g (-(langevin x + C x + morsePsi a M x)) x) {x η : ℝ} (hx : 0 < x) (hxM : x < M)
    (hη : 0 < η) (hηM : η < M) : g η ≤ g x + -(langevin x + C x + morsePsi a M x) * (η - x) := by
  refine concave_tangent (S := Ioo 0 M) ?_ ⟨hx, hxM⟩ ⟨hη, hηM⟩ (hg x hx hxM)
  refine AntitoneOn.concaveOn_of_deriv (convex_Ioo 0 M) (fun x hx => (hg x hx.1 hx.2).continuousAt.continuousWithinAt)
    (fun x hx => ?_) fun x hx z hz h => ?_
  · rw [interior_Ioo] at hx
    exact (hg x hx.1 hx.2).differentiableAt.differentiableWithinAt
  · rw [interior_Ioo] at hx hz
    rw [(hg x hx.1 hx.2).deriv, (hg z hz.1 hz.2).deriv, neg_le_neg_iff]
    have h1 := hC.concave z x hz.1 hx.1
    have h2 := hC.slope z hz.1 hz.2
    have h3 := langevin_deriv_pos hz.1.ne'
    have h4 : morsePsi a M x ≤ morsePsi a M z := by
      obtain ⟨s, t, es, et, hs, hst, -, -⟩ := morse_roots hM h hz.2
      have := morsePsi_sub (a := a) es et hs hst
      have h5 : 0 ≤ Real.log ((1 + t) / (1 + s)) :=
        Real.log_nonneg ((one_le_div (by positivity)).2 (by linarith))
      have : 0 ≤ Real.log ((1 + t) / (1 + s)) / a := by positivity
      linarith
    have h5 : 0 ≤ (1 / z ^ 2 - 1 / Real.sinh z ^ 2 + C' z) * (z - x) :=
      mul_nonneg (by linarith) (by linarith)
    linarith

/-- The hypotheses of the theorems below hold for a chain at 300 K and half extension. -/
theorem morse_sample (top : ℝ) : ndEnergy 20000 300 ≤ ndStiffness 50000 1 300 ∧ 10 ≤ ndStiffness 50000 1 300 ∧
    ndStiffness 50000 1 300 ≤ 1000000 ∧ MorseRange √(ndEnergy 20000 300 * ndStiffness 50000 1 300 / 8) top (1 / 2) := by
  have hM : 4 ≤ √(ndEnergy 20000 300 * ndStiffness 50000 1 300 / 8) := by
    refine Real.le_sqrt_of_sq_le ?_
    norm_num [ndEnergy, ndStiffness, kT, boltzmann_eq]
  refine ⟨?_, ?_, ?_, by norm_num, .inl ?_⟩
  · norm_num [ndEnergy, ndStiffness, kT, boltzmann_eq]
  · norm_num [ndStiffness, kT, boltzmann_eq]
  · norm_num [ndStiffness, kT, boltzmann_eq]
  · have h2 : langevin 2 ≤ langevin (19 / 20 * √(ndEnergy 20000 300 * ndStiffness 50000 1 300 / 8)) :=
      langevin_strictMonoOn.monotoneOn (mem_Ioi.2 two_pos) (mem_Ioi.2 (by linarith)) (by linarith)
    refine le_trans ?_ h2
    have h3 : 1 ≤ 1 / Real.tanh 2 := by
      have := self_lt_div_tanh two_pos
      rw [div_eq_mul_one_div] at this
      linarith
    unfold langevin
    linarith

theorem morse_reduced_length_eq (N : ℕ) {ℓ m k ε η T : ℝ} (_hℓ : 0 < ℓ) (_hk : 0 < k) (_hε : 0 < ε) (_hT : 0 < T) (_hη : 0 < η) :
    (morse_isotensional_asymptotic_reduced_lengths N ℓ m k ε).nd_length_per_link η T = langevin η + 0 +
      morsePsi (morseA (ndStiffness k ℓ T) (ndEnergy ε T)) (morseMax (ndStiffness k ℓ T) (ndEnergy ε T)) η := by
  rw [morse_reduced_length, add_zero, morsePsi]

/-- C26: for Morse links under the reduced asymptotic approach, of nondimensional stiffness between 10 and a million and at least the
nondimensional bond energy, the force returned for an extension applied to the chain gives the extension back to three parts
in a million. -/
theorem C26_morse_reduced (N : ℕ) (ℓ m k ε : ℝ) (hN : 0 < N) (hℓ : 0 < ℓ) (hk : 0 < k) (hε : 0 < ε) :
    (morse_isometric_asymptotic_reduced_legendre_forces N ℓ m k ε).RoundTrip
      (morse_isotensional_asymptotic_reduced_lengths N ℓ m k ε) N ℓ 3e-6
      (fun γ T => ndEnergy ε T ≤ ndStiffness k ℓ T ∧ 10 ≤ ndStiffness k ℓ T ∧ ndStiffness k ℓ T ≤ 1000000 ∧
        MorseRange √(ndEnergy ε T * ndStiffness k ℓ T / 8)
          ((morse_isotensional_asymptotic_reduced_lengths N ℓ m k ε).nd_length_per_link
            (19 / 20 * √(ndEnergy ε T * ndStiffness k ℓ T / 8)) T) γ) := by
  refine .of_nd hN hℓ (C15_morse_isometric_asymptotic_reduced_legendre_forces N ℓ m k ε hN hℓ)
    (C15_morse_isotensional_asymptotic_reduced_lengths N ℓ m k ε hN hℓ) ?_
  rintro γ T hT ⟨h1, h2, h3, h4⟩
  have hM := morseMax_pos (ndStiffness_pos hk hℓ hT) (ndEnergy_pos hε hT)
  rw [morse_reduced_length_eq N hℓ hk hε hT (η := 19 / 20 * √(ndEnergy ε T * ndStiffness k ℓ T / 8)) (mul_pos (by norm_num) hM)] at h4
  obtain ⟨r1, r2, r3, r4⟩ := morse_reduced_solver (ndEnergy_pos hε hT) h1 h2 h3 h4 rfl
  have e : (morse_isometric_asymptotic_reduced_legendre_forces N ℓ m k ε).nd_force γ T =
      ufjc.morse.thermodynamics.isometric.asymptotic.reduced.legendre.nondimensional_force (ndStiffness k ℓ T) (ndEnergy ε T) γ := by
    simp only [api_core]
  rw [e, morse_reduced_length_eq N hℓ hk hε hT r1, abs_of_pos h4.1, abs_of_pos (by linarith)]
  exact r4

example : (morse_isometric_asymptotic_reduced_legendre_forces 8 1 1 50000 20000).RoundTrip
      (morse_isotensional_asymptotic_reduced_lengths 8 1 1 50000 20000) 8 1 3e-6
      (fun γ T => ndEnergy 20000 T ≤ ndStiffness 50000 1 T ∧ 10 ≤ ndStiffness 50000 1 T ∧ ndStiffness 50000 1 T ≤ 1000000 ∧
        MorseRange √(ndEnergy 20000 T * ndStiffness 50000 1 T / 8)
          ((morse_isotensional_asymptotic_reduced_lengths 8 1 1 50000 20000).nd_length_per_link
            (19 / 20 * √(ndEnergy 20000 T * ndStiffness 50000 1 T / 8)) T) γ) :=
  C26_morse_reduced 8 1 1 50000 20000 (by norm_num) (by norm_num) (by norm_num) (by norm_num)

/-- C54: for Morse links under the reduced asymptotic approach, the returned force makes Gibbs energy plus force times extension
largest among the forces below the breaking force. -/
theorem C54_morse_reduced (N : ℕ) (ℓ m k ε : ℝ) (hN : 0 < N) (hℓ : 0 < ℓ) (hk : 0 < k) (hε : 0 < ε) :
    (morse_isometric_asymptotic_reduced_legendre_forces N ℓ m k ε).MaximisesBelow
      (morse_isotensional_asymptotic_reduced_gibbs N ℓ m k ε) (fun T => √(ndEnergy ε T * ndStiffness k ℓ T / 8)) 3e-6
      (fun γ T => ndEnergy ε T ≤ ndStiffness k ℓ T ∧ 10 ≤ ndStiffness k ℓ T ∧ ndStiffness k ℓ T ≤ 1000000 ∧
        MorseRange √(ndEnergy ε T * ndStiffness k ℓ T / 8)
          ((morse_isotensional_asymptotic_reduced_lengths N ℓ m k ε).nd_length_per_link
            (19 / 20 * √(ndEnergy ε T * ndStiffness k ℓ T / 8)) T) γ) := by
  rintro γ T hT hD
  obtain ⟨h1, h2, h3, h4⟩ := id hD
  have hM := morseMax_pos (ndStiffness_pos hk hℓ hT) (ndEnergy_pos hε hT)
  have ha := morseA_pos (ndStiffness_pos hk hℓ hT) (ndEnergy_pos hε hT)
  rw [morse_reduced_length_eq N hℓ hk hε hT (η := 19 / 20 * √(ndEnergy ε T * ndStiffness k ℓ T / 8)) (mul_pos (by norm_num) hM)] at h4
  obtain ⟨r1, r2, r3, r4⟩ := morse_reduced_solver (ndEnergy_pos hε hT) h1 h2 h3 h4 rfl
  have e : (morse_isometric_asymptotic_reduced_legendre_forces N ℓ m k ε).nd_force γ T =
      ufjc.morse.thermodynamics.isometric.asymptotic.reduced.legendre.nondimensional_force (ndStiffness k ℓ T) (ndEnergy ε T) γ := by
    simp only [api_core]
  rw [e]
  refine ⟨r1, r2, fun η hη hηM => ?_⟩
  have hg : ∀ x : ℝ, 0 < x → x < √(ndEnergy ε T * ndStiffness k ℓ T / 8) → HasDerivAt
      (fun η => (morse_isotensional_asymptotic_reduced_gibbs N ℓ m k ε).nd_energy_per_link η T)
      (-(morse_isotensional_asymptotic_reduced_lengths N ℓ m k ε).nd_length_per_link x T) x := fun x hx hx' =>
    (C30_morse_reduced_length_is_gradient N ℓ m k ε hN hℓ hk hε).nd_length_per_link x T hT ⟨hx.ne', hx'⟩
  rw [← morse_reduced_length_eq (m := m) N hℓ hk hε hT r1] at r3 r4
  have hx := hg _ r1 r2
  generalize ufjc.morse.thermodynamics.isometric.asymptotic.reduced.legendre.nondimensional_force (ndStiffness k ℓ T) (ndEnergy ε T) γ = x at *
  have ht := morse_tangent (goodCorr_zero _) ha hM (fun z hz hz' => by
    rw [← morse_reduced_length_eq (m := m) N hℓ hk hε hT hz]; exact hg z hz hz') r1 r2 hη hηM
  rw [← morse_reduced_length_eq (m := m) N hℓ hk hε hT r1] at ht
  generalize (morse_isotensional_asymptotic_reduced_lengths N ℓ m k ε).nd_length_per_link x T = y at *
  have h4' : (γ - y) * (η - x) ≤ 3e-6 * γ * |η - x| := by
    refine (le_abs_self _).trans ?_
    rw [abs_mul, abs_of_neg (by linarith : γ - y < 0), neg_sub]
    exact mul_le_mul_of_nonneg_right r4 (abs_nonneg _)
  linarith

example : (morse_isometric_asymptotic_reduced_legendre_forces 8 1 1 50000 20000).MaximisesBelow
      (morse_isotensional_asymptotic_reduced_gibbs 8 1 1 50000 20000) (fun T => √(ndEnergy 20000 T * ndStiffness 50000 1 T / 8)) 3e-6
      (fun γ T => ndEnergy 20000 T ≤ ndStiffness 50000 1 T ∧ 10 ≤ ndStiffness 50000 1 T ∧ ndStiffness 50000 1 T ≤ 1000000 ∧
        MorseRange √(ndEnergy 20000 T * ndStiffness 50000 1 T / 8)
          ((morse_isotensional_asymptotic_reduced_lengths 8 1 1 50000 20000).nd_length_per_link
            (19 / 20 * √(ndEnergy 20000 T * ndStiffness 50000 1 T / 8)) T) γ) :=
  C54_morse_reduced 8 1 1 50000 20000 (by norm_num) (by norm_num) (by norm_num) (by norm_num)

theorem morse_asymptotic_length_eq (N : ℕ) {ℓ m k ε η T : ℝ} (hℓ : 0 < ℓ) (hk : 0 < k) (hε : 0 < ε) (hT : 0 < T) (hη : 0 < η) :
    (morse_isotensional_asymptotic_lengths N ℓ m k ε).nd_length_per_link η T = langevin η + asyC (1 / (1 + 3 / 2 * morseA (ndStiffness k ℓ T) (ndEnergy ε T)) * ndStiffness k ℓ T) η +
      morsePsi (morseA (ndStiffness k ℓ T) (ndEnergy ε T)) (morseMax (ndStiffness k ℓ T) (ndEnergy ε T)) η := by
  have hκ := ndStiffness_pos hk hℓ hT
  have ha := morseA_pos hκ (ndEnergy_pos hε hT)
  rw [morse_asymptotic_length, corr_code (by positivity) hκ hη, morsePsi]

/-- C26: for Morse links under the asymptotic approach, of nondimensional stiffness between 10 and a million and at least the
nondimensional bond energy, the force returned for an extension applied to the chain gives the extension back to three parts
in a million. -/
theorem C26_morse_asymptotic (N : ℕ) (ℓ m k ε : ℝ) (hN : 0 < N) (hℓ : 0 < ℓ) (hk : 0 < k) (hε : 0 < ε) :
    (morse_isometric_asymptotic_legendre_forces N ℓ m k ε).RoundTrip
      (morse_isotensional_asymptotic_lengths N ℓ m k ε) N ℓ 3e-6
      (fun γ T => ndEnergy ε T ≤ ndStiffness k ℓ T ∧ 10 ≤ ndStiffness k ℓ T ∧ ndStiffness k ℓ T ≤ 1000000 ∧
        MorseRange √(ndEnergy ε T * ndStiffness k ℓ T / 8)
          ((morse_isotensional_asymptotic_lengths N ℓ m k ε).nd_length_per_link
            (19 / 20 * √(ndEnergy ε T * ndStiffness k ℓ T / 8)) T) γ) := by
  refine .of_nd hN hℓ (C15_morse_isometric_asymptotic_legendre_forces N ℓ m k ε hN hℓ)
    (C15_morse_isotensional_asymptotic_lengths N ℓ m k ε hN hℓ) ?_
  rintro γ T hT ⟨h1, h2, h3, h4⟩
  have hM := morseMax_pos (ndStiffness_pos hk hℓ hT) (ndEnergy_pos hε hT)
  rw [morse_asymptotic_length_eq N hℓ hk hε hT (η := 19 / 20 * √(ndEnergy ε T * ndStiffness k ℓ T / 8)) (mul_pos (by norm_num) hM)] at h4
  obtain ⟨r1, r2, r3, r4⟩ := morse_asymptotic_solver (ndEnergy_pos hε hT) h1 h2 h3 h4 rfl
  have e : (morse_isometric_asymptotic_legendre_forces N ℓ m k ε).nd_force γ T =
      ufjc.morse.thermodynamics.isometric.asymptotic.legendre.nondimensional_force (ndStiffness k ℓ T) (ndEnergy ε T) γ := by
    simp only [api_core]
  rw [e, morse_asymptotic_length_eq N hℓ hk hε hT r1, abs_of_pos h4.1, abs_of_pos (by linarith)]
  exact r4

example : (morse_isometric_asymptotic_legendre_forces 8 1 1 50000 20000).RoundTrip
      (morse_isotensional_asymptotic_lengths 8 1 1 50000 20000) 8 1 3e-6
      (fun γ T => ndEnergy 20000 T ≤ ndStiffness 50000 1 T ∧ 10 ≤ ndStiffness 50000 1 T ∧ ndStiffness 50000 1 T ≤ 1000000 ∧
        MorseRange √(ndEnergy 20000 T * ndStiffness 50000 1 T / 8)
          ((morse_isotensional_asymptotic_lengths 8 1 1 50000 20000).nd_length_per_link
            (19 / 20 * √(ndEnergy 20000 T * ndStiffness 50000 1 T / 8)) T) γ) :=
  C26_morse_asymptotic 8 1 1 50000 20000 (by norm_num) (by norm_num) (by norm_num) (by norm_num)

/-- C54: for Morse links under the asymptotic approach, the returned force makes Gibbs energy plus force times extension
largest among the forces below the breaking force. -/
theorem C54_morse_asymptotic (N : ℕ) (ℓ m k ε : ℝ) (hN : 0 < N) (hℓ : 0 < ℓ) (hk : 0 < k) (hε : 0 < ε) :
    (morse_isometric_asymptotic_legendre_forces N ℓ m k ε).MaximisesBelow
      (morse_isotensional_asymptotic_gibbs N ℓ m k ε) (fun T => √(ndEnergy ε T * ndStiffness k ℓ T / 8)) 3e-6
      (fun γ T => ndEnergy ε T ≤ ndStiffness k ℓ T ∧ 10 ≤ ndStiffness k ℓ T ∧ ndStiffness k ℓ T ≤ 1000000 ∧
        MorseRange √(ndEnergy ε T * ndStiffness k ℓ T / 8)
          ((morse_isotensional_asymptotic_lengths N ℓ m k ε).nd_length_per_link
            (19 / 20 * √(ndEnergy ε T * ndStiffness k ℓ T / 8)) T) γ) := by
  rintro γ T hT hD
  obtain ⟨h1, h2, h3, h4⟩ := id hD
  have hM := morseMax_pos (ndStiffness_pos hk hℓ hT) (ndEnergy_pos hε hT)
  have ha := morseA_pos (ndStiffness_pos hk hℓ hT) (ndEnergy_pos hε hT)
  rw [morse_asymptotic_length_eq N hℓ hk hε hT (η := 19 / 20 * √(ndEnergy ε T * ndStiffness k ℓ T / 8)) (mul_pos (by norm_num) hM)] at h4
  obtain ⟨r1, r2, r3, r4⟩ := morse_asymptotic_solver (ndEnergy_pos hε hT) h1 h2 h3 h4 rfl
  have e : (morse_isometric_asymptotic_legendre_forces N ℓ m k ε).nd_force γ T =
      ufjc.morse.thermodynamics.isometric.asymptotic.legendre.nondimensional_force (ndStiffness k ℓ T) (ndEnergy ε T) γ := by
    simp only [api_core]
  rw [e]
  refine ⟨r1, r2, fun η hη hηM => ?_⟩
  have hg : ∀ x : ℝ, 0 < x → x < √(ndEnergy ε T * ndStiffness k ℓ T / 8) → HasDerivAt
      (fun η => (morse_isotensional_asymptotic_gibbs N ℓ m k ε).nd_energy_per_link η T)
      (-(morse_isotensional_asymptotic_lengths N ℓ m k ε).nd_length_per_link x T) x := fun x hx hx' =>
    (C30_morse_asymptotic_length_is_gradient N ℓ m k ε hN hℓ hk hε).nd_length_per_link x T hT ⟨hx.ne', hx'⟩
  rw [← morse_asymptotic_length_eq (m := m) N hℓ hk hε hT r1] at r3 r4
  have hx := hg _ r1 r2
  generalize ufjc.morse.thermodynamics.isometric.asymptotic.legendre.nondimensional_force (ndStiffness k ℓ T) (ndEnergy ε T) γ = x at *
  have ht := morse_tangent (morse_corr (ndEnergy_pos hε hT) hD.1) ha hM (fun z hz hz' => by
    rw [← morse_asymptotic_length_eq (m := m) N hℓ hk hε hT hz]; exact hg z hz hz') r1 r2 hη hηM
  rw [← morse_asymptotic_length_eq (m := m) N hℓ hk hε hT r1] at ht
  generalize (morse_isotensional_asymptotic_lengths N ℓ m k ε).nd_length_per_link x T = y at *
  have h4' : (γ - y) * (η - x) ≤ 3e-6 * γ * |η - x| := by
    refine (le_abs_self _).trans ?_
    rw [abs_mul, abs_of_neg (by linarith : γ - y < 0), neg_sub]
    exact mul_le_mul_of_nonneg_right r4 (abs_nonneg _)
  linarith

example : (morse_isometric_asymptotic_legendre_forces 8 1 1 50000 20000).MaximisesBelow
      (morse_isotensional_asymptotic_gibbs 8 1 1 50000 20000) (fun T => √(ndEnergy 20000 T * ndStiffness 50000 1 T / 8)) 3e-6
      (fun γ T => ndEnergy 20000 T ≤ ndStiffness 50000 1 T ∧ 10 ≤ ndStiffness 50000 1 T ∧ ndStiffness 50000 1 T ≤ 1000000 ∧
        MorseRange √(ndEnergy 20000 T * ndStiffness 50000 1 T / 8)
          ((morse_isotensional_asymptotic_lengths 8 1 1 50000 20000).nd_length_per_link
            (19 / 20 * √(ndEnergy 20000 T * ndStiffness 50000 1 T / 8)) T) γ) :=
  C54_morse_asymptotic 8 1 1 50000 20000 (by norm_num) (by norm_num) (by norm_num) (by norm_num)

end Polymers.Props
