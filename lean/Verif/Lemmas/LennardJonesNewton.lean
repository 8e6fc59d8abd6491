import Verif.Lemmas.StretchNewton
import Verif.Lemmas.SwfjcSolve
import Verif.Props.LennardJones

/-!
The stretch of a Lennard-Jones link as the program computes it is a strictly increasing function of the force, although it
jumps where the number of Newton steps changes: the relative residual after a given number of steps grows with the force, so a
larger force never takes fewer steps.
-/

namespace Polymers.Lemmas

open Real Set Polymers.Props

/-- Second slope. -/
noncomputable def ljF'' (x : ℝ) : ℝ := (56 * x ^ 6 - 182) / x ^ 15

/-- The slope is log-concave, differentiated form. -/
theorem ljF'_logconcave {a b : ℝ} (ha : 1 ≤ a) (hab : a ≤ b) (hb : b < ljMax) : ljF'' b * ljF' a ≤ ljF' b * ljF'' a := by
  have ha0 : 0 < a := by linarith
  have hb0 : 0 < b := by linarith
  have hB := (lt_ljMax_iff hb0).1 hb
  have hA := (lt_ljMax_iff ha0).1 (hab.trans_lt hb)
  have hAB : a ^ 6 ≤ b ^ 6 := pow_le_pow_left₀ ha0.le hab 6
  have hA1 : 1 ≤ a ^ 6 := one_le_pow₀ ha
  have key : (13 - 7 * b ^ 6) * (13 - 4 * a ^ 6) * b ≤ (13 - 4 * b ^ 6) * (13 - 7 * a ^ 6) * a := by
    have h1 : 0 ≤ b - a := by linarith
    have e6 : b ^ 6 - a ^ 6 = (b - a) * (a ^ 5 + a ^ 4 * b + a ^ 3 * b ^ 2 + a ^ 2 * b ^ 3 + a * b ^ 4 + b ^ 5) := by ring
    have h6 : 6 * a ^ 5 ≤ a ^ 5 + a ^ 4 * b + a ^ 3 * b ^ 2 + a ^ 2 * b ^ 3 + a * b ^ 4 + b ^ 5 := by
      have a1 : a ^ 4 * a ≤ a ^ 4 * b := by gcongr
      have a2 : a ^ 3 * a ^ 2 ≤ a ^ 3 * b ^ 2 := by gcongr
      have a3 : a ^ 2 * a ^ 3 ≤ a ^ 2 * b ^ 3 := by gcongr
      have a4 : a * a ^ 4 ≤ a * b ^ 4 := by gcongr
      have a5 : a ^ 5 ≤ b ^ 5 := by gcongr
      nlinarith
    have h7 : 6 * a ^ 5 * (b - a) ≤ b ^ 6 - a ^ 6 := by rw [e6]; nlinarith
    have h8 : 6 * a ^ 6 * (b - a) ≤ a * (b ^ 6 - a ^ 6) := by nlinarith
    have e : (13 - 4 * b ^ 6) * (13 - 7 * a ^ 6) * a - (13 - 7 * b ^ 6) * (13 - 4 * a ^ 6) * b =
        39 * (a * (b ^ 6 - a ^ 6)) - (13 - 7 * b ^ 6) * (13 - 4 * a ^ 6) * (b - a) := by ring
    have h9 : (13 - 7 * b ^ 6) * (13 - 4 * a ^ 6) ≤ 6 * 9 := by
      refine mul_le_mul (by linarith) (by linarith) ?_ (by norm_num)
      linarith
    have h10 := mul_le_mul_of_nonneg_right h9 h1
    have h11 : 6 * (b - a) ≤ 6 * a ^ 6 * (b - a) := by nlinarith
    linarith
  rw [ljF'_eq ha0.ne', ljF'_eq hb0.ne', ljF'', ljF'']
  have e1 : (56 * b ^ 6 - 182) / b ^ 15 * ((13 - 7 * a ^ 6) / a ^ 14) =
      -14 * ((13 - 4 * b ^ 6) * (13 - 7 * a ^ 6) * a) / (a ^ 15 * b ^ 15) := by field_simp; ring
  have e2 : (13 - 7 * b ^ 6) / b ^ 14 * ((56 * a ^ 6 - 182) / a ^ 15) =
      -14 * ((13 - 7 * b ^ 6) * (13 - 4 * a ^ 6) * b) / (a ^ 15 * b ^ 15) := by field_simp; ring
  rw [e1, e2]
  refine div_le_div_of_nonneg_right ?_ (by positivity)
  linarith

theorem ljF'_anti {a b : ℝ} (ha : 1 ≤ a) (hab : a ≤ b) (hb : b < ljMax) : ljF' b ≤ ljF' a := by
  have := nonneg_of_deriv_Icc (h := fun s => ljF' a - ljF' s) (h' := fun s => -ljF'' s) hab (by simp)
    (fun s h1 _ => (hasDerivAt_ljF' (by linarith : s ≠ 0)).const_sub _) (fun s h1 h2 => by
      have hs : 0 < s := by linarith
      have := (lt_ljMax_iff hs).1 (h2.trans_lt hb)
      rw [ljF'', ← neg_div]
      exact div_nonneg (by linarith) (by positivity))
  linarith

/-- The slope is log-concave. -/
theorem ljF'_shift {a b h : ℝ} (ha : 1 ≤ a) (hab : a ≤ b) (hh : 0 ≤ h) (hb : b + h < ljMax) :
    ljF' (b + h) * ljF' a ≤ ljF' b * ljF' (a + h) := by
  have hpos : ∀ s, 0 ≤ s → s ≤ h → 0 < ljF' (a + s) ∧ 0 < ljF' (b + s) := fun s h0 h1 =>
    ⟨ljF'_pos (by linarith) (by linarith), ljF'_pos (by linarith) (by linarith)⟩
  have := nonneg_of_deriv_Icc (h := fun s => ljF' b / ljF' a - ljF' (b + s) / ljF' (a + s))
    (h' := fun s => -((ljF'' (b + s) * ljF' (a + s) - ljF' (b + s) * ljF'' (a + s)) / ljF' (a + s) ^ 2)) hh (by simp)
    (fun s h0 h1 => by
      have d : ∀ c, 1 ≤ c → HasDerivAt (fun s => ljF' (c + s)) (ljF'' (c + s)) s := fun c hc =>
        (HasDerivAt.comp_const_add c s (hasDerivAt_ljF' (by linarith : c + s ≠ 0)))
      exact ((d b (ha.trans hab)).div (d a ha) (hpos s h0 h1).1.ne').const_sub _)
    (fun s h0 h1 => by
      have h2 := ljF'_logconcave (a := a + s) (b := b + s) (by linarith) (by linarith) (by linarith)
      have h3 := (hpos s h0 h1).1
      rw [← neg_div]
      exact div_nonneg (by linarith) (by positivity))
  have h2 := (hpos 0 le_rfl hh).1
  have h3 := (hpos h hh le_rfl).1
  rw [add_zero] at h2
  have h4 : ljF' (b + h) / ljF' (a + h) ≤ ljF' b / ljF' a := by linarith
  rwa [div_le_div_iff₀ h3 h2] at h4

theorem ljF_tangent {a b : ℝ} (ha : a ∈ Ico 1 ljMax) (hb : b ∈ Ico 1 ljMax) : ljF b ≤ ljF a + ljF' a * (b - a) :=
  concave_tangent (ljF_concave le_rfl) ⟨ha.1, ha.2.le⟩ ⟨hb.1, hb.2.le⟩ (hasDerivAt_ljF (by linarith [ha.1]))

theorem ljF_pos {u : ℝ} (h1 : 1 < u) (h2 : u < ljMax) : 0 < ljF u := by
  have := ljF_strictMonoOn (left_mem_Icc.2 one_lt_ljMax.le) ⟨h1.le, h2.le⟩ h1
  rwa [ljF_one] at this

theorem ljF'_one : ljF' 1 = 6 := by unfold ljF'; norm_num

/-- One step of the search for the stretch. -/
noncomputable def ljNext (y u : ℝ) : ℝ := u + (y - ljF u) / ljF' u

theorem ljNext_mem {y s u : ℝ} (hs1 : 1 < s) (hs : s < ljMax) (hfs : ljF s = y) (hu : u ∈ Icc 1 s) :
    u ≤ ljNext y u ∧ ljNext y u ≤ s := by
  have hu' : u ∈ Ico 1 ljMax := ⟨hu.1, hu.2.trans_lt hs⟩
  have h1 : ljF u ≤ y := by
    rw [← hfs]
    exact ljF_strictMonoOn.monotoneOn ⟨hu.1, hu'.2.le⟩ ⟨hs1.le, hs.le⟩ hu.2
  have hp := ljF'_pos (by linarith [hu.1]) hu'.2
  have h2 := ljF_tangent hu' ⟨hs1.le, hs⟩
  rw [ljNext]
  constructor
  · have : 0 ≤ (y - ljF u) / ljF' u := div_nonneg (by linarith) hp.le
    linarith
  · have : (y - ljF u) / ljF' u ≤ s - u := by
      rw [div_le_iff₀ hp]; linarith
    linarith

/-- A step is longer for a larger force and a larger iterate. -/
theorem ljNext_mono {y₁ y₂ s u₁ u₂ : ℝ} (hs1 : 1 < s) (hs : s < ljMax) (hfs : ljF s = y₂) (hy : y₁ ≤ y₂) (h1 : 1 ≤ u₁)
    (h12 : u₁ ≤ u₂) (h2 : u₂ ≤ s) : ljNext y₁ u₁ + (y₂ - y₁) / 6 ≤ ljNext y₂ u₂ := by
  have m1 : u₁ ∈ Ico 1 ljMax := ⟨h1, by linarith⟩
  have m2 : u₂ ∈ Ico 1 ljMax := ⟨by linarith, by linarith⟩
  have p1 := ljF'_pos (by linarith) m1.2
  have p2 := ljF'_pos (by linarith) m2.2
  have ha := ljF'_anti h1 h12 m2.2
  have h6 : ljF' u₁ ≤ 6 := by rw [← ljF'_one]; exact ljF'_anti le_rfl h1 m1.2
  have ht := ljF_tangent m1 m2
  have hle : ljF u₂ ≤ y₂ := by
    rw [← hfs]
    exact ljF_strictMonoOn.monotoneOn ⟨m2.1, m2.2.le⟩ ⟨hs1.le, hs.le⟩ h2
  have a1 : (y₂ - y₁) / 6 ≤ (y₂ - y₁) / ljF' u₁ := div_le_div_of_nonneg_left (by linarith) p1 h6
  have a2 : (y₂ - ljF u₂) / ljF' u₁ ≤ (y₂ - ljF u₂) / ljF' u₂ := div_le_div_of_nonneg_left (by linarith) p2 ha
  have a3 : (y₂ - ljF u₁) / ljF' u₁ ≤ (y₂ - ljF u₂) / ljF' u₁ + (u₂ - u₁) := by
    rw [div_add' _ _ _ p1.ne']
    gcongr
    linarith
  have e : (y₂ - ljF u₁) / ljF' u₁ = (y₁ - ljF u₁) / ljF' u₁ + (y₂ - y₁) / ljF' u₁ := by
    rw [← add_div]; congr 1; ring
  rw [ljNext, ljNext]
  linarith

/-- The relative residual stays larger for the larger force. -/
theorem ljNext_ratio {y₁ y₂ s u₁ u₂ : ℝ} (hs1 : 1 < s) (hs : s < ljMax) (hfs : ljF s = y₂)
    (h1 : 1 < u₁) (h12 : u₁ ≤ u₂) (h2 : u₂ ≤ s) (hle : ljF u₁ ≤ y₁) (hr : ljF u₂ * y₁ ≤ ljF u₁ * y₂) :
    ljF (ljNext y₂ u₂) * y₁ ≤ ljF (ljNext y₁ u₁) * y₂ := by
  have m1 : u₁ ∈ Ico 1 ljMax := ⟨h1.le, by linarith⟩
  have m2 : u₂ ∈ Ico 1 ljMax := ⟨by linarith, by linarith⟩
  have p1 := ljF'_pos (by linarith) m1.2
  have p2 := ljF'_pos (by linarith) m2.2
  have f1 := ljF_pos h1 m1.2
  have f2 := ljF_pos (h1.trans_le h12) m2.2
  have hN2 := (ljNext_mem hs1 hs hfs ⟨by linarith, h2⟩).2
  have hf12 : ljF u₁ ≤ ljF u₂ := ljF_strictMonoOn.monotoneOn ⟨h1.le, m1.2.le⟩ ⟨m2.1, m2.2.le⟩ h12
  have ha := ljF'_anti h1.le h12 m2.2
  obtain ⟨D₁, hD₁⟩ : ∃ D, D = ljF u₁ / ljF' u₁ := ⟨_, rfl⟩
  obtain ⟨D₂, hD₂⟩ : ∃ D, D = ljF u₂ / ljF' u₂ := ⟨_, rfl⟩
  obtain ⟨c₁, hc₁⟩ : ∃ c, c = y₁ / ljF u₁ - 1 := ⟨_, rfl⟩
  obtain ⟨c₂, hc₂⟩ : ∃ c, c = y₂ / ljF u₂ - 1 := ⟨_, rfl⟩
  have hD1 : 0 < D₁ := by rw [hD₁]; positivity
  have hD12 : D₁ ≤ D₂ := by
    rw [hD₁, hD₂]
    exact div_le_div₀ f2.le hf12 p2 ha
  have hc1 : 0 ≤ c₁ := by rw [hc₁, sub_nonneg, le_div_iff₀ f1]; linarith
  have hc12 : c₁ ≤ c₂ := by
    rw [hc₁, hc₂]
    have : y₁ / ljF u₁ ≤ y₂ / ljF u₂ := by
      rw [div_le_div_iff₀ f1 f2]; linarith
    linarith
  have e1 : ljNext y₁ u₁ = u₁ + c₁ * D₁ := by rw [ljNext, hc₁, hD₁]; field_simp
  have e2 : ljNext y₂ u₂ = u₂ + c₂ * D₂ := by rw [ljNext, hc₂, hD₂]; field_simp
  rw [e2] at hN2
  have hy₁ : y₁ = ljF u₁ * (1 + c₁) := by rw [hc₁]; field_simp; ring
  have hy₂ : y₂ = ljF u₂ * (1 + c₂) := by rw [hc₂]; field_simp; ring
  have hc2 : 0 ≤ c₂ := hc1.trans hc12
  have hq : u₁ + c₂ * D₁ ≤ u₂ + c₂ * D₂ := by
    have := mul_le_mul_of_nonneg_left hD12 hc2
    linarith
  have hp : u₁ + c₁ * D₁ ≤ u₁ + c₂ * D₁ := by
    have := mul_le_mul_of_nonneg_right hc12 hD1.le
    linarith
  -- the same number of lengths from the two iterates
  have s1 : ljF (u₂ + c₂ * D₂) / ljF u₂ ≤ ljF (u₁ + c₂ * D₁) / ljF u₁ := by
    have hin : ∀ c, 0 ≤ c → c ≤ c₂ → u₁ + c * D₁ ≤ u₂ + c * D₂ ∧ u₂ + c * D₂ < ljMax ∧ 1 ≤ u₁ + c * D₁ := by
      intro c h0 h3
      have t1 := mul_le_mul_of_nonneg_left hD12 h0
      have t2 := mul_le_mul_of_nonneg_right h3 (hD1.le.trans hD12)
      have t3 := mul_nonneg h0 hD1.le
      exact ⟨by linarith, by linarith, by linarith⟩
    have := nonneg_of_deriv_Icc (h := fun c => ljF (u₁ + c * D₁) / ljF u₁ - ljF (u₂ + c * D₂) / ljF u₂)
      (h' := fun c => ljF' (u₁ + c * D₁) * D₁ / ljF u₁ - ljF' (u₂ + c * D₂) * D₂ / ljF u₂) hc2
      (by simp [f1.ne', f2.ne']) (fun c h0 h3 => by
        obtain ⟨t1, t2, t3⟩ := hin c h0 h3
        have d : ∀ u D : ℝ, u + c * D ≠ 0 → HasDerivAt (fun c => ljF (u + c * D)) (ljF' (u + c * D) * D) c := by
          intro u D hne
          have := HasDerivAt.comp (h₂ := ljF) (h := fun c => u + c * D) c (hasDerivAt_ljF hne)
            (((hasDerivAt_id c).mul_const D).const_add u)
          exact this.congr_deriv (by ring)
        exact ((d u₁ D₁ (by linarith)).div_const _).sub ((d u₂ D₂ (by linarith)).div_const _))
      (fun c h0 h3 => by
        obtain ⟨t1, t2, t3⟩ := hin c h0 h3
        have g1 : ljF' (u₁ + c * D₁) * D₁ / ljF u₁ = ljF' (u₁ + c * D₁) / ljF' u₁ := by rw [hD₁]; field_simp
        have g2 : ljF' (u₂ + c * D₂) * D₂ / ljF u₂ = ljF' (u₂ + c * D₂) / ljF' u₂ := by rw [hD₂]; field_simp
        rw [g1, g2, sub_nonneg]
        have t4 := mul_le_mul_of_nonneg_left hD12 h0
        have t5 := mul_nonneg h0 hD1.le
        have w1 := ljF'_shift h1.le h12 t5 (by linarith)
        have w2 : ljF' (u₂ + c * D₂) ≤ ljF' (u₂ + c * D₁) := ljF'_anti (by linarith) (by linarith) t2
        rw [div_le_div_iff₀ p2 p1]
        have := mul_le_mul_of_nonneg_right w2 p1.le
        linarith)
    linarith
  -- more lengths from the first iterate
  have s2 : ljF (u₁ + c₂ * D₁) * (1 + c₁) ≤ ljF (u₁ + c₁ * D₁) * (1 + c₂) := by
    have t0 := mul_nonneg hc1 hD1.le
    have mp : u₁ + c₁ * D₁ ∈ Ico 1 ljMax := ⟨by linarith, by linarith⟩
    have mq : u₁ + c₂ * D₁ ∈ Ico 1 ljMax := ⟨by linarith, by linarith⟩
    have t1 := ljF_tangent mp mq
    have t2 := ljF_tangent mp m1
    have t3 : ljF' (u₁ + c₁ * D₁) ≤ ljF' u₁ := ljF'_anti h1.le (by linarith) mp.2
    have t4 : ljF u₁ = ljF' u₁ * D₁ := by rw [hD₁]; field_simp
    have t5 := mul_le_mul_of_nonneg_right t3 hD1.le
    have t6 : ljF' (u₁ + c₁ * D₁) * D₁ * (1 + c₁) ≤ ljF (u₁ + c₁ * D₁) := by linarith
    have t7 := mul_le_mul_of_nonneg_left t6 (by linarith : 0 ≤ c₂ - c₁)
    have t8 := mul_le_mul_of_nonneg_right t1 (by linarith : 0 ≤ 1 + c₁)
    linarith
  rw [e1, e2, hy₁, hy₂]
  rw [div_le_div_iff₀ f2 f1] at s1
  have r1 := mul_le_mul_of_nonneg_right s1 (by linarith : 0 ≤ 1 + c₁)
  have r2 := mul_le_mul_of_nonneg_left s2 f2.le
  linarith

/-- The search never moves down. -/
theorem lj_loop_ge {y s : ℝ} (hs1 : 1 < s) (hs : s < ljMax) (hfs : ljF s = y) (tol : ℝ) (n : ℕ) :
    ∀ u r : ℝ, u ∈ Icc 1 s → u ≤ math.inverse_newton_raphson_loop y ljF ljF' tol n u r := by
  induction n with
  | zero => intro u r hu; exact le_rfl
  | succ n ih =>
    intro u r hu
    rw [math.inverse_newton_raphson_loop]
    split_ifs
    · obtain ⟨h1, h2⟩ := ljNext_mem hs1 hs hfs hu
      exact h1.trans (ih (ljNext y u) _ ⟨hu.1.trans h1, h2⟩)
    · exact le_rfl

/-- Two searches side by side. -/
theorem lj_loop_pair {y₁ y₂ s₁ s₂ : ℝ} (h1 : 1 < s₁) (h2 : s₂ < ljMax) (hf1 : ljF s₁ = y₁) (hf2 : ljF s₂ = y₂) (hy0 : 0 < y₁)
    (hy : y₁ ≤ y₂) (hs : s₁ ≤ s₂) (tol : ℝ) (n : ℕ) :
    ∀ u₁ u₂ r₁ r₂ : ℝ, 1 < u₁ → u₁ ≤ s₁ → u₂ ≤ s₂ → u₁ + (y₂ - y₁) / 6 ≤ u₂ → ljF u₂ * y₁ ≤ ljF u₁ * y₂ → r₁ ≤ r₂ →
      math.inverse_newton_raphson_loop y₁ ljF ljF' tol n u₁ r₁ + (y₂ - y₁) / 6 ≤
        math.inverse_newton_raphson_loop y₂ ljF ljF' tol n u₂ r₂ := by
  have h1' : 1 < s₂ := h1.trans_le hs
  have h2' : s₁ < ljMax := hs.trans_lt h2
  induction n with
  | zero => intro u₁ u₂ r₁ r₂ _ _ _ h _ _; exact h
  | succ n ih =>
    intro u₁ u₂ r₁ r₂ a1 a2 a3 a4 a5 a6
    have h12 : u₁ ≤ u₂ := by linarith
    have m2 : u₂ ∈ Icc 1 s₂ := ⟨by linarith, a3⟩
    have m1 : u₁ ∈ Icc 1 s₁ := ⟨a1.le, a2⟩
    have hle1 : ljF u₁ ≤ y₁ := by
      rw [← hf1]; exact ljF_strictMonoOn.monotoneOn ⟨a1.le, by linarith⟩ ⟨h1.le, h2'.le⟩ a2
    have hle2 : ljF u₂ ≤ y₂ := by
      rw [← hf2]; exact ljF_strictMonoOn.monotoneOn ⟨m2.1, by linarith⟩ ⟨h1'.le, h2.le⟩ a3
    by_cases c : tol < r₁
    · rw [math.inverse_newton_raphson_loop, math.inverse_newton_raphson_loop,
        if_pos (by rw [elem_lt]; exact c), if_pos (by rw [elem_lt]; linarith)]
      obtain ⟨g1, g2⟩ := ljNext_mem h1 h2' hf1 m1
      obtain ⟨g3, g4⟩ := ljNext_mem h1' h2 hf2 m2
      refine ih (ljNext y₁ u₁) (ljNext y₂ u₂) _ _ (by linarith) g2 g4 (ljNext_mono h1' h2 hf2 hy a1.le h12 a3)
        (ljNext_ratio h1' h2 hf2 a1 h12 a3 hle1 a5) ?_
      simp only [elem_abs]
      rw [abs_of_nonneg (div_nonneg (by linarith) hy0.le), abs_of_nonneg (div_nonneg (by linarith) (by linarith)),
        div_le_div_iff₀ hy0 (by linarith)]
      linarith
    · rw [math.inverse_newton_raphson_loop, if_neg (by rw [elem_lt]; exact c)]
      exact a4.trans (lj_loop_ge h1' h2 hf2 tol (n + 1) u₂ r₂ m2)

/-- The computed stretch increases at least as fast as that of a harmonic link. -/
theorem ljStretch_increase {κ η₁ η₂ : ℝ} (hκ : 0 < κ) (h0 : 0 < η₁) (h12 : η₁ ≤ η₂) (hM : η₂ < κ / 6 * ljF ljMax) :
    ljStretch κ η₁ + (η₂ - η₁) / κ ≤ ljStretch κ η₂ := by
  have hy0 : 0 < 6 * η₁ / κ := by positivity
  have hy : 6 * η₁ / κ ≤ 6 * η₂ / κ := by gcongr
  have hM2 : 6 * η₂ / κ < ljF ljMax := by rw [div_lt_iff₀ hκ]; nlinarith
  obtain ⟨s₁, hs₁, hf₁⟩ := exists_lj_root hy0 (hy.trans_lt hM2)
  obtain ⟨s₂, hs₂, hf₂⟩ := exists_lj_root (hy0.trans_le hy) hM2
  have hs : s₁ ≤ s₂ := by
    rw [← ljF_strictMonoOn.le_iff_le ⟨hs₁.1.le, hs₁.2.le⟩ ⟨hs₂.1.le, hs₂.2.le⟩, hf₁, hf₂]; exact hy
  have e : (η₂ - η₁) / κ = (6 * η₂ / κ - 6 * η₁ / κ) / 6 := by field_simp
  rw [e, ljStretch, ljStretch]
  clear e
  generalize 6 * η₁ / κ = y₁ at *
  generalize 6 * η₂ / κ = y₂ at *
  have hnext : ∀ y, ljNext y 1 = 1 + y / 6 := by
    intro y
    rw [ljNext, ljF_one, ljF'_one, sub_zero]
  have hfirst : ∀ y, math.inverse_newton_raphson y ljF ljF' 1 (1 / 1000000) 100 =
      math.inverse_newton_raphson_loop y ljF ljF' (1 / 1000000) 99 (1 + y / 6) (Elem.abs ((y - ljF 1) / y)) := by
    intro y
    rw [← hnext, math.inverse_newton_raphson, math.inverse_newton_raphson_loop, if_pos (by rw [elem_lt]; norm_num)]
    rfl
  have hle₁ := (ljNext_mem hs₁.1 hs₁.2 hf₁ ⟨le_rfl, hs₁.1.le⟩).2
  have hle₂ := (ljNext_mem hs₂.1 hs₂.2 hf₂ ⟨le_rfl, hs₂.1.le⟩).2
  rw [hnext] at hle₁ hle₂
  rw [hfirst, hfirst]
  refine lj_loop_pair hs₁.1 hs₂.2 hf₁ hf₂ hy0 hy hs _ _ _ _ _ _ (by linarith) hle₁ hle₂ (by linarith) ?_ ?_
  · have hy2 : 0 < y₂ := hy0.trans_le hy
    have q1 : 1 + y₂ / 6 ∈ Icc 1 ljMax := ⟨by linarith, by linarith [hs₂.2]⟩
    have q2 : 0 ≤ 1 - y₁ / y₂ := by rw [sub_nonneg, div_le_one hy2]; exact hy
    have q3 : 0 ≤ y₁ / y₂ := by positivity
    have hc := (ljF_concave le_rfl).2 (left_mem_Icc.2 one_lt_ljMax.le) q1 q2 q3 (by ring)
    have e1 : (1 - y₁ / y₂) • (1 : ℝ) + (y₁ / y₂) • (1 + y₂ / 6) = 1 + y₁ / 6 := by
      simp only [smul_eq_mul]; field_simp; ring
    rw [e1, ljF_one] at hc
    simp only [smul_eq_mul, mul_zero, zero_add] at hc
    rw [div_mul_eq_mul_div, div_le_iff₀ hy2] at hc
    linarith
  · simp only [elem_abs, ljF_one, sub_zero]
    rw [div_self hy0.ne', div_self (hy0.trans_le hy).ne']

/-- The stretch beyond one. -/
noncomputable def ljPsi (κ η : ℝ) : ℝ := ljStretch κ η - 1

/-- What the program takes for the slope of the stretch. -/
noncomputable def ljPsi' (κ η : ℝ) : ℝ := (ljStretch κ (η + 1 / 1000000) - ljStretch κ (η - 1 / 1000000)) / (2 / 1000000)

theorem lj_force_max {κ : ℝ} (hκ : 0 < κ) : κ / 46 < κ / 6 * ljF ljMax ∧ (40 ≤ κ → κ / 46 + 1 / 1000000 < κ / 6 * ljF ljMax) := by
  have h1 : (1.03 : ℝ) < ljMax := (lt_ljMax_iff (by norm_num)).2 (by norm_num)
  have h2 : ljF 1.03 < ljF ljMax := ljF_strictMonoOn ⟨by norm_num, h1.le⟩ (right_mem_Icc.2 one_lt_ljMax.le) h1
  have h3 : 0.132 < ljF 1.03 := by norm_num [ljF]
  norm_num at h3 h2
  constructor
  · nlinarith
  · intro h
    nlinarith

/-- The exact stretch below 59% of the largest force. -/
theorem lj_root {κ η : ℝ} (hκ : 0 < κ) (hη : 0 < η) (hX : η < κ / 46) :
    ∃ s, 1 < s ∧ s < ljMax ∧ s ≤ 1.03 ∧ κ / 6 * ljF s = η := by
  have h1 : (1.03 : ℝ) < ljMax := (lt_ljMax_iff (by norm_num)).2 (by norm_num)
  have hM := (lj_force_max hκ).1
  obtain ⟨s, hs, hfs⟩ := exists_lj_root (y := 6 * η / κ) (by positivity) (by rw [div_lt_iff₀ hκ]; linarith)
  refine ⟨s, hs.1, hs.2, ?_, by rw [hfs]; field_simp⟩
  rw [← ljF_strictMonoOn.le_iff_le ⟨hs.1.le, hs.2.le⟩ ⟨by norm_num, h1.le⟩, hfs]
  have h3 : 0.132 < ljF 1.03 := by norm_num [ljF]
  refine le_trans ?_ h3.le
  rw [div_le_iff₀ hκ]
  norm_num; linarith

theorem ljF'_ge_three {s : ℝ} (h1 : 1 ≤ s) (h2 : s ≤ 1.03) : 3 ≤ ljF' s := by
  have h3 : (1.03 : ℝ) < ljMax := (lt_ljMax_iff (by norm_num)).2 (by norm_num)
  have h4 := ljF'_anti h1 h2 h3
  have h5 : 3 ≤ ljF' 1.03 := by norm_num [ljF']
  linarith

/-- The computed stretch between two forces. -/
theorem ljPsi_bounds {κ x : ℝ} (hκ : 0 < κ) (hx : 0 < x) (hX : x < κ / 46) :
    (1 - 1 / 1000000) * x / κ ≤ ljPsi κ x ∧ ljPsi κ x ≤ 2 * x / κ := by
  obtain ⟨s, h1, h2, h3, h4⟩ := lj_root hκ hx hX
  obtain ⟨b1, b2, b3, b4⟩ := ljStretch_bounds hκ hx h1 h2 h4
  have m1 : ljStretch κ x ∈ Ico 1 ljMax := ⟨b1.le, by linarith⟩
  have t1 := ljF_tangent ⟨le_rfl, one_lt_ljMax⟩ m1
  have t2 := ljF_tangent (a := s) (b := 1) ⟨h1.le, h2⟩ ⟨le_rfl, one_lt_ljMax⟩
  have t3 := ljF'_ge_three h1.le h3
  rw [ljF_one, ljF'_one] at t1
  rw [ljF_one] at t2
  rw [ljPsi, div_le_iff₀ hκ, le_div_iff₀ hκ]
  constructor
  · have := mul_le_mul_of_nonneg_left t1 (by positivity : 0 ≤ κ / 6)
    linarith
  · have t4 : 3 * (s - 1) ≤ ljF s := by nlinarith
    have := mul_le_mul_of_nonneg_left t4 (by positivity : 0 ≤ κ / 6)
    have : (ljStretch κ x - 1) * κ ≤ (s - 1) * κ := by gcongr
    linarith

theorem ljPsi_sub {κ x z : ℝ} (hκ : 0 < κ) (hz : 0 < z) (hzx : z ≤ x) (hX : x < κ / 46) :
    ljPsi κ x - ljPsi κ z ≤ 2 * (x - z) / κ + 2 / 1000000 * z / κ := by
  obtain ⟨s, h1, h2, h3, h4⟩ := lj_root hκ (hz.trans_le hzx) hX
  obtain ⟨t, k1, k2, k3, k4⟩ := lj_root hκ hz (hzx.trans_lt hX)
  obtain ⟨b1, b2, b3, b4⟩ := ljStretch_bounds hκ (hz.trans_le hzx) h1 h2 h4
  obtain ⟨d1, d2, d3, d4⟩ := ljStretch_bounds hκ hz k1 k2 k4
  have hts : t ≤ s := by
    rw [← ljF_strictMonoOn.le_iff_le ⟨k1.le, k2.le⟩ ⟨h1.le, h2.le⟩]
    have : κ / 6 * ljF t ≤ κ / 6 * ljF s := by rw [h4, k4]; exact hzx
    exact le_of_mul_le_mul_left this (by positivity)
  have t1 := ljF_tangent (a := s) (b := t) ⟨h1.le, h2⟩ ⟨k1.le, k2⟩
  have t2 := ljF_tangent (a := t) (b := ljStretch κ z) ⟨k1.le, k2⟩ ⟨d1.le, by linarith⟩
  have p1 := ljF'_ge_three h1.le h3
  have p2 := ljF'_ge_three k1.le k3
  have q1 : 3 * (s - t) ≤ ljF s - ljF t := by nlinarith
  have q2 : 3 * (t - ljStretch κ z) ≤ ljF t - ljF (ljStretch κ z) := by nlinarith
  have r1 := mul_le_mul_of_nonneg_left q1 (by positivity : 0 ≤ κ / 6)
  have r2 := mul_le_mul_of_nonneg_left q2 (by positivity : 0 ≤ κ / 6)
  rw [ljPsi, ljPsi, ← add_div, le_div_iff₀ hκ]
  have r3 : (ljStretch κ x - s) * κ ≤ 0 := mul_nonpos_of_nonpos_of_nonneg (by linarith) hκ.le
  linarith

theorem ljPsi'_ge {κ x : ℝ} (hκ : 40 ≤ κ) (hx : 1 / 1000000 < x) (hX : x < κ / 46) : 1 / κ ≤ ljPsi' κ x := by
  have hκ0 : 0 < κ := by linarith
  have := ljStretch_increase hκ0 (η₁ := x - 1 / 1000000) (η₂ := x + 1 / 1000000) (by linarith) (by linarith)
    (by have := (lj_force_max hκ0).2 hκ; linarith)
  rw [ljPsi', le_div_iff₀ (by norm_num)]
  have e : (x + 1 / 1000000 - (x - 1 / 1000000)) / κ = 1 / κ * (2 / 1000000) := by ring
  linarith

/-- The forces which the search visits before it has reached the extension. -/
def LjOk (C : ℝ → ℝ) (κ γ x : ℝ) : Prop :=
  1 / 1000000 < x ∧ x < κ / 46 ∧ langevin x ≤ γ ∧ γ < langevin x + C x + ljPsi κ x

set_option maxHeartbeats 1000000 in
/-- One step of a quarter of the length of Newton's step: it stays above the solution unless the extension has been reached to
one part in a million. -/
theorem lj_quarter_step {C C' : ℝ → ℝ} {κ γ x : ℝ} (hC : MildCorr C C' (κ / 46)) (hC6 : ∀ x, 0 < x → C x ≤ x / 6) (hκ : 40 ≤ κ)
    (hγ : 1 / 1000000 ≤ γ) (h : LjOk C κ γ x) {z : ℝ}
    (hz : z = x - (langevin x + C x + ljPsi κ x - γ) / (1 / x ^ 2 - 1 / sinh x ^ 2 + C' x + ljPsi' κ x) / 4) :
    0 < z ∧ z < κ / 46 ∧ (1 / 1000000 * γ < langevin x + C x + ljPsi κ x - γ → LjOk C κ γ z) ∧ z < x ∧
      4 * (1 / x ^ 2 - 1 / sinh x ^ 2 + C' x + ljPsi' κ x) * (x - z) = langevin x + C x + ljPsi κ x - γ ∧
      γ - 1 / 1000000 * γ ≤ langevin z + C z + ljPsi κ z := by
  obtain ⟨hε, hX, hL, hf⟩ := h
  have hκ0 : 0 < κ := by linarith
  have hx : 0 < x := by linarith
  have hd := langevin_deriv_pos hx.ne'
  have hp := ljPsi'_ge hκ hε hX
  have hsl := hC.slope x hx hX
  have hkey := hC.key x hx hX
  obtain ⟨-, hpsi⟩ := ljPsi_bounds hκ0 hx hX
  obtain ⟨L', hL'⟩ : ∃ L', L' = 1 / x ^ 2 - 1 / sinh x ^ 2 := ⟨_, rfl⟩
  rw [← hL'] at hd hsl hkey hz ⊢
  obtain ⟨A, hA⟩ : ∃ A, A = L' + C' x := ⟨_, rfl⟩
  rw [← hA] at hsl hkey hz ⊢
  obtain ⟨k, hk⟩ : ∃ k, k = 1 / κ := ⟨_, rfl⟩
  have hk0 : 0 < k := by rw [hk]; positivity
  rw [← hk] at hp
  have ek : ∀ a : ℝ, a / κ = a * k := fun a => by rw [hk]; ring
  rw [ek] at hpsi
  obtain ⟨R, hR⟩ : ∃ R, R = langevin x + C x + ljPsi κ x - γ := ⟨_, rfl⟩
  rw [← hR] at hz ⊢
  have hR0 : 0 < R := by linarith
  have hA0 : 0 < A := by linarith
  obtain ⟨S, hS⟩ : ∃ S, S = A + ljPsi' κ x := ⟨_, rfl⟩
  rw [← hS] at hz ⊢
  have hSk : A + k ≤ S := by linarith
  have hS0 : 0 < S := by linarith
  have e : 4 * S * (x - z) = R := by rw [hz]; field_simp; ring
  have hRle : R ≤ x * (A + 2 * k) := by linarith
  have hδ : 0 < x - z := pos_of_mul_pos_right (by rw [e]; exact hR0) (by positivity)
  -- `x - z` is at most `x (A + 2 k) / (4 (A + k))`
  have hzx : 4 * (A + k) * (x - z) ≤ x * (A + 2 * k) := by
    have : 4 * (A + k) * (x - z) ≤ 4 * S * (x - z) := by gcongr
    linarith
  have hz4 : x * (3 * A + 2 * k) ≤ 4 * (A + k) * z := by linarith
  have hz0 : 0 < z := pos_of_mul_pos_right (lt_of_lt_of_le (by positivity) hz4) (by positivity)
  have hzx' : z < x := by linarith
  have hzX : z < κ / 46 := by linarith
  have hLz : langevin z ≤ langevin x := langevin_strictMonoOn.monotoneOn hz0 hx hzx'.le
  have main : γ + 3 / 16 * R - 3 / 16 * (1 / 1000000 * γ) < langevin z + C z + ljPsi κ z := by
    -- the Langevin part
    have h1 : langevin x - langevin z ≤ x / z * L' * (x - z) := by
      have := nonneg_of_deriv_Icc (h := fun t => x ^ 2 * L' * (1 / z - 1 / t) - (langevin t - langevin z))
        (h' := fun t => x ^ 2 * L' / t ^ 2 - (1 / t ^ 2 - 1 / sinh t ^ 2)) hzx'.le (by simp) (fun t h1 _ => by
          have ht : 0 < t := hz0.trans_le h1
          have d := ((((hasDerivAt_inv ht.ne').const_sub (1 / z)).const_mul (x ^ 2 * L')).sub
            ((hasDerivAt_langevin ht.ne').sub_const (langevin z)))
          simp only [one_div] at d ⊢
          exact d.congr_deriv (by field_simp)) (fun t h1 h2 => by
          have ht : 0 < t := hz0.trans_le h1
          have := sq_langevin_deriv_mono ht h2
          rw [← hL'] at this
          rw [sub_nonneg, le_div_iff₀ (by positivity)]
          linarith)
      have e : x ^ 2 * L' * (1 / z - 1 / x) = x / z * L' * (x - z) := by field_simp
      linarith only [this, e]
    have h1' : x / z * L' * (x - z) ≤ (9 / 4 * A + 3 / 4 * k) * (x - z) := by
      refine mul_le_mul_of_nonneg_right ?_ hδ.le
      rw [div_mul_eq_mul_div, div_le_iff₀ hz0]
      have g1 := mul_le_mul_of_nonneg_right hz4 (by positivity : 0 ≤ 9 / 4 * A + 3 / 4 * k)
      have g2 : L' ≤ 27 / 16 * A := by linarith
      have g3 : 4 * (A + k) * (x * L') ≤ 4 * (A + k) * (x * (27 / 16 * A)) := by gcongr
      have g4 : 4 * (A + k) * (x * (27 / 16 * A)) ≤ x * (3 * A + 2 * k) * (9 / 4 * A + 3 / 4 * k) := by
        have : 0 ≤ x * k ^ 2 := by positivity
        nlinarith
      refine le_of_mul_le_mul_left (?_ : 4 * (A + k) * (x * L') ≤ 4 * (A + k) * ((9 / 4 * A + 3 / 4 * k) * z)) (by positivity)
      linarith
    -- the correction
    have h4 : C x - C z ≤ (x - z) * A := by
      have h5 := hC.ratio x z hz0 hzx'.le
      have h6 := mul_le_mul_of_nonneg_left hkey hδ.le
      have : x * (C x - C z) ≤ x * ((x - z) * A) := by linarith
      exact le_of_mul_le_mul_left this hx
    have h7 := ljPsi_sub hκ0 hz0 hzx'.le hX
    rw [ek, ek] at h7
    have h8 : 13 / 4 * (A + k) * (x - z) ≤ 13 / 16 * R := by
      have : 4 * (A + k) * (x - z) ≤ 4 * S * (x - z) := by gcongr
      linarith
    have h9 : 2 / 1000000 * z * k < 3 / 16 * (1 / 1000000 * γ) := by
      have g1 : x * k < 3 / 32 * γ := by
        rw [hk, mul_one_div, div_lt_iff₀ hκ0]
        rcases le_or_gt x 1 with g | g
        · have c1 := langevin_gt_cubic hx
          have c2 : x ^ 3 ≤ x := by nlinarith [sq_nonneg x, mul_pos hx hx]
          have c3 : 40 * γ ≤ κ * γ := mul_le_mul_of_nonneg_right hκ (by linarith)
          linarith
        · have c1 := langevin_gt_cubic one_pos
          have c2 : langevin 1 ≤ langevin x := langevin_strictMonoOn.monotoneOn (mem_Ioi.2 one_pos) (mem_Ioi.2 hx) g.le
          have c3 : κ * (14 / 45) ≤ κ * γ := mul_le_mul_of_nonneg_left (by norm_num at c1; linarith) hκ0.le
          linarith
      have g2 : z * k ≤ x * k := mul_le_mul_of_nonneg_right hzx'.le hk0.le
      linarith
    linarith only [h1, h1', h4, h7, h8, h9, hR, mul_pos hk0 hδ]
  refine ⟨hz0, by linarith, fun hst => ?_, hzx', e, by linarith⟩
  refine ⟨?_, hzX, hLz.trans hL, by linarith⟩
  have b1 := langevin_lt_third hz0
  have b2 := hC6 z hz0
  obtain ⟨-, b3⟩ := ljPsi_bounds hκ0 hz0 hzX
  have b4 : 2 * z / κ ≤ z / 20 := by
    rw [div_le_iff₀ hκ0]; nlinarith
  linarith

end Polymers.Lemmas
