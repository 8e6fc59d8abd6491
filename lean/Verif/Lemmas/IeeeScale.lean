import Verif.Lemmas.IeeeProduct

/-!
Numbers with an absolute error measured by a scale: sums, and products with numbers of known relative error.
-/

namespace Polymers.Lemmas

open Polymers.Ieee Polymers.Spec Real

variable {P : Platform}

/-- A bound on the coefficients below. -/
noncomputable def cap : ℝ := 2 ^ (400 : ℤ)

/-- The error is at most `ε σ q` and the size at most `σ M`. -/
structure Scaled (x : F64 P) (r σ q M : ℝ) : Prop where
  within : Within x r (P.ε * (σ * q))
  size : |r| ≤ σ * M
  scale_lo : 2 ^ (-150 : ℤ) ≤ σ
  scale_hi : σ ≤ 2 ^ (150 : ℤ)
  err_nonneg : 0 ≤ q
  err_le : q ≤ cap
  size_le : M ≤ cap

variable {x y : F64 P} {r s σ q q' M M' n ρ : ℝ} {a b : ℤ}

theorem Scaled.pos (h : Scaled x r σ q M) : 0 < σ := lt_of_lt_of_le (by positivity) h.scale_lo

theorem Scaled.size_nonneg (h : Scaled x r σ q M) : 0 ≤ M := by
  have h1 := (abs_nonneg r).trans h.size
  exact nonneg_of_mul_nonneg_right h1 h.pos

theorem mul_le_600 {u v : ℝ} (h0 : 0 ≤ v) (h1 : u ≤ 2 ^ (150 : ℤ)) (h2 : v ≤ cap) : u * v ≤ 2 ^ (600 : ℤ) := by
  unfold cap at h2
  calc u * v ≤ 2 ^ (150 : ℤ) * 2 ^ (400 : ℤ) := mul_le_mul h1 h2 h0 (by positivity)
    _ = 2 ^ (550 : ℤ) := by rw [← zpow_add₀ (by norm_num)]; norm_num
    _ ≤ _ := two_zpow_mono (by norm_num)

theorem mul_comm' (x y : F64 P) : x * y = y * x := by
  cases x <;> cases y <;> try rfl
  · rename_i u v
    show F64.out (P.rnd (u * v)) = F64.out (P.rnd (v * u)); rw [mul_comm]
  · rename_i s t
    show F64.inf (s ^^ t) = F64.inf (t ^^ s); rw [Bool.xor_comm]

theorem Scaled.mul (h : Scaled x r σ q M) (hy : Acc y ρ n a b) (hn0 : 0 ≤ n) (hn : n ≤ 5) (hb : b ≤ 300) (hσ : 2 ^ (-150 : ℤ) ≤ σ * |ρ|)
    (hσ' : σ * |ρ| ≤ 2 ^ (150 : ℤ)) (hq : 1.01 * q + 8 * M + 1 ≤ cap) :
    Scaled (x * y) (r * ρ) (σ * |ρ|) (1.01 * q + 8 * M + 1) M := by
  have hp := eps_pos P
  have hs := eps_small P
  have h0 := h.pos
  have hM := h.size_nonneg
  have hq0 := h.err_nonneg
  have m1 := mul_le_600 hM h.scale_hi h.size_le
  have m2 := mul_le_600 hq0 h.scale_hi h.err_le
  have m3 : P.ε * (σ * q) ≤ 1 * (σ * q) := mul_le_mul_of_nonneg_right (by linarith) (by positivity)
  have hc : 2 ^ (-1000 : ℤ) ≤ |ρ| * σ := by rw [mul_comm]; exact (two_zpow_mono (by norm_num)).trans hσ
  have hw := hy.scale h.within hn0 (by linarith) hc hb (h.size.trans m1) (by positivity) (by rw [one_mul] at m3; exact m3.trans m2)
  rw [mul_comm', mul_comm ρ r] at hw
  refine ⟨hw.mono ?_, ?_, hσ, hσ', by positivity, hq, h.size_le⟩
  · have k1 : (n + 3) * |r| ≤ 8 * (σ * M) := mul_le_mul (by linarith) h.size (abs_nonneg _) (by norm_num)
    have k2 : 1.01 * (P.ε * (σ * q)) + P.ε * ((n + 3) * |r| + σ) ≤ P.ε * (σ * (1.01 * q + 8 * M + 1)) := by
      have := mul_le_mul_of_nonneg_left k1 hp.le
      nlinarith only [this]
    refine (mul_le_mul_of_nonneg_left k2 (abs_nonneg ρ)).trans (le_of_eq ?_)
    ring
  · rw [abs_mul]
    calc |r| * |ρ| ≤ σ * M * |ρ| := mul_le_mul_of_nonneg_right h.size (abs_nonneg _)
      _ = _ := by ring

theorem Scaled.times (h : Scaled x r σ q M) (hy : Acc y ρ n a b) (hn0 : 0 ≤ n) (hn : n ≤ 5) (hb : b ≤ 300) {c : ℝ} (hc : |ρ| = c)
    (hσ : 2 ^ (-150 : ℤ) ≤ σ * c ∧ σ * c ≤ 2 ^ (150 : ℤ)) (hq : 1.01 * q + 8 * M + 1 ≤ cap) :
    Scaled (x * y) (r * ρ) (σ * c) (1.01 * q + 8 * M + 1) M := by
  subst hc
  exact h.mul hy hn0 hn hb hσ.1 hσ.2 hq

theorem Scaled.times' (h : Scaled x r σ q M) (hy : Acc y ρ n a b) (hn0 : 0 ≤ n) (hn : n ≤ 5) (hb : b ≤ 300) {c : ℝ} (hc : |ρ| = c)
    (hσ : 2 ^ (-150 : ℤ) ≤ σ * c ∧ σ * c ≤ 2 ^ (150 : ℤ)) (hq : 1.01 * q + 8 * M + 1 ≤ cap) :
    Scaled (y * x) (ρ * r) (σ * c) (1.01 * q + 8 * M + 1) M := by
  rw [mul_comm', mul_comm ρ r]
  exact h.times hy hn0 hn hb hc hσ hq

theorem Scaled.neg (h : Scaled x r σ q M) : Scaled (-x) (-r) σ q M :=
  ⟨within_neg h.within, by rw [abs_neg]; exact h.size, h.scale_lo, h.scale_hi, h.err_nonneg, h.err_le, h.size_le⟩

theorem Scaled.sub (h : Scaled x r σ q M) (h' : Scaled y s σ q' M') (hq : 1.01 * (q + q') + M + M' + 1 ≤ cap)
    (hM : M + M' ≤ cap) : Scaled (x - y) (r - s) σ (1.01 * (q + q') + M + M' + 1) (M + M') := by
  have hp := eps_pos P
  have hs := eps_small P
  have h0 := h.pos
  have hM0 := h.size_nonneg
  have hM1 := h'.size_nonneg
  have hq0 := h.err_nonneg
  have hq1 := h'.err_nonneg
  have m1 := mul_le_600 hM0 h.scale_hi h.size_le
  have m2 := mul_le_600 hq0 h.scale_hi h.err_le
  have m3 := mul_le_600 hM1 h.scale_hi h'.size_le
  have m4 := mul_le_600 hq1 h.scale_hi h'.err_le
  have z1 : 0 ≤ σ * q := by positivity
  have z2 : 0 ≤ σ * q' := by positivity
  have e1 : P.ε * (σ * q) ≤ 1e-3 * (σ * q) := mul_le_mul_of_nonneg_right (by linarith) z1
  have e2 : P.ε * (σ * q') ≤ 1e-3 * (σ * q') := mul_le_mul_of_nonneg_right (by linarith) z2
  have habs : |r - s| ≤ σ * M + σ * M' := (abs_sub _ _).trans (add_le_add h.size h'.size)
  have h1000 : (4 : ℝ) * 2 ^ (600 : ℤ) ≤ 2 ^ (1000 : ℤ) := by
    calc (4 : ℝ) * 2 ^ (600 : ℤ) = 2 ^ (2 : ℤ) * 2 ^ (600 : ℤ) := by norm_num
      _ = 2 ^ (602 : ℤ) := by rw [← zpow_add₀ (by norm_num)]; norm_num
      _ ≤ _ := two_zpow_mono (by norm_num)
  have hw := within_sub h.within h'.within (by
    generalize (2 : ℝ) ^ (600 : ℤ) = A at *
    generalize (2 : ℝ) ^ (1000 : ℤ) = B at *
    linarith)
  refine ⟨hw.mono ?_, ?_, h.scale_lo, h.scale_hi, by positivity, hq, hM⟩
  · have ht : (2 : ℝ) ^ (-1022 : ℤ) ≤ σ := (two_zpow_mono (by norm_num)).trans h.scale_lo
    have hin : |r - s| + (P.ε * (σ * q) + P.ε * (σ * q')) + 2 ^ (-1022 : ℤ) ≤
        σ * M + σ * M' + (1e-3 * (σ * q) + 1e-3 * (σ * q')) + σ := by
      generalize (2 : ℝ) ^ (-1022 : ℤ) = A at *
      linarith
    have hin' := mul_le_mul_of_nonneg_left hin hp.le
    generalize (2 : ℝ) ^ (-1022 : ℤ) = A at *
    have z3 : 0 ≤ P.ε * (σ * q) := by positivity
    have z4 : 0 ≤ P.ε * (σ * q') := by positivity
    nlinarith only [hin', z3, z4]
  · linarith [habs]

theorem Scaled.add (h : Scaled x r σ q M) (h' : Scaled y s σ q' M') (hq : 1.01 * (q + q') + M + M' + 1 ≤ cap)
    (hM : M + M' ≤ cap) : Scaled (x + y) (r + s) σ (1.01 * (q + q') + M + M' + 1) (M + M') := by
  have h1 := h.sub h'.neg hq hM
  rw [sub_eq_add_neg', sub_neg_eq_add] at h1
  have : - -y = y := by
    rcases y with v | s | _ | _
    · show F64.fin (- -v) = F64.fin v
      rw [neg_neg]
    · cases s <;> rfl
    · rfl
    · rfl
  rwa [this] at h1

/-- Simpler coefficients. -/
theorem Scaled.weaken (h : Scaled x r σ q M) {σ' r' : ℝ} (hr : r = r') (hσ : σ = σ') (hq : q ≤ q') (hM : M ≤ M') (hq' : q' ≤ cap) (hM' : M' ≤ cap) :
    Scaled x r' σ' q' M' := by
  subst hσ hr
  have h0 := h.pos
  exact ⟨h.within.mono (mul_le_mul_of_nonneg_left (mul_le_mul_of_nonneg_left hq h0.le) (eps_pos P).le),
    h.size.trans (mul_le_mul_of_nonneg_left hM h0.le), h.scale_lo, h.scale_hi, h.err_nonneg.trans hq, hq', hM'⟩

/-- A weaker bound. -/
theorem Scaled.within_le (h : Scaled x r σ q M) {e : ℝ} (he : σ * q ≤ e) : Within x r (P.ε * e) :=
  h.within.mono (mul_le_mul_of_nonneg_left he (eps_pos P).le)

end Polymers.Lemmas
