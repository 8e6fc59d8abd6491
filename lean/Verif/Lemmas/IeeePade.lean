import Verif.Props.IeeeInverseLangevin
import Verif.Lemmas.InverseLangevin

/-! The starting guess of the inverse Langevin function in floating point. -/

namespace Polymers.Lemmas

open Polymers.Ieee Polymers.Spec Polymers.math Polymers.Props Real

variable {P : Platform}

theorem pade_num_ge {γ : ℝ} (h : 0 < γ) : 0.9 * γ ≤ 2.14234 * γ ^ 3 - 4.22785 * γ ^ 2 + 3 * γ := by
  have : 0.9 ≤ 2.14234 * γ ^ 2 - 4.22785 * γ + 3 := by nlinarith only [sq_nonneg (γ - 0.9867)]
  have h2 := mul_le_mul_of_nonneg_right this h.le
  linarith only [h2, show (2.14234 * γ ^ 2 - 4.22785 * γ + 3) * γ = 2.14234 * γ ^ 3 - 4.22785 * γ ^ 2 + 3 * γ by ring]

set_option maxHeartbeats 1000000 in
/-- The rational starting guess is evaluated with a small relative error. -/
theorem pade_rel {γ : ℝ} (h1 : 9e-4 ≤ γ) (h2 : γ ≤ 0.9999) :
    ∃ v, padeGuess (.fin γ : F64 P) = .fin v ∧ |v - langevinGuess γ| ≤ 1e-8 * langevinGuess γ := by
  have hc : 0 < 1 - γ := by linarith
  have hγ' : γ ≤ 1 := by linarith
  have hγ0 : 0 < γ := by linarith
  have hε := eps_pos P
  have hε' := eps_small P
  have hu := unit_small P
  have hup := unit_pos P
  have c2 : γ ^ 2 ≤ γ := by nlinarith only [hγ0, hγ']
  have c32 : γ ^ 3 ≤ γ ^ 2 := by nlinarith only [hγ0, hγ', sq_nonneg γ]
  have c3 : γ ^ 3 ≤ γ := by linarith only [c32, c2]
  have b2 : 7e-10 ≤ γ ^ 2 := by nlinarith only [h1]
  have b3 : 7e-10 ≤ γ ^ 3 := by
    have := pow_le_pow_left₀ (by norm_num) h1 3
    refine le_trans (by norm_num) this
  have hn := pade_num_ge hγ0
  have hdd := langevinGuess_den hγ0.le hγ'
  have p3 : Rel (Elem.powi (.fin γ : F64 P) 3) (γ ^ 3) (4 * unit P) := by
    have := rel_powi (rel_refl (P := P) γ) 3 hγ0.ne' (by norm_num) (by norm_num) (by norm_num)
      (by rw [zpow_ofNat, abs_of_pos (by positivity)]; exact pow_lo.2.2.1.trans (by linarith only [b3]))
      (by rw [zpow_ofNat, abs_of_pos (by positivity)]; exact le_trans (by linarith only [c3, hγ']) pow_lo.2.2.2.1)
    rw [zpow_ofNat] at this
    refine this.mono ?_
    norm_num
  have p2 : Rel (Elem.powi (.fin γ : F64 P) 2) (γ ^ 2) (3 * unit P) := by
    have := rel_powi (rel_refl (P := P) γ) 2 hγ0.ne' (by norm_num) (by norm_num) (by norm_num)
      (by rw [zpow_ofNat, abs_of_pos (by positivity)]; exact pow_lo.2.2.1.trans (by linarith only [b2]))
      (by rw [zpow_ofNat, abs_of_pos (by positivity)]; exact le_trans (by linarith only [c2, hγ']) pow_lo.2.2.2.1)
    rw [zpow_ofNat] at this
    refine this.mono ?_
    norm_num
  have term : ∀ {a r : ℝ} {d : ℝ} {x y : F64 P}, Rel x a (unit P) → Rel y r d → d ≤ 4 * unit P → 0.1 ≤ a → a ≤ 5 → 7e-10 ≤ r → r ≤ γ →
      Within (x * y) (a * r) (5e-11 * γ) := by
    intro a r d x y hx hy hd ha ha' hr hr'
    have hp0 : 1e-30 ≤ a * r := by nlinarith only [ha, hr]
    have hp1 : a * r ≤ 5 * γ := by nlinarith only [ha', hr', ha, hr]
    have e1 := rel_mul' hx hy (by linarith only [hd, hu]) (by rw [abs_of_pos (by linarith only [hp0])]; exact hp0)
      (by rw [abs_of_pos (by linarith only [hp0])]; linarith only [hp1, hγ'])
    have e2 := (e1.mono (show unit P + d + unit P ≤ (6 : ℕ) * unit P by push_cast; linarith only [hd])).within_nat (by norm_num)
    refine e2.mono ?_
    rw [abs_of_pos (by linarith only [hp0])]
    push_cast
    have : P.ε * (a * r) ≤ 1e-12 * (5 * γ) := mul_le_mul hε' hp1 (by linarith only [hp0]) (by norm_num)
    linarith only [this, hγ0]
  have g7 : 7e-10 ≤ γ := by linarith only [h1]
  have t1 := term (rel_lit (P := P) (r := 2.14234) (by norm_num) (by norm_num)) p3 le_rfl (by norm_num) (by norm_num) b3 c3
  have t2 := term (rel_lit (P := P) (r := 4.22785) (by norm_num) (by norm_num)) p2 (by linarith only [hup]) (by norm_num) (by norm_num) b2 c2
  have l3 : Rel (3.0 : F64 P) 3 (unit P) := by
    have : Rel (3.0 : F64 P) (3.0 : ℝ) (unit P) := rel_lit (by norm_num) (by norm_num)
    rwa [show (3.0 : ℝ) = 3 by norm_num] at this
  have t3 := term l3 (rel_refl γ) (by linarith only [hup]) (by norm_num) (by norm_num) g7 le_rfl
  have s1 := term (rel_lit (P := P) (r := 0.71716) (by norm_num) (by norm_num)) p3 le_rfl (by norm_num) (by norm_num) b3 c3
  have s2 := term (rel_lit (P := P) (r := 0.41103) (by norm_num) (by norm_num)) p2 (by linarith only [hup]) (by norm_num) (by norm_num) b2 c2
  have s3 := term (rel_lit (P := P) (r := 0.39165) (by norm_num) (by norm_num)) (rel_refl γ) (by linarith only [hup]) (by norm_num) (by norm_num) g7 le_rfl
  have sub1 : ∀ {x y : F64 P} {r s k k' : ℝ}, Within x r (k * γ) → Within y s (k' * γ) → |r - s| ≤ 5 * γ → k + k' ≤ 1 →
      Within (x - y) (r - s) ((k + k' + 1e-11) * γ) := by
    intro x y r s e e' hx hy h h'
    have h3 : e * γ + e' * γ ≤ γ := by nlinarith only [h', hγ0]
    refine (within_sub' hx hy (by linarith only [h, h3, hγ'])).mono ?_
    have : P.ε * (|r - s| + (e * γ + e' * γ) + 1e-30) ≤ 1e-12 * (7 * γ) := by
      refine mul_le_mul hε' (by linarith only [h, h3, g7]) ?_ (by norm_num)
      have h4 := abs_nonneg (r - s)
      obtain ⟨_, _, h5⟩ := hx
      obtain ⟨_, _, h6⟩ := hy
      have := (abs_nonneg _).trans h5
      have := (abs_nonneg _).trans h6
      positivity
    linarith only [this, hγ0]
  have add1 : ∀ {x y : F64 P} {r s k k' : ℝ}, Within x r (k * γ) → Within y s (k' * γ) → |r + s| ≤ 5 * γ → k + k' ≤ 1 →
      Within (x + y) (r + s) ((k + k' + 1e-11) * γ) := by
    intro x y r s e e' hx hy h h'
    have h3 : e * γ + e' * γ ≤ γ := by nlinarith only [h', hγ0]
    refine (within_add' hx hy (by linarith only [h, h3, hγ'])).mono ?_
    have : P.ε * (|r + s| + (e * γ + e' * γ) + 1e-30) ≤ 1e-12 * (7 * γ) := by
      refine mul_le_mul hε' (by linarith only [h, h3, g7]) ?_ (by norm_num)
      have h4 := abs_nonneg (r + s)
      obtain ⟨_, _, h5⟩ := hx
      obtain ⟨_, _, h6⟩ := hy
      have := (abs_nonneg _).trans h5
      have := (abs_nonneg _).trans h6
      positivity
    linarith only [this, hγ0]
  have y2 : 0 < γ ^ 2 := by positivity
  have y3 : 0 < γ ^ 3 := by positivity
  have n1 := add1 (sub1 t1 t2 (by rw [abs_le]; constructor <;> linarith only [c32, c2, c3, y2, y3, hγ0]) (by norm_num)) t3
    (by rw [abs_le]; constructor <;> linarith only [c32, c2, c3, y2, y3, hγ0]) (by norm_num)
  have d0 := sub1 (sub1 s1 s2 (by rw [abs_le]; constructor <;> linarith only [c32, c2, c3, y2, y3, hγ0]) (by norm_num)) s3
    (by rw [abs_le]; constructor <;> linarith only [c32, c2, c3, y2, y3, hγ0]) (by norm_num)
  have d1 : Within (0.71716 * Elem.powi (.fin γ : F64 P) 3 - 0.41103 * Elem.powi (.fin γ : F64 P) 2 - 0.39165 * (.fin γ : F64 P) + .fin 1)
      (0.71716 * γ ^ 3 - 0.41103 * γ ^ 2 - 0.39165 * γ + 1) 2e-10 := by
    have hab : |0.71716 * γ ^ 3 - 0.41103 * γ ^ 2 - 0.39165 * γ + 1| ≤ 3 := by
      rw [abs_le]; constructor <;> linarith only [c2, c3, y2, y3, hγ0, hγ']
    have h3 : (5e-11 + 5e-11 + 1e-11 + 5e-11 + 1e-11) * γ ≤ 1.7e-10 := by linarith only [hγ']
    have h30 : 0 ≤ (5e-11 + 5e-11 + 1e-11 + 5e-11 + 1e-11) * γ := by positivity
    refine (within_add' d0 (within_refl (P := P) 1) (by linarith only [hab, h3])).mono ?_
    have : P.ε * (|0.71716 * γ ^ 3 - 0.41103 * γ ^ 2 - 0.39165 * γ + 1| + ((5e-11 + 5e-11 + 1e-11 + 5e-11 + 1e-11) * γ + 0) + 1e-30) ≤ 1e-12 * 4 := by
      refine mul_le_mul hε' (by linarith only [hab, h3]) ?_ (by norm_num)
      have := abs_nonneg (0.71716 * γ ^ 3 - 0.41103 * γ ^ 2 - 0.39165 * γ + 1)
      linarith only [this, h30]
    linarith only [this, h3]
  have hg : langevinGuess γ = (2.14234 * γ ^ 3 - 4.22785 * γ ^ 2 + 3 * γ) / (1 - γ) / (0.71716 * γ ^ 3 - 0.41103 * γ ^ 2 - 0.39165 * γ + 1) := by
    unfold langevinGuess
    norm_num
  have hdl : 0.5 ≤ 0.71716 * γ ^ 3 - 0.41103 * γ ^ 2 - 0.39165 * γ + 1 := by
    norm_num at hdd ⊢
    linarith only [hdd]
  have hdu : 0.71716 * γ ^ 3 - 0.41103 * γ ^ 2 - 0.39165 * γ + 1 ≤ 2 := by linarith only [c3, hγ', y2, hγ0]
  have hnu : 2.14234 * γ ^ 3 - 4.22785 * γ ^ 2 + 3 * γ ≤ 6 := by linarith only [c3, hγ', y2, hγ0]
  rw [hg]
  set n := 2.14234 * γ ^ 3 - 4.22785 * γ ^ 2 + 3 * γ with hnd
  set d := 0.71716 * γ ^ 3 - 0.41103 * γ ^ 2 - 0.39165 * γ + 1 with hddef
  clear_value n d
  clear term sub1 add1 t1 t2 t3 s1 s2 s3 p2 p3 b2 b3 c2 c3 d0 hdd
  have hn0 : 8e-4 ≤ n := by linarith only [hn, h1]
  have rn := rel_of_within (d := 1e-9) n1 (by linarith only [hn0]) (by linarith only [hn, hγ0]) (by norm_num)
  have rd := rel_of_within (d := 1e-9) d1 (by linarith only [hdl]) (by linarith only [hdl]) (by norm_num)
  have rc : Rel ((1.0 : F64 P) - .fin γ) (1 - γ) (unit P) := by
    rw [lit_one]
    exact rel_lit (by rw [abs_of_pos hc]; linarith only [h2]) (by rw [abs_of_pos hc]; linarith only [hγ0])
  have q1b : 8e-4 ≤ n / (1 - γ) := by rw [le_div_iff₀ hc]; linarith only [hn0, hγ0]
  have q1u : n / (1 - γ) ≤ 1e5 := by rw [div_le_iff₀ hc]; linarith only [hnu, h2]
  have q1 := rel_div' rn rc (by linarith only [hu]) (by rw [abs_of_pos (by linarith only [q1b])]; linarith only [q1b])
    (by rw [abs_of_pos (by linarith only [q1b])]; linarith only [q1u])
  have q2b : 4e-4 ≤ n / (1 - γ) / d := by rw [le_div_iff₀ (by linarith only [hdl])]; linarith only [q1b, hdu]
  have q2u : n / (1 - γ) / d ≤ 2e5 := by rw [div_le_iff₀ (by linarith only [hdl])]; linarith only [q1u, hdl]
  have q2 := rel_div' q1 rd (by linarith only [hu]) (by rw [abs_of_pos (by linarith only [q2b])]; linarith only [q2b])
    (by rw [abs_of_pos (by linarith only [q2b])]; linarith only [q2u])
  obtain ⟨δ, hδ, hv⟩ := q2
  refine ⟨n / (1 - γ) / d * exp δ, ?_, ?_⟩
  · rw [← hv]
    unfold padeGuess
    rw [show (0.71716 * Elem.powi (.fin γ : F64 P) 3 - 0.41103 * Elem.powi (.fin γ : F64 P) 2 - 0.39165 * (.fin γ : F64 P) + 1.0) =
      (0.71716 * Elem.powi (.fin γ : F64 P) 3 - 0.41103 * Elem.powi (.fin γ : F64 P) 2 - 0.39165 * (.fin γ : F64 P) + .fin 1) by rw [lit_one]]
    rfl
  · have e2 := abs_exp_sub_one_le hδ
    have e3 : exp (1e-9 + unit P + unit P + 1e-9 + unit P) - 1 ≤ 1e-8 := by
      have := exp_bound_div_one_sub_of_interval (x := 1e-9 + unit P + unit P + 1e-9 + unit P) (by linarith only [hup]) (by linarith only [hu])
      have h3 : 1 / (1 - (1e-9 + unit P + unit P + 1e-9 + unit P)) ≤ 1 + 1e-8 := by
        rw [div_le_iff₀ (by linarith only [hu])]
        nlinarith only [hu, hup]
      linarith only [this, h3]
    rw [show n / (1 - γ) / d * exp δ - n / (1 - γ) / d = (exp δ - 1) * (n / (1 - γ) / d) by ring, abs_mul,
      abs_of_pos (show 0 < n / (1 - γ) / d by linarith only [q2b])]
    exact mul_le_mul_of_nonneg_right (e2.trans e3) (by linarith only [q2b])

/-- The starting guess below one half. -/
theorem langevinGuess_ratio {y : ℝ} (h0 : 0 < y) (h1 : y ≤ 1 / 2) : 2.9 * y ≤ langevinGuess y ∧ langevinGuess y ≤ 3.6 * y := by
  have hB := langevinGuess_den h0.le (by linarith : y ≤ 1)
  have hz : 0 < 1 - y := by linarith
  unfold langevinGuess
  set B := 17929 / 25000 * y ^ 3 - 41103 / 100000 * y ^ 2 - 7833 / 20000 * y + 1 with hBdef
  rw [div_div, le_div_iff₀ (by positivity), div_le_iff₀ (by positivity)]
  have key : 2.9 * ((1 - y) * B) ≤ 107117 / 50000 * y ^ 2 - 84557 / 20000 * y + 3 ∧
      107117 / 50000 * y ^ 2 - 84557 / 20000 * y + 3 ≤ 3.6 * ((1 - y) * B) := by
    rw [hBdef]
    clear_value B
    clear hB hz
    have a0 : 0 ≤ 1 / 2 - y := by linarith
    have b0 := pow_nonneg h0.le
    have b1 := pow_nonneg a0
    constructor
    · nlinarith [mul_nonneg (b0 1) (b1 3), mul_nonneg (b0 2) (b1 2), mul_nonneg (b0 3) (b1 1), b0 4, b1 4]
    · nlinarith [mul_nonneg (b0 1) (b1 3), mul_nonneg (b0 2) (b1 2), mul_nonneg (b0 3) (b1 1), b0 4, b1 4]
  constructor
  · have := mul_le_mul_of_nonneg_left key.1 h0.le
    linarith only [this, show y * (107117 / 50000 * y ^ 2 - 84557 / 20000 * y + 3) = 107117 / 50000 * y ^ 3 - 84557 / 20000 * y ^ 2 + 3 * y by ring]
  · have := mul_le_mul_of_nonneg_left key.2 h0.le
    linarith only [this, show y * (107117 / 50000 * y ^ 2 - 84557 / 20000 * y + 3) = 107117 / 50000 * y ^ 3 - 84557 / 20000 * y ^ 2 + 3 * y by ring]

/-- The starting guess above one half. -/
theorem langevinGuess_high {y : ℝ} (h0 : 1 / 2 ≤ y) (h1 : y < 1) : 11 / 20 ≤ (1 - y) * langevinGuess y ∧ (1 - y) * langevinGuess y ≤ 2 := by
  have hB := langevinGuess_den (by linarith : 0 ≤ y) h1.le
  have hz : 0 < 1 - y := by linarith
  unfold langevinGuess
  have e : ∀ n d : ℝ, (1 - y) * (n / (1 - y) / d) = n / d := by intro n d; field_simp
  rw [e, le_div_iff₀ (by linarith), div_le_iff₀ (by linarith)]
  have a0 : 0 ≤ 1 - y := by linarith
  have a1 : 0 ≤ y - 1 / 2 := by linarith
  have b0 := pow_nonneg a0
  have b1 := pow_nonneg a1
  constructor
  · nlinarith [mul_nonneg (b0 1) (b1 2), mul_nonneg (b0 2) (b1 1), b0 3, b1 3]
  · nlinarith [mul_nonneg (b0 1) (b1 2), mul_nonneg (b0 2) (b1 1), b0 3, b1 3]

end Polymers.Lemmas
