import Verif.Props.IeeeEfjcEnergy
import Verif.Lemmas.SwfjcShape
import Verif.Spec.IeeeSwfjc

/-! C99: the square-well chain at fixed force in floating point. -/

namespace Polymers.Props

open Polymers.Ieee Polymers.Spec Polymers.Lemmas
open Polymers.swfjc.thermodynamics.isotensional

variable {P : Platform} {N : ℕ} {ℓ m c T f η W n s t : ℝ} {a b : ℤ} {x y z : F64 P}

theorem exp_300_le {r : ℝ} (h : r ≤ 300) : Real.exp r ≤ 2 ^ (440 : ℤ) := by
  have h5 : Real.exp 1 ^ 30 ≤ (2 : ℝ) ^ 44 := by
    calc Real.exp 1 ^ 30 ≤ (2.7182818286 : ℝ) ^ 30 := pow_le_pow_left₀ (Real.exp_pos _).le Real.exp_one_lt_d9.le _
      _ ≤ 2 ^ 44 := by norm_num
  have h4 : Real.exp 1 ^ 300 ≤ (2 : ℝ) ^ 440 := by
    calc Real.exp 1 ^ 300 = (Real.exp 1 ^ 30) ^ 10 := by rw [← pow_mul]
      _ ≤ ((2 : ℝ) ^ 44) ^ 10 := pow_le_pow_left₀ (by positivity) h5 _
      _ = 2 ^ 440 := by rw [← pow_mul]
  rw [← Real.exp_nat_mul] at h4
  calc Real.exp r ≤ Real.exp ((300 : ℕ) * 1) := Real.exp_le_exp.2 (by push_cast; linarith)
    _ ≤ (2 : ℝ) ^ (440 : ℕ) := h4
    _ = 2 ^ (440 : ℤ) := (zpow_natCast 2 440).symm

theorem cosh_le_exp' {r : ℝ} (h : 0 ≤ r) : Real.cosh r ≤ Real.exp r := by
  rw [Real.cosh_eq]
  have : Real.exp (-r) ≤ Real.exp r := Real.exp_le_exp.2 (by linarith)
  linarith

/-- The hyperbolic cosine of close arguments. -/
theorem cosh_close (u v : ℝ) : Real.cosh v ≤ Real.cosh u * Real.exp |v - u| := by
  have h1 : Real.exp v ≤ Real.exp u * Real.exp |v - u| := by
    rw [← Real.exp_add]; exact Real.exp_le_exp.2 (by linarith [le_abs_self (v - u)])
  have h2 : Real.exp (-v) ≤ Real.exp (-u) * Real.exp |v - u| := by
    rw [← Real.exp_add]; exact Real.exp_le_exp.2 (by linarith [neg_abs_le (v - u)])
  rw [Real.cosh_eq, Real.cosh_eq]
  linarith

theorem log_cosh_close (u v : ℝ) : |Real.log (Real.cosh v / Real.cosh u)| ≤ |v - u| := by
  have c1 := Real.cosh_pos u
  have c2 := Real.cosh_pos v
  rw [abs_le]
  constructor
  · rw [Real.le_log_iff_exp_le (by positivity), le_div_iff₀ c1, Real.exp_neg, inv_mul_le_iff₀ (Real.exp_pos _), mul_comm, abs_sub_comm]
    exact cosh_close v u
  · rw [Real.log_le_iff_le_exp (by positivity), div_le_iff₀ c1, mul_comm]
    exact cosh_close u v

theorem acc_shift (hx : Acc x s n a b) (hn0 : 0 ≤ n) (hn : n ≤ 100) : ∃ δ, |δ| ≤ n * unit P ∧ x = .fin (s * Real.exp δ) ∧ |s * Real.exp δ - s| ≤ (n + 1) * unit P * |s| := by
  obtain ⟨δ, hδ, rfl⟩ := hx.rel
  refine ⟨δ, hδ, rfl, ?_⟩
  obtain ⟨v, hv, hd⟩ := hx.rel.within.mono (mul_le_mul_of_nonneg_right (exp_units_le' P hn0 (by linarith)) (abs_nonneg s))
  cases hv
  exact hd.trans (mul_le_mul_of_nonneg_right (mul_le_mul_of_nonneg_left (eps_le_unit P) (by linarith)) (abs_nonneg s))

/-- A hyperbolic cosine: the error of the argument counts in proportion to its size. -/
theorem _root_.Polymers.Lemmas.Acc.cosh (hx : Acc x s n a b) (h0 : 0 < s) (h300 : s ≤ 300) (hn0 : 0 ≤ n) (hn : n ≤ 100) :
    Acc (Elem.cosh x) (Real.cosh s) ((n + 1) * s + 1) 0 440 := by
  obtain ⟨δ, -, rfl, hd⟩ := acc_shift hx hn0 hn
  rw [abs_of_pos h0] at hd
  have c0 := Real.cosh_pos s
  have c1 := Real.one_le_cosh s
  have c2 := (cosh_le_exp' h0.le).trans (exp_300_le h300)
  have v0 := Real.cosh_pos (s * Real.exp δ)
  have e : Real.cosh (s * Real.exp δ) = Real.cosh s * Real.exp (Real.log (Real.cosh (s * Real.exp δ) / Real.cosh s)) := by
    rw [Real.exp_log (by positivity)]; field_simp
  have hl := (log_cosh_close s (s * Real.exp δ)).trans hd
  refine ⟨?_, by rwa [abs_of_pos c0, zpow_zero], by rwa [abs_of_pos c0]⟩
  have h := rel_approx (P := P) (w := P.fn .cosh (s * Real.exp δ)) (r := Real.cosh s) (d := (n + 1) * s * unit P)
    (by rw [← e]; exact P.fn_err .cosh _) (hl.trans (le_of_eq (by ring))) (units_le_one P (by nlinarith))
    (by rw [abs_of_pos c0]; exact lo_of_one c1) (by rw [abs_of_pos c0]; exact c2.trans (two_zpow_mono (by norm_num)))
  exact h.mono (le_of_eq (by ring))

/-- A hyperbolic sine. -/
theorem _root_.Polymers.Lemmas.Acc.sinh (hx : Acc x s n a b) (h0 : 0 < s) (h300 : s ≤ 300) (hn0 : 0 ≤ n) (hn : n ≤ 100) (ha : -1000 ≤ a) :
    Acc (Elem.sinh x) (Real.sinh s) ((n + 1) * (1 + s) + 1) a 440 := by
  have lo := hx.lo
  obtain ⟨δ, hδ, rfl, hd⟩ := acc_shift hx hn0 hn
  rw [abs_of_pos h0] at hd lo
  have c0 : 0 < Real.sinh s := Real.sinh_pos_iff.2 h0
  have c1 : s ≤ Real.sinh s := Real.self_le_sinh_iff.2 h0.le
  have c2 := ((Real.sinh_lt_cosh s).le.trans (cosh_le_exp' h0.le)).trans (exp_300_le h300)
  have hv : 0 < s * Real.exp δ := by positivity
  have v0 : 0 < Real.sinh (s * Real.exp δ) := Real.sinh_pos_iff.2 hv
  have e : Real.sinh (s * Real.exp δ) = Real.sinh s * Real.exp (Real.log (Real.sinh (s * Real.exp δ) / Real.sinh s)) := by
    rw [Real.exp_log (by positivity)]; field_simp
  have hu := unit_pos P
  have hl : |Real.log (Real.sinh (s * Real.exp δ) / Real.sinh s)| ≤ (n + 1) * (1 + s) * unit P := by
    have k := (log_sinh_div_close h0 hv).trans hd
    rw [Real.log_div v0.ne' hv.ne', Real.log_div c0.ne' h0.ne', Real.log_mul h0.ne' (Real.exp_pos _).ne', Real.log_exp] at k
    rw [Real.log_div v0.ne' c0.ne']
    rw [abs_le] at k hδ ⊢
    constructor <;> nlinarith
  refine ⟨?_, by rw [abs_of_pos c0]; exact lo.trans c1, by rwa [abs_of_pos c0]⟩
  have h := rel_approx (P := P) (w := P.fn .sinh (s * Real.exp δ)) (r := Real.sinh s) (d := (n + 1) * (1 + s) * unit P)
    (by rw [← e]; exact P.fn_err .sinh _) hl (units_le_one P (by nlinarith))
    (by rw [abs_of_pos c0]; exact (two_zpow_mono ha).trans (lo.trans c1)) (by rw [abs_of_pos c0]; exact c2.trans (two_zpow_mono (by norm_num)))
  exact h.mono (le_of_eq (by ring))

/-- A sum of positive numbers. -/
theorem _root_.Polymers.Lemmas.Acc.add_pos {d e : ℤ} (hx : Acc x s n a b) (hy : Acc y t n d e) (hs : 0 < s) (ht : 0 < t) (hn : n ≤ 100000) (ha : -1000 ≤ a)
    (hb : b ≤ 900) (he : e ≤ b) : Acc (x + y) (s + t) (n + 1) a (b + 1) := by
  have lo := hx.lo
  have h1 := hx.hi
  have h2 := hy.hi.trans (two_zpow_mono he)
  rw [abs_of_pos hs] at lo h1
  rw [abs_of_pos ht] at h2
  have hi : s + t ≤ 2 ^ (b + 1) := by
    rw [zpow_add₀ (by norm_num), zpow_one]; linarith
  have lo' : (2 : ℝ) ^ a ≤ s + t := by linarith
  refine ⟨?_, by rwa [abs_of_pos (by linarith)], by rwa [abs_of_pos (by linarith)]⟩
  exact (rel_add hx.rel hy.rel hs ht (units_le_one P hn) ((two_zpow_mono ha).trans lo') (hi.trans (two_zpow_mono (by omega)))).mono (le_of_eq (by ring))

/-- A relative error as a multiple of a size that is enlarged. -/
theorem _root_.Polymers.Lemmas.Acc.sized_by {q C : ℝ} (h : Acc x s n a b) (hn0 : 0 ≤ n) (hn : n ≤ 100000) (ha : -1000 ≤ a) (hC : 1 ≤ C) (hq : n + 1 ≤ q * C) (hq0 : 0 ≤ q)
    (hq' : q ≤ 10000) (hM : C * |s| ≤ 2 ^ (590 : ℤ)) : Sized x s q (C * |s|) := by
  have h1 : |s| ≤ C * |s| := le_mul_of_one_le_left (abs_nonneg s) hC
  refine ⟨(h.accurate hn0 hn hq).mono (le_of_eq (by ring)), h1, (two_zpow_mono ha).trans (h.lo.trans h1), hM, hq0, hq'⟩

theorem acc_well (hℓ : Moderate ℓ) (hℓ0 : 0 < ℓ) (hW : Moderate W) (hW0 : 0 < W) (hc : c = 1 + W / ℓ) (hc' : c ≤ 2 ^ (20 : ℤ)) :
    Acc ((1.0 : F64 P) + .fin W / .fin ℓ) c 2 0 20 := by
  have a1 : Acc (1.0 : F64 P) (1.0 : ℝ) 1 0 200 := by
    refine acc_lit ?_ ?_ (by norm_num) (by norm_num) <;> norm_num
  have a2 := Acc.div (acc_moderate (P := P) hW) (acc_moderate hℓ) (by norm_num) (by norm_num) (by norm_num)
  rw [show (0 : ℝ) + 0 + 1 = 1 by norm_num] at a2
  have k := a1.add_pos a2 (by norm_num) (by positivity) (by norm_num) (by norm_num) (by norm_num) (by norm_num)
  have e : (1.0 : ℝ) + W / ℓ = c := by rw [hc]; norm_num
  rw [e] at k
  have hc0 : 0 < c := by rw [hc]; positivity
  exact ⟨k.rel.mono (le_of_eq (by norm_num)), k.lo, by rwa [abs_of_pos hc0]⟩

theorem wellSumSize_le (hc : 1 ≤ c) (h0 : 0 < η) (h300 : c * η ≤ 300) : wellSumSize c η ≤ 2 ^ (460 : ℤ) := by
  have hη : η ≤ c * η := le_mul_of_one_le_left h0.le hc
  have ha : 0 < c * η := by linarith
  have e : ∀ r : ℝ, 0 < r → r ≤ 300 → Real.cosh r ≤ 2 ^ (440 : ℤ) ∧ Real.sinh r ≤ 2 ^ (440 : ℤ) ∧ 0 < Real.sinh r ∧ 0 < Real.cosh r := by
    intro r h1 h2
    have := (cosh_le_exp' h1.le).trans (exp_300_le h2)
    exact ⟨this, (Real.sinh_lt_cosh r).le.trans this, Real.sinh_pos_iff.2 h1, Real.cosh_pos r⟩
  obtain ⟨c1, s1, p1, q1⟩ := e _ ha h300
  obtain ⟨c2, s2, p2, q2⟩ := e _ h0 (hη.trans h300)
  unfold wellSumSize
  rw [show (460 : ℤ) = 20 + 440 by norm_num, zpow_add₀ (by norm_num)]
  generalize (2 : ℝ) ^ (440 : ℤ) = E at *
  have hE : 0 < E := q1.trans_le c1
  have k1 : c * η * Real.cosh (c * η) ≤ 300 * E := mul_le_mul h300 c1 q1.le (by norm_num)
  have k2 : η * Real.cosh η ≤ 300 * E := mul_le_mul (hη.trans h300) c2 q2.le (by norm_num)
  calc (1 + c * η) * (c * η * Real.cosh (c * η) + Real.sinh (c * η) + η * Real.cosh η + Real.sinh η) ≤ 301 * (602 * E) :=
        mul_le_mul (by linarith) (by linarith) (by positivity) (by norm_num)
    _ ≤ 2 ^ (20 : ℤ) * E := by norm_num; linarith

theorem wellSlopeSize_le (hc : 1 ≤ c) (h0 : 0 < η) : wellSlopeSize c η ≤ c * wellSumSize c η := by
  have hη : η ≤ c * η := le_mul_of_one_le_left h0.le hc
  have ha : 0 < c * η := by linarith
  have p1 := Real.sinh_pos_iff.2 ha
  have p2 := Real.sinh_pos_iff.2 h0
  have q1 := (Real.sinh_lt_cosh (c * η)).le
  have q2 := (Real.sinh_lt_cosh η).le
  unfold wellSlopeSize wellSumSize
  rw [show c * ((1 + c * η) * (c * η * Real.cosh (c * η) + Real.sinh (c * η) + η * Real.cosh η + Real.sinh η)) =
    (1 + c * η) * (c * (c * η * Real.cosh (c * η) + Real.sinh (c * η) + η * Real.cosh η + Real.sinh η)) by ring]
  refine mul_le_mul_of_nonneg_left ?_ (by linarith)
  have k1 : c ^ 2 * η * Real.sinh (c * η) ≤ c * (c * η * Real.cosh (c * η)) := by
    rw [show c ^ 2 * η * Real.sinh (c * η) = c * (c * η * Real.sinh (c * η)) by ring]
    gcongr
  have k2 : η * Real.sinh η ≤ c * (η * Real.cosh η) := by
    calc η * Real.sinh η ≤ η * Real.cosh η := mul_le_mul_of_nonneg_left q2 h0.le
      _ ≤ _ := le_mul_of_one_le_left (mul_nonneg h0.le (Real.cosh_pos η).le) hc
  have k3 : 0 ≤ c * (Real.sinh (c * η) + Real.sinh η) := by positivity
  linarith

set_option maxHeartbeats 400000 in
/-- The partition function of a link and its derivative. -/
theorem sized_well (hz : Acc z c 2 0 20) (hc : 1 ≤ c) (hc' : c ≤ 2 ^ (20 : ℤ)) (hy : Acc y η n (-100) 100) (h0 : 0 < η) (h300 : c * η ≤ 300) (hn0 : 0 ≤ n) (hn : n ≤ 9) :
    Sized (z * y * Elem.cosh (z * y) - Elem.sinh (z * y) - y * Elem.cosh y + Elem.sinh y) (wellSum c η) 21 (wellSumSize c η) ∧
    Sized (Elem.powi z 2 * y * Elem.sinh (z * y) - y * Elem.sinh y) (wellSlope c η) 35 (wellSlopeSize c η) := by
  have hη : η ≤ c * η := le_mul_of_one_le_left h0.le hc
  have ha : 0 < c * η := by linarith
  have hC : 1 ≤ 1 + c * η := by linarith
  have az := Acc.mul hz hy (by linarith) (by norm_num) (by norm_num)
  have a1 := az.cosh ha h300 (by linarith) (by linarith)
  have a2 := az.sinh ha h300 (by linarith) (by linarith) (by norm_num)
  have a3 := hy.cosh h0 (hη.trans h300) (by linarith) (by linarith)
  have a4 := hy.sinh h0 (hη.trans h300) (by linarith) (by linarith) (by norm_num)
  have p1 : 0 ≤ n * (c * η) := by positivity
  have p2 : 0 ≤ n * η := by positivity
  have p3 : n * (c * η) ≤ 9 * (c * η) := mul_le_mul_of_nonneg_right hn ha.le
  have p4 : n * η ≤ 9 * η := mul_le_mul_of_nonneg_right hn h0.le
  have u1 : (2 + n + 1 + 1) * (c * η) + 1 ≤ 5000 := by linarith
  have u2 : (2 + n + 1 + 1) * (1 + c * η) + 1 ≤ 5000 := by linarith
  have u3 : (n + 1) * η + 1 ≤ 5000 := by linarith
  have u4 : (n + 1) * (1 + η) + 1 ≤ 5000 := by linarith
  have b1 := Acc.mul az a1 (by linarith) (by norm_num) (by norm_num)
  have b3 := Acc.mul hy a3 (by linarith) (by norm_num) (by norm_num)
  have b5 := Acc.mul (Acc.mul (hz.sq (by norm_num) (by norm_num) (by norm_num)) hy (by linarith) (by norm_num) (by norm_num)) a2 (by linarith) (by norm_num) (by norm_num)
  have b6 := Acc.mul hy a4 (by linarith) (by norm_num) (by norm_num)
  have hM := wellSumSize_le hc h0 h300
  have hM2 : wellSlopeSize c η ≤ 2 ^ (480 : ℤ) := by
    refine (wellSlopeSize_le hc h0).trans ?_
    rw [show (480 : ℤ) = 20 + 460 by norm_num, zpow_add₀ (by norm_num)]
    refine mul_le_mul hc' hM ?_ (by positivity)
    have := Real.sinh_pos_iff.2 ha
    have := Real.sinh_pos_iff.2 h0
    have := Real.cosh_pos (c * η)
    have := Real.cosh_pos η
    unfold wellSumSize; positivity
  have h590 : (2 : ℝ) ^ (460 : ℤ) ≤ 2 ^ (590 : ℤ) := two_zpow_mono (by norm_num)
  have h590' : (2 : ℝ) ^ (480 : ℤ) ≤ 2 ^ (590 : ℤ) := two_zpow_mono (by norm_num)
  have t1 : |c * η * Real.cosh (c * η)| = c * η * Real.cosh (c * η) := abs_of_pos (mul_pos ha (Real.cosh_pos _))
  have t2 : |Real.sinh (c * η)| = Real.sinh (c * η) := abs_of_pos (Real.sinh_pos_iff.2 ha)
  have t3 : |η * Real.cosh η| = η * Real.cosh η := abs_of_pos (mul_pos h0 (Real.cosh_pos _))
  have t4 : |Real.sinh η| = Real.sinh η := abs_of_pos (Real.sinh_pos_iff.2 h0)
  have t5 : |Elem.powi c 2 * η * Real.sinh (c * η)| = c ^ 2 * η * Real.sinh (c * η) := by
    rw [powi_two]
    exact abs_of_pos (mul_pos (by positivity) (Real.sinh_pos_iff.2 ha))
  have t6 : |η * Real.sinh η| = η * Real.sinh η := abs_of_pos (mul_pos h0 (Real.sinh_pos_iff.2 h0))
  have n1 := abs_nonneg (c * η * Real.cosh (c * η))
  have n2 := abs_nonneg (Real.sinh (c * η))
  have n3 := abs_nonneg (η * Real.cosh η)
  have n4 := abs_nonneg (Real.sinh η)
  have n5 := abs_nonneg (Elem.powi c 2 * η * Real.sinh (c * η))
  have n6 := abs_nonneg (η * Real.sinh η)
  have eS : wellSumSize c η = (1 + c * η) * |c * η * Real.cosh (c * η)| + (1 + c * η) * |Real.sinh (c * η)| + (1 + c * η) * |η * Real.cosh η| +
      (1 + c * η) * |Real.sinh η| := by
    rw [t1, t2, t3, t4]; unfold wellSumSize; ring
  have eD : wellSlopeSize c η = (1 + c * η) * |Elem.powi c 2 * η * Real.sinh (c * η)| + (1 + c * η) * |η * Real.sinh η| := by
    rw [t5, t6]; unfold wellSlopeSize; ring
  have m1 := mul_nonneg (show 0 ≤ 1 + c * η by linarith) n1
  have m2 := mul_nonneg (show 0 ≤ 1 + c * η by linarith) n2
  have m3 := mul_nonneg (show 0 ≤ 1 + c * η by linarith) n3
  have m4 := mul_nonneg (show 0 ≤ 1 + c * η by linarith) n4
  have m5 := mul_nonneg (show 0 ≤ 1 + c * η by linarith) n5
  have m6 := mul_nonneg (show 0 ≤ 1 + c * η by linarith) n6
  have up : ∀ {M : ℝ}, M ≤ wellSumSize c η → M ≤ 2 ^ (590 : ℤ) := fun h => h.trans (hM.trans h590)
  have up' : ∀ {M : ℝ}, M ≤ wellSlopeSize c η → M ≤ 2 ^ (590 : ℤ) := fun h => h.trans (hM2.trans h590')
  have k1 := b1.sized_by (q := 15) (C := 1 + c * η) (by linarith) (by linarith) (by norm_num) hC (by linarith) (by norm_num) (by norm_num) (up (by linarith))
  have k2 := a2.sized_by (q := 15) (C := 1 + c * η) (by linarith) (by linarith) (by norm_num) hC (by linarith) (by norm_num) (by norm_num) (up (by linarith))
  have k3 := b3.sized_by (q := 17) (C := 1 + c * η) (by linarith) (by linarith) (by norm_num) hC (by linarith) (by norm_num) (by norm_num) (up (by linarith))
  have k4 := a4.sized_by (q := 19) (C := 1 + c * η) (by linarith) (by linarith) (by norm_num) hC (by linarith) (by norm_num) (by norm_num) (up (by linarith))
  have k5 := b5.sized_by (q := 33) (C := 1 + c * η) (by linarith) (by linarith) (by norm_num) hC (by linarith) (by norm_num) (by norm_num) (up' (by linarith))
  have k6 := b6.sized_by (q := 33) (C := 1 + c * η) (by linarith) (by linarith) (by norm_num) hC (by linarith) (by norm_num) (by norm_num) (up' (by linarith))
  have r1 := k1.sub k2 (up (by linarith)) (by norm_num) (by norm_num)
  have r2 := (r1.weaken (q' := 17) (by norm_num) (by norm_num) rfl le_rfl r1.hi).sub k3 (up (by linarith)) (by norm_num) (by norm_num)
  have r3 := (r2.weaken (q' := 19) (by norm_num) (by norm_num) rfl le_rfl r2.hi).add k4 (up (by linarith)) (by norm_num)
  have r4 := k5.sub k6 (up' (by linarith)) (by norm_num) (by norm_num)
  refine ⟨r3.weaken (by norm_num) (by norm_num) (by unfold wellSum; ring) (by linarith) (up le_rfl), r4.weaken (by norm_num) (by norm_num) ?_ (by linarith) (up' le_rfl)⟩
  rw [powi_two]; rfl

theorem wellSumSize_pos (hc : 1 ≤ c) (h0 : 0 < η) : 0 < wellSumSize c η := by
  have ha : 0 < c * η := by positivity
  have := Real.sinh_pos_iff.2 ha
  have := Real.sinh_pos_iff.2 h0
  have := Real.cosh_pos (c * η)
  have := Real.cosh_pos η
  unfold wellSumSize; positivity

/-- Where the partition function is resolved it is not much smaller than its terms. -/
theorem well_resolved (hc : 1 ≤ c) (h0 : 0 < η) (hD : P.ε * (84 * wellSumSize c η) ≤ wellSum c η) :
    0 < wellSum c η ∧ wellSumSize c η / wellSum c η ≤ 2 ^ (47 : ℤ) ∧ P.ε * (wellSumSize c η / wellSum c η) ≤ 1 / 84 := by
  have hp := eps_pos P
  have hM := wellSumSize_pos hc h0
  have hs : 0 < wellSum c η := lt_of_lt_of_le (by positivity) hD
  refine ⟨hs, ?_, ?_⟩
  · rw [div_le_iff₀ hs]
    have h1 : (2 : ℝ) ^ (-53 : ℤ) * (84 * wellSumSize c η) ≤ wellSum c η :=
      (mul_le_mul_of_nonneg_right P.le_ε (by positivity)).trans hD
    have h2 : (2 : ℝ) ^ (-53 : ℤ) * 84 * 2 ^ (47 : ℤ) ≥ 1 := by norm_num
    nlinarith
  · rw [← mul_div_assoc, div_le_iff₀ hs]
    linarith

/-- The nondimensional length per link. -/
theorem sized_well_length (hz : Acc z c 2 0 20) (hc : 1 ≤ c) (hc' : c ≤ 2 ^ (20 : ℤ)) (hy : Acc y η n (-100) 100) (h0 : 0 < η) (h300 : c * η ≤ 300) (hn0 : 0 ≤ n)
    (hn : n ≤ 9) (hD : P.ε * (84 * wellSumSize c η) ≤ wellSum c η) :
    Sized ((Elem.powi z 2 * y * Elem.sinh (z * y) - y * Elem.sinh y) / (z * y * Elem.cosh (z * y) - Elem.sinh (z * y) - y * Elem.cosh y + Elem.sinh y) - 3.0 / y)
      (wellSlope c η / wellSum c η - 3 / η) 53 (wellLengthSize c η) ∧ (2 : ℝ) ^ (-100 : ℤ) ≤ wellLengthSize c η ∧ wellLengthSize c η ≤ 2 ^ (190 : ℤ) := by
  obtain ⟨k1, k2⟩ := sized_well hz hc hc' hy h0 h300 hn0 hn
  obtain ⟨hs, hR, -⟩ := well_resolved hc h0 hD
  have hM := wellSumSize_pos hc h0
  have hS := k2.pos
  have hη : η ≤ c * η := le_mul_of_one_le_left h0.le hc
  have ha : 0 < c * η := by linarith
  have hslope : 0 ≤ wellSlope c η := by
    have h1 : Real.sinh η ≤ Real.sinh (c * η) := Real.sinh_le_sinh.2 hη
    have h2 := Real.sinh_pos_iff.2 h0
    have h3 : 1 ≤ c ^ 2 := one_le_pow₀ hc
    unfold wellSlope
    have h4 : η * Real.sinh η ≤ c ^ 2 * (η * Real.sinh (c * η)) :=
      (mul_le_mul_of_nonneg_left h1 h0.le).trans (le_mul_of_one_le_left (by positivity) h3)
    linarith
  have hle : wellSlope c η ≤ wellSlopeSize c η := (le_abs_self _).trans k2.size
  have hSM := wellSlopeSize_le hc h0
  have lo1 : (2 : ℝ) ^ (-200 : ℤ) ≤ wellSlopeSize c η := by
    have l := hy.lo
    rw [abs_of_pos h0] at l
    have h1 := Real.self_le_sinh_iff.2 h0.le
    have h2 := Real.sinh_pos_iff.2 ha
    have h3 := Real.sinh_pos_iff.2 h0
    have h4 : 0 ≤ c ^ 2 * η * Real.sinh (c * η) := by positivity
    have h5 : η * η ≤ η * Real.sinh η := mul_le_mul_of_nonneg_left h1 h0.le
    calc (2 : ℝ) ^ (-200 : ℤ) = 2 ^ (-100 : ℤ) * 2 ^ (-100 : ℤ) := by rw [← zpow_add₀ (by norm_num)]; norm_num
      _ ≤ η * η := mul_le_mul l l (by positivity) h0.le
      _ ≤ 1 * (c ^ 2 * η * Real.sinh (c * η) + η * Real.sinh η) := by linarith
      _ ≤ wellSlopeSize c η := by
        unfold wellSlopeSize
        exact mul_le_mul_of_nonneg_right (by linarith) (by positivity)
  have hsM : wellSum c η ≤ 2 ^ (460 : ℤ) := (le_abs_self _).trans (k1.size.trans (wellSumSize_le hc h0 h300))
  have lo2 : (2 : ℝ) ^ (-1000 : ℤ) ≤ wellSlopeSize c η / wellSum c η := by
    calc (2 : ℝ) ^ (-1000 : ℤ) ≤ 2 ^ (-200 - 460 : ℤ) := two_zpow_mono (by norm_num)
      _ = 2 ^ (-200 : ℤ) / 2 ^ (460 : ℤ) := zpow_sub₀ (by norm_num) _ _
      _ ≤ _ := div_le_div₀ hS.le lo1 hs hsM
  have q1 : wellSlopeSize c η / wellSum c η ≤ 2 ^ (67 : ℤ) := by
    rw [show (67 : ℤ) = 20 + 47 by norm_num, zpow_add₀ (by norm_num)]
    calc wellSlopeSize c η / wellSum c η ≤ c * wellSumSize c η / wellSum c η := div_le_div_of_nonneg_right hSM hs.le
      _ = c * (wellSumSize c η / wellSum c η) := by ring
      _ ≤ _ := mul_le_mul hc' hR (by positivity) (by positivity)
  have q2 : wellSlope c η * wellSumSize c η / wellSum c η ^ 2 ≤ 2 ^ (114 : ℤ) := by
    rw [show (114 : ℤ) = 67 + 47 by norm_num, zpow_add₀ (by norm_num)]
    calc wellSlope c η * wellSumSize c η / wellSum c η ^ 2 = wellSlope c η / wellSum c η * (wellSumSize c η / wellSum c η) := by field_simp
      _ ≤ _ := mul_le_mul ((div_le_div_of_nonneg_right hle hs.le).trans q1) hR (by positivity) (by positivity)
  have a3 := Acc.div (acc_three (P := P)) hy (by linarith) (by norm_num) (by norm_num)
  have e3 : (3.0 : ℝ) / η = 3 / η := by norm_num
  rw [e3] at a3
  have k3 := a3.sized (by linarith) (by linarith) (by norm_num) (by norm_num)
  have e3' : |3 / η| = 3 / η := abs_of_pos (by positivity)
  have l3 := a3.lo
  have u3 := a3.hi
  rw [e3'] at k3 l3 u3
  have n1 : 0 ≤ wellSlopeSize c η / wellSum c η := by positivity
  have n2 : 0 ≤ wellSlope c η * wellSumSize c η / wellSum c η ^ 2 := by positivity
  have hW : wellLengthSize c η ≤ 2 ^ (190 : ℤ) := by
    have h1 := q1.trans (two_zpow_mono (show (67 : ℤ) ≤ 180 by norm_num))
    have h2 := q2.trans (two_zpow_mono (show (114 : ℤ) ≤ 180 by norm_num))
    have h3 := u3.trans (two_zpow_mono (show _ ≤ (180 : ℤ) by norm_num))
    have h4 : (2 : ℝ) ^ (190 : ℤ) = 1024 * 2 ^ (180 : ℤ) := by
      rw [show (190 : ℤ) = 10 + 180 by norm_num, zpow_add₀ (by norm_num)]; norm_num
    unfold wellLengthSize
    rw [h4]
    clear h4
    generalize (2 : ℝ) ^ (180 : ℤ) = A at *
    linarith
  have h590 : (2 : ℝ) ^ (190 : ℤ) ≤ 2 ^ (590 : ℤ) := two_zpow_mono (by norm_num)
  have k4 := k2.quot k1 hs (by norm_num) (by linarith) (W := wellSlopeSize c η / wellSum c η + wellSlope c η * wellSumSize c η / wellSum c η ^ 2)
    (by rw [abs_of_nonneg hslope]) lo2 ((show _ ≤ wellLengthSize c η by unfold wellLengthSize; linarith).trans (hW.trans h590)) (by norm_num)
  have k5 := k4.sub (k3.weaken (q' := 51) (by linarith) (by norm_num) rfl le_rfl k3.hi)
    ((show _ ≤ wellLengthSize c η by unfold wellLengthSize; linarith).trans (hW.trans h590)) (by norm_num) (by norm_num)
  refine ⟨k5.weaken (by norm_num) (by norm_num) rfl le_rfl (hW.trans h590), ?_, hW⟩
  refine (two_zpow_mono (show (-100 : ℤ) ≤ 1 - 100 by norm_num)).trans (l3.trans ?_)
  unfold wellLengthSize; linarith

end Polymers.Props
