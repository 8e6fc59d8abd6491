import Verif.Lemmas.LatticeCount
import Verif.Props.Prestress

/-!
C84: the fraction of intact chains which the damage model reports before anything was stretched.
-/

namespace Polymers.Props

open Real Set Polymers.Spec Polymers.Lemmas
open Polymers.constitutive.hyperelastic_damage.buche_silberstein

/-! The mean of the index under the weights `j exp (-a j²)`. -/

theorem cubes_le {a : ℝ} (ha : 0 < a) (n : ℕ) :
    ∑ j ∈ Finset.range (n + 1), 2 * a * ((j:ℝ) + 1) ^ 3 * exp (-(a * (j + 1) ^ 2)) ≤
      1 + 3 * (∑ j ∈ Finset.range n, ((j:ℝ) + 1) * exp (-(a * (j + 1) ^ 2))) -
        ((n:ℝ) + 1) ^ 2 * exp (-(a * ((n + 1) * (n + 2)))) := by
  have step : ∀ j : ℕ, 2 * a * ((j:ℝ) + 1) ^ 3 * exp (-(a * (j + 1) ^ 2)) ≤
      ((j:ℝ) + 1) ^ 2 * (exp (-(a * (j * (j + 1)))) - exp (-(a * ((j + 1) * (j + 2))))) := fun j => by
    have h1 : a * ((j:ℝ) + 1) ≤ sinh (a * (j + 1)) := self_le_sinh_iff.2 (by positivity)
    rw [sinh_eq] at h1
    have e1 : exp (-(a * ((j:ℝ) * (j + 1)))) = exp (-(a * (j + 1) ^ 2)) * exp (a * (j + 1)) := by
      rw [← exp_add]; congr 1; ring
    have e2 : exp (-(a * (((j:ℝ) + 1) * (j + 2)))) = exp (-(a * (j + 1) ^ 2)) * exp (-(a * (j + 1))) := by
      rw [← exp_add]; congr 1; ring
    rw [e1, e2]
    have := mul_le_mul_of_nonneg_left h1 (show 0 ≤ 2 * ((j:ℝ) + 1) ^ 2 * exp (-(a * (j + 1) ^ 2)) by positivity)
    linarith
  induction n with
  | zero =>
    have := step 0
    simp only [zero_add, Finset.sum_range_one, Finset.range_zero, Finset.sum_empty, Nat.cast_zero] at this ⊢
    simp only [zero_mul, mul_zero, neg_zero, exp_zero] at this
    linarith
  | succ n ih =>
    rw [Finset.sum_range_succ (n := n + 1), Finset.sum_range_succ (fun j : ℕ => ((j:ℝ) + 1) * exp (-(a * (j + 1) ^ 2)))]
    have h1 := step (n + 1)
    push_cast at h1 ⊢
    have e : ((n:ℝ) + 1) * (n + 1 + 1) = (n + 1) * (n + 2) := by ring
    rw [e] at h1
    have h2 : exp (-(a * (((n:ℝ) + 1) * (n + 2)))) ≤ exp (-(a * (n + 1) ^ 2)) :=
      exp_le_exp.2 (neg_le_neg (mul_le_mul_of_nonneg_left (by nlinarith [(Nat.cast_nonneg n : (0:ℝ) ≤ n)]) ha.le))
    have h3 := mul_le_mul_of_nonneg_left h2 (show 0 ≤ 3 * ((n:ℝ) + 1) by positivity)
    have h4 := exp_pos (-(a * (((n:ℝ) + 1) * (n + 2))))
    have hn : (0:ℝ) ≤ n := Nat.cast_nonneg n
    have h5 : 0 ≤ (n:ℝ) * exp (-(a * (((n:ℝ) + 1) * (n + 2)))) := by positivity
    linarith only [ih, h1, h3, h4, h5]

theorem mean_index_le {a : ℝ} (ha : 0 < a) (ha' : a ≤ 9 / 10) :
    3 / 5 * √a * ∑ j ∈ Finset.range 256, ((j:ℝ) + 1) ^ 2 * exp (-(a * (j + 1) ^ 2)) ≤
      ∑ j ∈ Finset.range 256, ((j:ℝ) + 1) * exp (-(a * (j + 1) ^ 2)) := by
  have h3 := cubes_le ha 255
  have hf1 : ∑ j ∈ Finset.range 255, ((j:ℝ) + 1) * exp (-(a * (j + 1) ^ 2)) ≤
      ∑ j ∈ Finset.range 256, ((j:ℝ) + 1) * exp (-(a * (j + 1) ^ 2)) :=
    Finset.sum_le_sum_of_subset_of_nonneg (by intro x; simp; omega) fun j _ _ => by positivity
  have hf2 : exp (-a) ≤ ∑ j ∈ Finset.range 256, ((j:ℝ) + 1) * exp (-(a * (j + 1) ^ 2)) := by
    have := Finset.single_le_sum (f := fun j : ℕ => ((j:ℝ) + 1) * exp (-(a * (j + 1) ^ 2))) (s := Finset.range 256)
      (fun j _ => by positivity) (show 0 ∈ Finset.range 256 by simp)
    simpa using this
  have hcs := Finset.sum_mul_sq_le_sq_mul_sq (Finset.range 256)
    (fun j : ℕ => √(((j:ℝ) + 1) * exp (-(a * (j + 1) ^ 2)))) (fun j : ℕ => √(((j:ℝ) + 1) ^ 3 * exp (-(a * (j + 1) ^ 2))))
  have e1 : ∀ j : ℕ, √(((j:ℝ) + 1) * exp (-(a * (j + 1) ^ 2))) * √(((j:ℝ) + 1) ^ 3 * exp (-(a * (j + 1) ^ 2))) =
      ((j:ℝ) + 1) ^ 2 * exp (-(a * (j + 1) ^ 2)) := fun j => by
    rw [← sqrt_mul (by positivity), show ((j:ℝ) + 1) * exp (-(a * (j + 1) ^ 2)) * (((j:ℝ) + 1) ^ 3 * exp (-(a * (j + 1) ^ 2))) =
      (((j:ℝ) + 1) ^ 2 * exp (-(a * (j + 1) ^ 2))) ^ 2 by ring, sqrt_sq (by positivity)]
  have e2 : ∀ j : ℕ, √(((j:ℝ) + 1) * exp (-(a * (j + 1) ^ 2))) ^ 2 = ((j:ℝ) + 1) * exp (-(a * (j + 1) ^ 2)) :=
    fun j => sq_sqrt (by positivity)
  have e3 : ∀ j : ℕ, √(((j:ℝ) + 1) ^ 3 * exp (-(a * (j + 1) ^ 2))) ^ 2 = ((j:ℝ) + 1) ^ 3 * exp (-(a * (j + 1) ^ 2)) :=
    fun j => sq_sqrt (by positivity)
  simp only [e1, e2, e3] at hcs
  have e4 : ∑ j ∈ Finset.range (255 + 1), 2 * a * ((j:ℝ) + 1) ^ 3 * exp (-(a * (j + 1) ^ 2)) =
      2 * a * ∑ j ∈ Finset.range 256, ((j:ℝ) + 1) ^ 3 * exp (-(a * (j + 1) ^ 2)) := by
    rw [Finset.mul_sum]; exact Finset.sum_congr rfl fun j _ => by ring
  rw [e4] at h3
  have h20 : 0 ≤ ∑ j ∈ Finset.range 256, ((j:ℝ) + 1) ^ 2 * exp (-(a * (j + 1) ^ 2)) := Finset.sum_nonneg fun j _ => by positivity
  have hE : exp a ≤ 2.5 := by
    have h1 : exp a ≤ exp (9 / 10) := exp_le_exp.2 ha'
    have h2 : exp (9 / 10 : ℝ) ≤ 2.5 := by
      have := exp_bound' (x := 9 / 10) (n := 8) (by norm_num) (by norm_num) (by norm_num)
      refine this.trans ?_
      simp [Finset.sum_range_succ, Nat.factorial]
      norm_num
    linarith
  have hend : 0 ≤ ((255 : ℕ) + 1 : ℝ) ^ 2 * exp (-(a * (((255 : ℕ) + 1) * ((255 : ℕ) + 2)))) := by positivity
  generalize ∑ j ∈ Finset.range 256, ((j:ℝ) + 1) ^ 2 * exp (-(a * (j + 1) ^ 2)) = S2 at *
  generalize ∑ j ∈ Finset.range 256, ((j:ℝ) + 1) ^ 3 * exp (-(a * (j + 1) ^ 2)) = S3 at *
  generalize ∑ j ∈ Finset.range 256, ((j:ℝ) + 1) * exp (-(a * (j + 1) ^ 2)) = S1 at *
  generalize ∑ j ∈ Finset.range 255, ((j:ℝ) + 1) * exp (-(a * (j + 1) ^ 2)) = T1 at *
  have hS1 : 0 < S1 := (exp_pos _).trans_le hf2
  have h1 : 1 ≤ 2.5 * S1 := by
    have e : exp a * exp (-a) = 1 := by rw [← exp_add]; simp
    calc (1:ℝ) = exp a * exp (-a) := e.symm
      _ ≤ 2.5 * S1 := mul_le_mul hE hf2 (exp_pos _).le (by norm_num)
  have h4 : 2 * a * S3 ≤ 5.5 * S1 := by linarith
  refine abs_le_of_sq_le_sq' ?_ hS1.le |>.2
  rw [mul_pow, mul_pow, sq_sqrt ha.le]
  have h5 := mul_le_mul_of_nonneg_left hcs ha.le
  have h6 := mul_le_mul_of_nonneg_left h4 hS1.le
  nlinarith

/-! The network at rest. -/

/-- The number of chains at rest is the sum over the quarter of the disk divided by the sum along the axis. -/
theorem fraction_at_rest {c F : ℝ} (hc : 0 < c) {v : ℝ} {N : ℕ} (hF : F = 3 * N / (2 * v)) :
    networkFraction (endRule c) (network (gaussianExponent N v) c 1 1 1 1) =
      (∑ i ∈ Finset.range 256, ∑ j ∈ Finset.range 256, if (i + 1) ^ 2 + (j + 1) ^ 2 ≤ 65536 then
        ((j:ℝ) + 1) * exp (-(F * (c / 256) ^ 2)) ^ ((i + 1) ^ 2 + (j + 1) ^ 2) else 0) /
      ∑ j ∈ Finset.range 256, ((j:ℝ) + 1) ^ 2 * exp (-(F * (c / 256) ^ 2)) ^ ((j + 1) ^ 2) := by
  set u := c / 256 with hu
  have hu0 : 0 < u := by positivity
  have ez : ∀ i : ℕ, c * ((i : ℝ) + 1) / 256 = u * (i + 1) := fun i => by rw [hu]; ring
  have hden : (endRule c fun x => x ^ 2 * exp (-gaussianExponent N v x)) =
      u ^ 3 * ∑ j ∈ Finset.range 256, ((j:ℝ) + 1) ^ 2 * exp (-(F * u ^ 2)) ^ ((j + 1) ^ 2) := by
    unfold endRule gaussianExponent
    rw [Finset.mul_sum]
    refine Finset.sum_congr rfl fun j _ => ?_
    rw [ez, ← exp_nat_mul, ← hu, ← hF]
    have : -(F * (u * ((j:ℝ) + 1)) ^ 2) = (((j + 1) ^ 2 : ℕ) : ℝ) * -(F * u ^ 2) := by push_cast; ring
    beta_reduce
    rw [this]
    ring
  have hd0 : 0 < ∑ j ∈ Finset.range 256, ((j:ℝ) + 1) ^ 2 * exp (-(F * u ^ 2)) ^ ((j + 1) ^ 2) :=
    Finset.sum_pos (fun j _ => by positivity) ⟨0, by simp⟩
  unfold networkFraction
  conv_lhs => rw [endRule]
  rw [eq_div_iff hd0.ne', Finset.sum_mul]
  refine Finset.sum_congr rfl fun i _ => ?_
  rw [endRule, Finset.sum_mul, Finset.sum_mul]
  refine Finset.sum_congr rfl fun j _ => ?_
  rw [ez, ez]
  have eg : √((u * ((i : ℝ) + 1)) ^ 2 + (u * (j + 1)) ^ 2) = u * √(((i + 1) ^ 2 + (j + 1) ^ 2 : ℕ) : ℝ) := by
    rw [← sqrt_sq hu0.le, ← sqrt_mul (by positivity), sqrt_sq hu0.le]
    congr 1
    push_cast
    ring
  have ei : intact c 1 1 (u * ((i : ℝ) + 1)) (u * (j + 1)) = if (i + 1) ^ 2 + (j + 1) ^ 2 ≤ 65536 then 1 else 0 := by
    unfold intact restLength
    rw [div_one, div_one, one_mul, eg]
    have : u * √(((i + 1) ^ 2 + (j + 1) ^ 2 : ℕ) : ℝ) ≤ c ↔ (i + 1) ^ 2 + (j + 1) ^ 2 ≤ 65536 := by
      have ec : c = u * 256 := by rw [hu]; ring
      rw [ec, mul_le_mul_iff_right₀ hu0, sqrt_le_left (by norm_num)]
      constructor
      · intro h
        have h' : (((i + 1) ^ 2 + (j + 1) ^ 2 : ℕ) : ℝ) ≤ ((65536 : ℕ) : ℝ) := by
          refine h.trans (le_of_eq ?_); norm_num
        exact_mod_cast h'
      · intro h
        have h' : (((i + 1) ^ 2 + (j + 1) ^ 2 : ℕ) : ℝ) ≤ ((65536 : ℕ) : ℝ) := by exact_mod_cast h
        refine h'.trans (le_of_eq ?_); norm_num
    simp only [this]
  have ed : density (endRule c) (gaussianExponent N v) (restLength 1 (u * ((i : ℝ) + 1)) (u * (j + 1)) / 1) =
      exp (-(F * u ^ 2)) ^ ((i + 1) ^ 2 + (j + 1) ^ 2) /
        (4 * π * (u ^ 3 * ∑ j ∈ Finset.range 256, ((j:ℝ) + 1) ^ 2 * exp (-(F * u ^ 2)) ^ ((j + 1) ^ 2))) := by
    unfold density
    rw [hden, ← exp_nat_mul]
    congr 2
    unfold gaussianExponent restLength
    rw [div_one, div_one, one_mul, sq_sqrt (by positivity), ← hF]
    push_cast
    ring
  unfold network
  rw [ei, ed]
  have := pi_pos
  rw [hu] at *
  split_ifs
  · field_simp
  · ring

/-- The stretches of a history which never left the rest state, and their maximum. -/
theorem rest_history {hist : List ℝ} {k : ℕ} (hk' : k < hist.length) (hrest : ∀ s ∈ hist.take (k + 1), s = 1) :
    runningMax hist k = 1 ∧ hist[k] = 1 := by
  constructor
  · unfold runningMax
    have : ∀ l : List ℝ, (∀ s ∈ l, s = 1) → l.foldl max 1 = 1 := by
      intro l
      induction l with
      | nil => intro _; rfl
      | cons a l ih =>
        intro h
        rw [List.foldl_cons, h a (by simp), max_self]
        exact ih fun s hs => h s (by simp [hs])
    exact this _ hrest
  · exact hrest _ (by rw [List.mem_take_iff_getElem]; exact ⟨k, by omega, rfl⟩)

/-- C84: with the Gaussian distribution (method 3) a network which was neither swollen nor stretched is reported to have lost
some of its chains, whatever the parameters. -/
theorem C84_fraction_at_rest_lt {L : ℕ} {c κ : ℝ} {N : ℕ} {model : BucheSilberstein ℝ} (hc : 0 < c) (hκ : 0 < κ)
    (h : BucheSilberstein.init 3 c κ N 1 = some model) {hist : List ℝ} {out : List (ℝ × ℝ)}
    (ho : model.uniaxial_tension L hist = some out) {k : ℕ} (hk : k < L) (hk' : k < hist.length)
    (hrest : ∀ s ∈ hist.take (k + 1), s = 1) : ∃ σ p, out[k]? = some (σ, p) ∧ 0 < p ∧ p < 1 := by
  refine ⟨_, _, C79_gaussian hκ one_pos h ho hk hk', ?_⟩
  obtain ⟨hm, h1k⟩ := rest_history hk' hrest
  rw [hm, h1k, one_rpow, fraction_at_rest hc rfl]
  have hv0 : 0 < meanSquareLink κ := by rw [meanSquareLink_eq hκ]; positivity
  set q := exp (-(3 * N / (2 * meanSquareLink κ) * (c / 256) ^ 2)) with hq
  have hq0 : 0 < q := exp_pos _
  have hq1 : q ≤ 1 := exp_le_one_iff.2 (neg_nonpos.2 (by positivity))
  have hd0 : 0 < ∑ j ∈ Finset.range 256, ((j:ℝ) + 1) ^ 2 * q ^ ((j + 1) ^ 2) :=
    Finset.sum_pos (fun j _ => by positivity) ⟨0, by simp⟩
  have hd1 : 0 < ∑ j ∈ Finset.range 256, ((j:ℝ) + 1) * q ^ ((j + 1) ^ 2) :=
    Finset.sum_pos (fun j _ => by positivity) ⟨0, by simp⟩
  constructor
  · refine div_pos ?_ hd0
    obtain ⟨M, hM⟩ : ∃ M : ℕ, M = 65536 := ⟨_, rfl⟩
    simp only [← hM]
    refine Finset.sum_pos' (fun i _ => Finset.sum_nonneg fun j _ => ?_) ⟨0, by simp, Finset.sum_pos' (fun j _ => ?_) ⟨0, by simp, ?_⟩⟩
    · split_ifs <;> positivity
    · split_ifs <;> positivity
    · rw [if_pos (by omega)]; positivity
  · rw [div_lt_one hd0]
    have := count_geometric hq0.le hq1
    linarith

/-- C84: the missing fraction grows with the number of links and the critical extension. -/
theorem C84_fraction_at_rest_le {L : ℕ} {c κ : ℝ} {N : ℕ} {model : BucheSilberstein ℝ} (hc : 0 < c) (hκ : 0 < κ) (hN : 0 < N)
    (hcN : 3 * N / (2 * meanSquareLink κ) * (c / 256) ^ 2 ≤ 9 / 10)
    (h : BucheSilberstein.init 3 c κ N 1 = some model) {hist : List ℝ} {out : List (ℝ × ℝ)}
    (ho : model.uniaxial_tension L hist = some out) {k : ℕ} (hk : k < L) (hk' : k < hist.length)
    (hrest : ∀ s ∈ hist.take (k + 1), s = 1) :
    ∃ σ p, out[k]? = some (σ, p) ∧ p ≤ 1 - c / 256 * √(3 * N / (2 * meanSquareLink κ)) / 5 := by
  refine ⟨_, _, C79_gaussian hκ one_pos h ho hk hk', ?_⟩
  obtain ⟨hm, h1k⟩ := rest_history hk' hrest
  rw [hm, h1k, one_rpow, fraction_at_rest hc rfl]
  have hv0 : 0 < meanSquareLink κ := by rw [meanSquareLink_eq hκ]; positivity
  have hNr : (0:ℝ) < N := by exact_mod_cast hN
  have hF0 : 0 < 3 * N / (2 * meanSquareLink κ) := by positivity
  generalize 3 * N / (2 * meanSquareLink κ) = F at *
  have ha : 0 < F * (c / 256) ^ 2 := by positivity
  have hmean := mean_index_le ha hcN
  rw [sqrt_mul hF0.le, sqrt_sq (by positivity)] at hmean
  have hq0 : 0 < exp (-(F * (c / 256) ^ 2)) := exp_pos _
  have hq1 : exp (-(F * (c / 256) ^ 2)) ≤ 1 := exp_le_one_iff.2 (neg_nonpos.2 (by positivity))
  have hg := count_geometric hq0.le hq1
  have eq : ∀ j : ℕ, exp (-(F * (c / 256) ^ 2 * ((j:ℝ) + 1) ^ 2)) = exp (-(F * (c / 256) ^ 2)) ^ ((j + 1) ^ 2) := fun j => by
    rw [← exp_nat_mul]
    congr 1
    push_cast
    ring
  simp only [eq] at hmean
  have hd0 : 0 < ∑ j ∈ Finset.range 256, ((j:ℝ) + 1) ^ 2 * exp (-(F * (c / 256) ^ 2)) ^ ((j + 1) ^ 2) :=
    Finset.sum_pos (fun j _ => by positivity) ⟨0, by simp⟩
  rw [div_le_iff₀ hd0]
  refine hg.trans ?_
  rw [sub_mul, one_mul]
  linarith

/-- C84, concrete case: of the dry network of chains of 255 links of stiffness 50 with a critical extension of 1.5, at the
first step of any history that begins at rest, more than two chains in a hundred are missing. -/
example {model : BucheSilberstein ℝ} (h : BucheSilberstein.init 3 (3 / 2) 50 255 1 = some model) {hist : List ℝ}
    {out : List (ℝ × ℝ)} (ho : model.uniaxial_tension 5 (1 :: hist) = some out) :
    ∃ σ p, out[0]? = some (σ, p) ∧ p ≤ 98 / 100 := by
  have hv : meanSquareLink 50 = 2803 / 2550 := by rw [meanSquareLink_eq (by norm_num)]; norm_num
  obtain ⟨σ, p, h1, h2⟩ := C84_fraction_at_rest_le (by norm_num) (by norm_num) (by norm_num) (by rw [hv]; norm_num) h ho (k := 0)
    (by norm_num) (by simp) (by simp)
  refine ⟨σ, p, h1, h2.trans ?_⟩
  rw [hv]
  have : (18:ℝ) ≤ √(3 * (255 : ℕ) / (2 * (2803 / 2550))) := by refine le_sqrt_of_sq_le ?_; norm_num
  linarith

/-- C84, concrete case: the same for any history that begins at rest. -/
example {model : BucheSilberstein ℝ} (h : BucheSilberstein.init 3 (3 / 2) 50 8 1 = some model) {hist : List ℝ}
    {out : List (ℝ × ℝ)} (ho : model.uniaxial_tension 5 (1 :: hist) = some out) :
    ∃ σ p, out[0]? = some (σ, p) ∧ 0 < p ∧ p < 1 :=
  C84_fraction_at_rest_lt (by norm_num) (by norm_num) h ho (by norm_num) (by simp) (by simp)

end Polymers.Props
