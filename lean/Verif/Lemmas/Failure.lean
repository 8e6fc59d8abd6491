import Verif.Model.SReal
import Verif.Lemmas.Treloar

/-! Panics and undefined values of the sums of Treloar. -/

namespace Polymers.Lemmas

open Polymers.SReal Polymers.fjc.thermodynamics

theorem foldl_panic (l : List SReal) : l.foldl (fun a x => a + x) SReal.panic = SReal.panic := by
  induction l with
  | nil => rfl
  | cons a l ih => simpa using ih

theorem foldl_mem_panic {l : List SReal} (h : SReal.panic ∈ l) (a : SReal) :
    l.foldl (fun a x => a + x) a = SReal.panic := by
  induction l generalizing a with
  | nil => simp at h
  | cons b l ih =>
    rcases List.mem_cons.1 h with rfl | h
    · simp [foldl_panic]
    · exact ih h _

theorem fsum_panic {l : List SReal} (h : SReal.panic ∈ l) : fsum l = SReal.panic := foldl_mem_panic h _

theorem add_ne_panic {a b : SReal} (ha : a ≠ SReal.panic) (hb : b ≠ SReal.panic) : a + b ≠ SReal.panic := by
  rcases a with a | _ | _ <;> rcases b with b | _ | _ <;> simp at *

theorem sub_ne_panic {a b : SReal} (ha : a ≠ SReal.panic) (hb : b ≠ SReal.panic) : a - b ≠ SReal.panic := by
  rcases a with a | _ | _ <;> rcases b with b | _ | _ <;> simp at *

theorem mul_ne_panic {a b : SReal} (ha : a ≠ SReal.panic) (hb : b ≠ SReal.panic) : a * b ≠ SReal.panic := by
  rcases a with a | _ | _ <;> rcases b with b | _ | _ <;> simp at *

theorem div_ne_panic {a b : SReal} (ha : a ≠ SReal.panic) (hb : b ≠ SReal.panic) : a / b ≠ SReal.panic := by
  rcases a with a | _ | _ <;> rcases b with b | _ | _ <;> simp at *
  by_cases h : b = 0
  · subst h; simp
  · simp [h]

theorem neg_ne_panic {a : SReal} (ha : a ≠ SReal.panic) : -a ≠ SReal.panic := by
  rcases a with a | _ | _ <;> simp at *

theorem ln_ne_panic {a : SReal} (ha : a ≠ SReal.panic) : Elem.ln a ≠ SReal.panic := by
  rcases a with a | _ | _
  · by_cases h : 0 < a
    · simp [h]
    · simp [ln_undef (not_lt.1 h)]
  · simp
  · simp at ha

theorem powi_ne_panic {a : SReal} (ha : a ≠ SReal.panic) (n : ℤ) : Elem.powi a n ≠ SReal.panic := by
  rcases a with a | _ | _
  · by_cases h : a ≠ 0 ∨ 0 ≤ n
    · simp [powi_val h]
    · push Not at h
      rw [h.1, powi_undef h.2]; simp
  · simp
  · simp at ha

theorem foldl_ne_panic {l : List SReal} (h : ∀ a ∈ l, a ≠ SReal.panic) {a : SReal} (ha : a ≠ SReal.panic) :
    l.foldl (fun a x => a + x) a ≠ SReal.panic := by
  induction l generalizing a with
  | nil => exact ha
  | cons b l ih =>
    exact ih (fun c hc => h c (List.mem_cons_of_mem _ hc)) (add_ne_panic ha (h b (by simp)))

theorem fsum_ne_panic {l : List SReal} (h : ∀ a ∈ l, a ≠ SReal.panic) : fsum l ≠ SReal.panic :=
  foldl_ne_panic h (by simp)

theorem foldl_val {ι : Type} (l : List ι) (f : ι → SReal) (g : ι → ℝ) (h : ∀ i ∈ l, f i = val (g i)) (a : ℝ) :
    (l.map f).foldl (fun a x => a + x) (val a) = val ((l.map g).foldl (fun a x => a + x) a) := by
  induction l generalizing a with
  | nil => rfl
  | cons b l ih =>
    simp only [List.map_cons, List.foldl_cons, h b (by simp), add_val]
    exact ih (fun i hi => h i (List.mem_cons_of_mem _ hi)) _

theorem fsum_val {ι : Type} (l : List ι) (f : ι → SReal) (g : ι → ℝ) (h : ∀ i ∈ l, f i = val (g i)) :
    fsum (l.map f) = val (fsum (l.map g)) := by
  unfold fsum
  rw [← foldl_val l f g h]
  simp

theorem treloar_coefficient_none {n s : ℕ} : treloar_coefficient n s = none ↔ n < s ∨ 35 ≤ n := by
  constructor
  · intro h
    by_contra hc
    push Not at hc
    rw [treloar_coefficient_eq (by omega) hc.1] at h
    simp at h
  · intro h
    unfold treloar_coefficient
    by_cases hs : n < s
    · rw [if_pos hs]
    · rw [if_neg hs, product_u128_eq, if_neg (by
        have := le_factorial (n := n) (by omega)
        omega)]
      rfl

theorem treloar_k_val (N : ℕ) (γ : ℝ) : treloar_k N (val γ) = min (2 ^ 128 - 1) ⌈treloarX N γ⌉₊ := by
  have e : (N : ℝ) * (-γ * 0.5 + 0.5) = treloarX N γ := by unfold treloarX; norm_num; left; ring
  have hf : ⌊((⌈treloarX N γ⌉ : ℤ) : ℝ)⌋₊ = ⌈treloarX N γ⌉₊ := by
    rw [← Int.floor_toNat, Int.floor_intCast, Int.ceil_toNat]
  unfold treloar_k
  simp only [natCast_val, neg_val, lit_val, mul_val, add_val, ceil_val, toNat_val]
  rw [e, hf]

theorem powf_neg_one (s : ℕ) : Elem.powf (-1.0 : SReal) ((s : ℕ) : SReal) = val ((-1.0 : ℝ) ^ (s : ℝ)) := by
  have : (-1.0 : SReal) = val (-1.0) := by simp
  rw [this, natCast_val, powf_val]
  right; right
  exact ⟨by norm_num, s, by simp⟩

/-- One sum panics for no terms, and for a binomial coefficient that cannot be evaluated. -/
theorem treloar_sum_panics {N : ℕ} {γ : ℝ} (e : ℤ) :
    treloar_sum N (val γ) e = SReal.panic ↔ 1 ≤ γ ∨ N = 0 ∨ 35 ≤ N ∨ γ < -1 - 2 / (N : ℝ) := by
  rcases Nat.eq_zero_or_pos N with rfl | hN0
  · have : treloar_k 0 (val γ) = 0 := by rw [treloar_k_val]; simp [treloarX]
    simp [treloar_sum, this]
  have hN' : (0 : ℝ) < N := by exact_mod_cast hN0
  have hk0 : treloar_k N (val γ) = 0 ↔ 1 ≤ γ := by
    rw [treloar_k_val]
    have h1 : ⌈treloarX N γ⌉₊ = 0 ↔ 1 ≤ γ := by
      rw [Nat.ceil_eq_zero]
      unfold treloarX
      constructor
      · intro h; nlinarith
      · intro h; nlinarith
    rw [← h1]
    omega
  by_cases h1 : 1 ≤ γ
  · simp [treloar_sum, hk0.2 h1, h1]
  have hk : treloar_k N (val γ) ≠ 0 := fun h => h1 (hk0.1 h)
  have h0 : treloar_sum N (val γ) e = fsum ((List.range (treloar_k N (val γ))).map fun (s : Nat) =>
      match treloar_coefficient N s with
      | some c => Elem.powf (-1.0) (s : SReal) * (c : SReal) *
          Elem.powi ((-(val γ)) * 0.5 + 0.5 - (s : SReal) / (N : SReal)) e
      | none => Elem.panic) := by
    unfold treloar_sum
    simp only [beq_iff_eq, hk, if_false]
    rfl
  by_cases h35 : 35 ≤ N
  · refine iff_of_true ?_ (by tauto)
    rw [h0]
    refine fsum_panic (List.mem_map.2 ⟨0, List.mem_range.2 (Nat.pos_of_ne_zero hk), ?_⟩)
    rw [treloar_coefficient_none.2 (Or.inr h35)]
    rfl
  have hkN : N + 1 < treloar_k N (val γ) ↔ γ < -1 - 2 / (N : ℝ) := by
    rw [treloar_k_val]
    have h2 : N + 1 < ⌈treloarX N γ⌉₊ ↔ γ < -1 - 2 / (N : ℝ) := by
      rw [Nat.lt_ceil]
      unfold treloarX
      push_cast
      have h3 : γ < -1 - 2 / (N : ℝ) ↔ 2 / (N : ℝ) < -1 - γ := by constructor <;> intro h <;> linarith
      rw [h3, div_lt_iff₀ hN']
      constructor <;> intro h <;> nlinarith
    rw [← h2]
    omega
  by_cases hlow : γ < -1 - 2 / (N : ℝ)
  · refine iff_of_true ?_ (by tauto)
    rw [h0]
    refine fsum_panic (List.mem_map.2 ⟨N + 1, List.mem_range.2 (hkN.2 hlow), ?_⟩)
    rw [treloar_coefficient_none.2 (Or.inl (by omega))]
    rfl
  · refine iff_of_false ?_ ?_
    · rw [h0]
      refine fsum_ne_panic fun a ha => ?_
      obtain ⟨s, hs, rfl⟩ := List.mem_map.1 ha
      have hs := List.mem_range.1 hs
      have : ¬ N + 1 < treloar_k N (val γ) := fun h => hlow (hkN.1 h)
      rw [treloar_coefficient_eq (by omega) (by omega)]
      dsimp only
      refine mul_ne_panic (mul_ne_panic ?_ (by simp)) (powi_ne_panic (sub_ne_panic (by simp) (div_ne_panic (by simp) (by simp))) _)
      rw [powf_neg_one]; simp
    · push Not
      exact ⟨not_le.1 h1, hN0.ne', by omega, not_lt.1 hlow⟩

/-- Inside its range one sum has the value of the same sum over the reals. -/
theorem treloar_sum_value {N : ℕ} (hN0 : 0 < N) (hN : N ≤ 34) {γ : ℝ} (h : -1 ≤ γ) (h1 : γ < 1) (e : ℤ) :
    treloar_sum N (val γ) e = val (treloar_sum N γ e) := by
  have hN' : (0 : ℝ) < N := by exact_mod_cast hN0
  have hkle : ⌈treloarX N γ⌉₊ ≤ N := by
    refine Nat.ceil_le.2 ?_
    unfold treloarX
    nlinarith
  have hk0 : ⌈treloarX N γ⌉₊ ≠ 0 := (Nat.ceil_pos.2 (treloarX_pos hN0 h1)).ne'
  have hk : treloar_k N (val γ) = ⌈treloarX N γ⌉₊ := by rw [treloar_k_val]; omega
  unfold treloar_sum
  simp only [hk, treloar_k_eq N hN h, beq_iff_eq, hk0, if_false]
  refine fsum_val _ _ _ fun s hs => ?_
  have hs := List.mem_range.1 hs
  rw [treloar_coefficient_eq hN (by omega)]
  dsimp only
  have hs' := Nat.lt_ceil.1 hs
  have hne : -γ * 0.5 + 0.5 - (s : ℝ) / N ≠ 0 := by
    have e : (-γ * 0.5 + 0.5 - (s : ℝ) / N) * N = treloarX N γ - s := by
      unfold treloarX
      rw [sub_mul, div_mul_cancel₀ _ hN'.ne']
      norm_num
      ring
    intro hc
    rw [hc, zero_mul] at e
    linarith
  rw [powf_neg_one]
  simp only [natCast_val, mul_val, lit_val, neg_val, add_val, div_val _ hN'.ne', sub_val, powi_val_ne hne,
    elem_powf, elem_powi]

end Polymers.Lemmas
