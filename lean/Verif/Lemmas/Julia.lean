import Verif.Model.JuliaBase
import Verif.Model.Math
import Verif.Spec.Arrays
import Mathlib.Tactic.SplitIfs

/-! The quadrature and the broadcasting of the Julia package. -/

namespace Polymers.Julia

open Polymers.Spec

set_option linter.unusedSectionVars false

section

variable {α : Type} [Add α] [Sub α] [Mul α] [Div α] [Neg α] [OfScientific α] [NatCast α] [Elem α]

/-- `integrate` of the Julia package is `integrate_1d` of the Rust crate. -/
theorem integrate_eq (f : α → α) (a b : α) (n : Nat) : integrate f a b n = math.integrate_1d f a b n := by
  simp only [integrate, math.integrate_1d, List.map_map]
  rfl

end

namespace JArr

variable {β γ δ ε : Type}

theorem clip_clip : ∀ d i : List Nat, clip d (clip d i) = clip d i
  | [], _ => rfl
  | a :: d, [] => by
    rw [clip, clip, clip_clip d []]
    split <;> rfl
  | a :: d, j :: i => by
    rw [clip, clip, clip_clip d i]
    split <;> rfl

theorem clip_eq : ∀ d i : List Nat, InBounds d i → clip d i = i
  | [], [], _ => rfl
  | [], _ :: _, h => h.elim
  | _ :: _, [], h => h.elim
  | a :: d, j :: i, h => by
    have h1 : j < a := h.1
    rw [clip, clip_eq d i h.2]
    split
    · rw [show j = 0 by omega]
    · rfl

theorem shape_self : ∀ d : List Nat, shape d d = some d
  | [] => rfl
  | a :: d => by
    rw [shape, shape_self d, if_pos rfl]
    rfl

theorem shape_nil (d : List Nat) : shape d [] = some d := by
  cases d <;> rfl

/-- Replacing the last argument by a number. -/
theorem ap_map_scalar (f : β → γ → δ) (a : JArr β) (y : γ) : ap (map f a) (scalar y) = map (fun x => f x y) a := by
  simp only [ap, map, scalar, Option.bind_some, shape_nil, Option.map_some, clip_clip]

theorem clip_shape_left : ∀ a b d : List Nat, shape a b = some d → ∀ i, clip a (clip d i) = clip a i
  | [], _, _, _, _ => rfl
  | n :: a, [], d, h, i => by
    rw [shape, Option.some.injEq] at h
    rw [← h, clip_clip]
  | n :: a, p :: b, d, h, i => by
    rw [shape] at h
    obtain ⟨c, hc, h⟩ := Option.bind_eq_some_iff.1 h
    obtain ⟨r, hr, h⟩ := Option.map_eq_some_iff.1 h
    have e := clip_shape_left a b r hr
    have hcn : c = 1 → n = 1 := by
      intro h1
      split_ifs at hc <;> simp only [Option.some.injEq] at hc <;> omega
    rw [← h]
    cases i with
    | nil =>
      rw [clip, clip, clip, e]
      split <;> rfl
    | cons j i =>
      rw [clip, clip, clip, e]
      by_cases h1 : n = 1
      · rw [if_pos h1, if_pos h1]
      · rw [if_neg h1, if_neg h1, if_neg fun h => h1 (hcn h)]

theorem shape_comm : ∀ a b : List Nat, shape a b = shape b a
  | [], b => (shape_nil b).symm
  | n :: a, [] => rfl
  | n :: a, p :: b => by
    rw [shape, shape, shape_comm a b]
    congr 1
    split_ifs <;> first | rfl | omega | congr 1

theorem clip_shape_right (a b d : List Nat) (h : shape a b = some d) (i : List Nat) : clip b (clip d i) = clip b i :=
  clip_shape_left b a d (by rw [← h, shape_comm]) i

theorem ap_ap_scalar (f : β → γ → δ → ε) (a : JArr β) (b : JArr γ) (z : δ) :
    ap (ap (map f a) b) (scalar z) = ap (map (fun x y => f x y z) a) b := by
  simp only [ap, map, scalar, Option.bind_some]
  cases h : shape a.dims b.dims with
  | none => rfl
  | some d =>
    simp only [Option.map_some, Option.bind_some, shape_nil, clip_clip, clip_shape_left _ _ _ h, clip_shape_right _ _ _ h]

/-! ### Entry by entry -/

theorem get_clip {d : List Nat} {a : JArr β} (h : Fits d a) {i : List Nat} (hi : InBounds d i) :
    a.get (clip a.dims i) = pick a i := by
  rcases a with ⟨e, g⟩
  rcases h with h | h
  · simp only at h
    subst h
    simp only [pick, clip_eq _ _ hi]
    split
    · rename_i h
      subst h
      cases i with
      | nil => rfl
      | cons _ _ => exact hi.elim
    · rfl
  · simp only at h
    subst h
    rfl

theorem shape_fits {d : List Nat} {a : JArr β} {b : JArr γ} (ha : Fits d a) (hb : Fits d b) :
    shape a.dims b.dims = some d ∨ shape a.dims b.dims = some [] ∧ a.dims = [] ∧ b.dims = [] := by
  rcases ha with ha | ha <;> rcases hb with hb | hb <;> rw [ha, hb]
  · exact Or.inl (shape_self d)
  · exact Or.inl (shape_nil d)
  · exact Or.inl rfl
  · exact Or.inr ⟨rfl, rfl, rfl⟩

theorem elementwise₁ {f : β → γ} {m : JArr β → Option (JArr γ)} (h : ∀ a, m a = map f a) : Elementwise₁ f m := fun a =>
  ⟨_, h a, rfl, fun i hi => by simp only [clip_eq _ _ hi]⟩

/-- The last argument is a number. -/
theorem elementwise₁_scalar {f : β → δ} {m : JArr β → Option (JArr δ)} (y : γ)
    (h : ∀ a, m a = ap (map (fun x (_ : γ) => f x) a) (scalar y)) : Elementwise₁ f m :=
  elementwise₁ fun a => (h a).trans (ap_map_scalar _ a y)

theorem elementwise₂ {f : β → γ → δ} {m : JArr β → JArr γ → Option (JArr δ)} (h : ∀ a b, m a b = ap (map f a) b) :
    Elementwise₂ f m where
  same d a b ha hb hd := by
    have hs : shape a.dims b.dims = some d := by
      rcases shape_fits ha hb with h | ⟨h, h1, h2⟩
      · exact h
      · rcases hd with hd | hd
        · rw [h, ← h1, hd]
        · rw [h, ← h2, hd]
    rw [h]
    simp only [ap, map, Option.bind_some, hs, Option.map_some, clip_clip]
    exact ⟨_, rfl, rfl, fun i hi => by simp only [get_clip ha hi, get_clip hb hi]⟩
  table n p a b ha hb := by
    have hs : shape a.dims b.dims = some [n, p] := by
      rw [ha, hb]
      by_cases h : n = 1 <;> simp [shape, h]
    rw [h]
    simp only [ap, map, Option.bind_some, hs, Option.map_some, clip_clip]
    refine ⟨_, rfl, rfl, fun i hi => ?_⟩
    match i, hi with
    | [j, k], hi =>
      have h1 : j < n := hi.1
      have h2 : k < p := hi.2.1
      have e1 : clip a.dims [j, k] = [j] := by
        rw [ha]
        by_cases h : n = 1
        · simp [clip, h]; omega
        · simp [clip, h]
      have e2 : clip b.dims [j, k] = [0, k] := by
        rw [hb]
        by_cases h : p = 1
        · simp [clip, h]; omega
        · simp [clip, h]
      simp only [e1, e2, List.headD_cons, List.tail_cons]
  mismatch n p a b ha hb h1 h2 h3 := by
    rw [h]
    simp only [ap, map, Option.bind_some, ha, hb, shape, if_neg h1, if_neg h2, if_neg h3, Option.bind_none, Option.map_none]

theorem elementwise₃ {f : β → γ → δ → ε} {m : JArr β → JArr γ → JArr δ → Option (JArr ε)}
    (h : ∀ a b c, m a b c = ap (ap (map f a) b) c) : Elementwise₃ f m where
  same d a b c ha hb hc hd := by
    rw [h]
    rcases shape_fits ha hb with hs | ⟨hs, h1, h2⟩
    · have hs' : shape d c.dims = some d := by
        rcases hc with hc | hc <;> rw [hc]
        · exact shape_self d
        · exact shape_nil d
      simp only [ap, map, Option.bind_some, hs, Option.map_some, clip_clip, hs', clip_shape_left _ _ _ hs,
        clip_shape_right _ _ _ hs]
      exact ⟨_, rfl, rfl, fun i hi => by simp only [get_clip ha hi, get_clip hb hi, get_clip hc hi]⟩
    · have hs' : shape [] c.dims = some d := by
        rcases hd with hd | hd | hd
        · rw [← hd, h1]
          rcases hc with hc | hc
          · rw [hc, ← hd, h1]; rfl
          · rw [hc]; rfl
        · rw [← hd, h2]
          rcases hc with hc | hc
          · rw [hc, ← hd, h2]; rfl
          · rw [hc]; rfl
        · rw [hd]; rfl
      simp only [ap, map, Option.bind_some, hs, Option.map_some, clip_clip, hs', clip_shape_left _ _ _ hs,
        clip_shape_right _ _ _ hs]
      exact ⟨_, rfl, rfl, fun i hi => by simp only [get_clip ha hi, get_clip hb hi, get_clip hc hi]⟩
  mismatch n p a b c ha hb h1 h2 h3 := by
    rw [h]
    simp only [ap, map, Option.bind_some, ha, hb, shape, if_neg h1, if_neg h2, if_neg h3, Option.bind_none, Option.map_none]

/-! ### Division of a number by a vector -/

section

variable [Div β] {other : β → JArr β → Option (JArr β)}

theorem quotient_row (h : QuotientIsRow other) (x : β) {v : JArr β} {n : Nat} (hv : v.dims = [n]) :
    ∃ r, quotient other x v = some r ∧ r.dims = [1, n] := by
  obtain ⟨r, h1, h2⟩ := h x v n hv
  refine ⟨r, ?_, h2⟩
  rw [quotient, hv]
  exact h1

theorem ap_dims {f : Option (JArr (γ → δ))} {g : JArr (γ → δ)} {a : JArr γ} {d : List Nat} (hf : f = some g)
    (h : shape g.dims a.dims = some d) : ∃ r, ap f a = some r ∧ r.dims = d := by
  rw [hf]
  simp only [ap, Option.bind_some, h, Option.map_some]
  exact ⟨_, rfl, rfl⟩

theorem shape_row (n : Nat) : shape [1, n] [n] = some [n, n] := by
  by_cases h : 1 = n <;> simp [shape, h]

theorem shape_square (n : Nat) : shape [n, n] [n] = some [n, n] := by
  simp [shape]

theorem squares₁ (h : QuotientIsRow other) (x : β) (f : β → γ → δ) {m : JArr γ → JArr β → Option (JArr δ)}
    (hm : ∀ a t, m a t = (quotient other x t).bind fun q => ap (map f q) a) : Squares m := by
  intro n a t ha ht
  obtain ⟨r, hr, hd⟩ := quotient_row h x ht
  rw [hm, hr, Option.bind_some]
  exact ap_dims rfl (by rw [ha]; exact hd ▸ shape_row n)

theorem squares₁_scalar (h : QuotientIsRow other) (x : β) (f : β → γ → β → δ) {m : JArr γ → JArr β → Option (JArr δ)}
    (hm : ∀ a t, m a t = (quotient other x t).bind fun q => ap (ap (map f q) a) t) : Squares m := by
  intro n a t ha ht
  obtain ⟨r, hr, hd⟩ := quotient_row h x ht
  rw [hm, hr, Option.bind_some]
  obtain ⟨s, hs, he⟩ := ap_dims (f := map f r) (a := a) (d := [n, n]) rfl (by rw [ha]; exact hd ▸ shape_row n)
  exact ap_dims hs (by rw [he, ht, shape_square])

theorem squares₂ (h : QuotientIsRow other) (x y : β) (f : β → β → γ → δ) {m : JArr γ → JArr β → Option (JArr δ)}
    (hm : ∀ a t, m a t = (quotient other x t).bind fun q => (quotient other y t).bind fun q' => ap (ap (map f q) q') a) :
    Squares m := by
  intro n a t ha ht
  obtain ⟨r, hr, hd⟩ := quotient_row h x ht
  obtain ⟨r', hr', hd'⟩ := quotient_row h y ht
  rw [hm, hr, Option.bind_some, hr', Option.bind_some]
  obtain ⟨s, hs, he⟩ := ap_dims (f := map f r) (a := r') (d := [1, n]) rfl (by rw [hd']; exact hd ▸ shape_self _)
  exact ap_dims hs (by rw [he, ha, shape_row])

theorem squares₂_scalar (h : QuotientIsRow other) (x y : β) (f : β → β → γ → β → δ) {m : JArr γ → JArr β → Option (JArr δ)}
    (hm : ∀ a t, m a t =
      (quotient other x t).bind fun q => (quotient other y t).bind fun q' => ap (ap (ap (map f q) q') a) t) :
    Squares m := by
  intro n a t ha ht
  obtain ⟨r, hr, hd⟩ := quotient_row h x ht
  obtain ⟨r', hr', hd'⟩ := quotient_row h y ht
  rw [hm, hr, Option.bind_some, hr', Option.bind_some]
  obtain ⟨s, hs, he⟩ := ap_dims (f := map f r) (a := r') (d := [1, n]) rfl (by rw [hd']; exact hd ▸ shape_self _)
  obtain ⟨s', hs', he'⟩ := ap_dims hs (a := a) (d := [n, n]) (by rw [he, ha, shape_row])
  exact ap_dims hs' (by rw [he', ht, shape_square])

end

end JArr

end Polymers.Julia
