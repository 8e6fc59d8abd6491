import Verif.Model.JuliaBase
import Mathlib.Data.Real.Basic
import Mathlib.Algebra.BigOperators.Group.Finset.Basic

/-! What it means that a function of the Julia package, which takes numbers or arrays, computes a function of numbers entry by
entry.  Independent of the code. -/

namespace Polymers.Spec

open Polymers.Julia

/-- `i` are indices of an entry of an array of size `d`. -/
def InBounds : List Nat → List Nat → Prop
  | [], [] => True
  | n :: d, j :: i => j < n ∧ InBounds d i
  | _, _ => False

/-- A number, or an array of size `d`. -/
def Fits {β : Type} (d : List Nat) (a : JArr β) : Prop := a.dims = d ∨ a.dims = []

/-- The entry of an array, or the number. -/
def pick {β : Type} (a : JArr β) (i : List Nat) : β := if a.dims = [] then a.get [] else a.get i

/-- `r` is an array of size `d` whose entries are those of `e`. -/
def IsArray {γ : Type} (d : List Nat) (e : List Nat → γ) (r : Option (JArr γ)) : Prop :=
  ∃ a, r = some a ∧ a.dims = d ∧ ∀ i, InBounds d i → a.get i = e i

/-- `m` applies `f` to a number or to every entry of an array. -/
def Elementwise₁ {β γ : Type} (f : β → γ) (m : JArr β → Option (JArr γ)) : Prop :=
  ∀ a : JArr β, IsArray a.dims (fun i => f (a.get i)) (m a)

/-- `m` applies `f` entry by entry if its arguments are arrays of the same size or numbers; it pairs every entry of a vector
with every entry of a row; and it throws an exception for vectors of different lengths, unless one of them has one entry. -/
structure Elementwise₂ {β γ δ : Type} (f : β → γ → δ) (m : JArr β → JArr γ → Option (JArr δ)) : Prop where
  same : ∀ (d : List Nat) (a : JArr β) (b : JArr γ), Fits d a → Fits d b → (a.dims = d ∨ b.dims = d) →
    IsArray d (fun i => f (pick a i) (pick b i)) (m a b)
  table : ∀ (n p : Nat) (a : JArr β) (b : JArr γ), a.dims = [n] → b.dims = [1, p] →
    IsArray [n, p] (fun i => f (a.get [i.headD 0]) (b.get [0, i.tail.headD 0])) (m a b)
  mismatch : ∀ (n p : Nat) (a : JArr β) (b : JArr γ), a.dims = [n] → b.dims = [p] → n ≠ p → n ≠ 1 → p ≠ 1 → m a b = none

/-- `m` applies `f` entry by entry if its arguments are arrays of the same size or numbers, and it throws an exception if its
first two arguments are vectors of different lengths, unless one of them has one entry. -/
structure Elementwise₃ {β γ δ ε : Type} (f : β → γ → δ → ε) (m : JArr β → JArr γ → JArr δ → Option (JArr ε)) : Prop where
  same : ∀ (d : List Nat) (a : JArr β) (b : JArr γ) (c : JArr δ), Fits d a → Fits d b → Fits d c →
    (a.dims = d ∨ b.dims = d ∨ c.dims = d) → IsArray d (fun i => f (pick a i) (pick b i) (pick c i)) (m a b c)
  mismatch : ∀ (n p : Nat) (a : JArr β) (b : JArr γ) (c : JArr δ), a.dims = [n] → b.dims = [p] → n ≠ p → n ≠ 1 → p ≠ 1 →
    m a b c = none

/-- Dividing a number by a vector gives a row, as in `LinearAlgebra`, where it is the number times the pseudoinverse. -/
def QuotientIsRow {β : Type} (other : β → JArr β → Option (JArr β)) : Prop :=
  ∀ (x : β) (v : JArr β) (n : Nat), v.dims = [n] → ∃ r, other x v = some r ∧ r.dims = [1, n]

/-- Two vectors of length `n` are turned into an `n` by `n` matrix. -/
def Squares {β γ δ : Type} (m : JArr β → JArr γ → Option (JArr δ)) : Prop :=
  ∀ (n : Nat) (a : JArr β) (b : JArr γ), a.dims = [n] → b.dims = [n] → ∃ r, m a b = some r ∧ r.dims = [n, n]

/-- A number divided by a vector in `LinearAlgebra`: the number times the pseudoinverse of the vector. -/
noncomputable def pseudoinverse (x : ℝ) (v : JArr ℝ) : Option (JArr ℝ) :=
  match v.dims with
  | [n] => some ⟨[1, n], fun i => x * (v.get [i.tail.headD 0] / ∑ l ∈ Finset.range n, v.get [l] ^ 2)⟩
  | _ => none

end Polymers.Spec
