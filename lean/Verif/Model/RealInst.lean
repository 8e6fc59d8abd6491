import Verif.Model.Base
import Mathlib.Analysis.SpecialFunctions.Artanh
import Mathlib.Analysis.SpecialFunctions.Log.Base
import Mathlib.Analysis.SpecialFunctions.Pow.Real
import Mathlib.Analysis.SpecialFunctions.Trigonometric.Inverse
import Mathlib.Analysis.Real.Sqrt

/-! Interpretation of the program text over the real numbers.

Totalised operations of `ℝ` (division by zero, logarithm of a non-positive number) return junk values here, and
`panic` is the junk value `0`; statements which depend on definedness are made over `SReal` instead, or carry
hypotheses which keep the arguments inside the domain. -/

namespace Polymers

open Real

/-- `f64` operations read as exact real operations. -/
noncomputable instance : Elem ℝ where
  exp := Real.exp
  ln := Real.log
  log10 := Real.logb 10
  sinh := Real.sinh
  cosh := Real.cosh
  tanh := Real.tanh
  sin := Real.sin
  cos := Real.cos
  acos := Real.arccos
  atanh := Real.artanh
  sqrt := Real.sqrt
  abs := fun x => |x|
  ceil := fun x => (⌈x⌉ : ℝ)
  powi := fun x n => x ^ n
  powf := fun x y => x ^ y
  pi := Real.pi
  maxFin := (2 - 2 ^ (-52 : ℤ)) * 2 ^ (1023 : ℕ)
  lt := fun x y => decide (x < y)
  le := fun x y => decide (x ≤ y)
  toNat := fun m x => min m ⌊x⌋₊
  panic := 0

section lemmas
variable (x y : ℝ) (n : ℤ) (m : ℕ)
@[simp] theorem elem_exp : Elem.exp x = Real.exp x := rfl
@[simp] theorem elem_ln : Elem.ln x = Real.log x := rfl
@[simp] theorem elem_log10 : Elem.log10 x = Real.logb 10 x := rfl
@[simp] theorem elem_sinh : Elem.sinh x = Real.sinh x := rfl
@[simp] theorem elem_cosh : Elem.cosh x = Real.cosh x := rfl
@[simp] theorem elem_tanh : Elem.tanh x = Real.tanh x := rfl
@[simp] theorem elem_sin : Elem.sin x = Real.sin x := rfl
@[simp] theorem elem_cos : Elem.cos x = Real.cos x := rfl
@[simp] theorem elem_acos : Elem.acos x = Real.arccos x := rfl
@[simp] theorem elem_atanh : Elem.atanh x = Real.artanh x := rfl
@[simp] theorem elem_sqrt : Elem.sqrt x = Real.sqrt x := rfl
@[simp] theorem elem_abs : Elem.abs x = |x| := rfl
@[simp] theorem elem_ceil : Elem.ceil x = (⌈x⌉ : ℝ) := rfl
@[simp] theorem elem_powi : Elem.powi x n = x ^ n := rfl
@[simp] theorem elem_powf : Elem.powf x y = x ^ y := rfl
@[simp] theorem elem_pi : (Elem.pi : ℝ) = Real.pi := rfl
@[simp] theorem elem_lt : (Elem.lt x y = true) ↔ x < y := by simp [Elem.lt]
@[simp] theorem elem_le : (Elem.le x y = true) ↔ x ≤ y := by simp [Elem.le]
@[simp] theorem elem_toNat : Elem.toNat m x = min m ⌊x⌋₊ := rfl
end lemmas

/-- `Iterator::sum` is the sum of the list. -/
theorem fsum_eq (l : List ℝ) : fsum l = l.sum := by
  have h : ∀ (l : List ℝ) (a : ℝ), l.foldl (fun a x => a + x) a = a + l.sum := by
    intro l
    induction l with
    | nil => simp
    | cons x l ih => intro a; simp [ih, add_assoc]
  unfold fsum
  rw [h]
  norm_num

end Polymers
