import Verif.Model.RealInst

/-! Reals with explicit failure.

`SReal` interprets the program text so that definedness is visible.  `undef` is the result of an operation which
has no real value (division by zero, logarithm of a non-positive number, root of a negative number, ...; an `f64`
program gets an infinity or a NaN there); every operation with an `undef` argument is `undef` again, comparisons
with it are false and casting it to an integer gives zero, as for NaN.  `panic` is a panic of the program and absorbs
everything, including `undef`.  Rounding and overflow are still not modelled. -/

namespace Polymers

/-- A real number, an undefined result, or a panic. -/
inductive SReal where
  /-- a real value -/
  | val (r : ℝ)
  /-- no real value -/
  | undef
  /-- the program panicked -/
  | panic

namespace SReal

open Classical in
/-- apply a partial unary operation -/
noncomputable def un (dom : ℝ → Prop) (f : ℝ → ℝ) : SReal → SReal
  | val x => if dom x then val (f x) else undef
  | undef => undef
  | panic => panic

open Classical in
/-- apply a partial binary operation -/
noncomputable def bin (dom : ℝ → ℝ → Prop) (f : ℝ → ℝ → ℝ) : SReal → SReal → SReal
  | panic, _ => panic
  | _, panic => panic
  | val x, val y => if dom x y then val (f x y) else undef
  | _, _ => undef

noncomputable instance : Add SReal := ⟨bin (fun _ _ => True) (· + ·)⟩
noncomputable instance : Sub SReal := ⟨bin (fun _ _ => True) (· - ·)⟩
noncomputable instance : Mul SReal := ⟨bin (fun _ _ => True) (· * ·)⟩
noncomputable instance : Div SReal := ⟨bin (fun _ y => y ≠ 0) (· / ·)⟩
noncomputable instance : Neg SReal := ⟨un (fun _ => True) (- ·)⟩
noncomputable instance : OfScientific SReal := ⟨fun m s e => val (OfScientific.ofScientific m s e)⟩
noncomputable instance : NatCast SReal := ⟨fun n => val (n : ℝ)⟩

/-- `f64` operations with explicit failure. -/
noncomputable instance : Elem SReal where
  exp := un (fun _ => True) Real.exp
  ln := un (fun x => 0 < x) Real.log
  log10 := un (fun x => 0 < x) (Real.logb 10)
  sinh := un (fun _ => True) Real.sinh
  cosh := un (fun _ => True) Real.cosh
  tanh := un (fun _ => True) Real.tanh
  sin := un (fun _ => True) Real.sin
  cos := un (fun _ => True) Real.cos
  acos := un (fun x => -1 ≤ x ∧ x ≤ 1) Real.arccos
  atanh := un (fun x => -1 < x ∧ x < 1) Real.artanh
  sqrt := un (fun x => 0 ≤ x) Real.sqrt
  abs := un (fun _ => True) (fun x => |x|)
  ceil := un (fun _ => True) (fun x => (⌈x⌉ : ℝ))
  powi := fun x n => un (fun x => x ≠ 0 ∨ 0 ≤ n) (fun x => x ^ n) x
  powf := bin (fun x y => 0 < x ∨ (x = 0 ∧ 0 ≤ y) ∨ (x < 0 ∧ ∃ n : ℤ, y = n)) (fun x y => x ^ y)
  pi := val Real.pi
  maxFin := val Elem.maxFin
  lt := fun x y => match x, y with | val x, val y => decide (x < y) | _, _ => false
  le := fun x y => match x, y with | val x, val y => decide (x ≤ y) | _, _ => false
  toNat := fun m x => match x with | val x => min m ⌊x⌋₊ | _ => 0
  panic := panic

section lemmas
variable (x y : ℝ) (a : SReal)

@[simp] theorem add_val : val x + val y = val (x + y) := by
  show bin _ _ _ _ = _; simp [bin]
@[simp] theorem sub_val : val x - val y = val (x - y) := by
  show bin _ _ _ _ = _; simp [bin]
@[simp] theorem mul_val : val x * val y = val (x * y) := by
  show bin _ _ _ _ = _; simp [bin]
@[simp] theorem neg_val : -val x = val (-x) := by
  show un _ _ _ = _; simp [un]
@[simp] theorem div_val {y : ℝ} (h : y ≠ 0) : val x / val y = val (x / y) := by
  show bin _ _ _ _ = _; simp [bin, h]
@[simp] theorem div_zero : val x / val 0 = undef := by
  show bin _ _ _ _ = _; simp [bin]
@[simp] theorem lit_val (m : ℕ) (s : Bool) (e : ℕ) :
    (OfScientific.ofScientific m s e : SReal) = val (OfScientific.ofScientific m s e) := rfl
@[simp] theorem natCast_val (n : ℕ) : ((n : ℕ) : SReal) = val (n : ℝ) := rfl
@[simp] theorem exp_val : Elem.exp (val x) = val (Real.exp x) := by
  show un _ _ _ = _; simp [un]
@[simp] theorem sinh_val : Elem.sinh (val x) = val (Real.sinh x) := by
  show un _ _ _ = _; simp [un]
@[simp] theorem cosh_val : Elem.cosh (val x) = val (Real.cosh x) := by
  show un _ _ _ = _; simp [un]
@[simp] theorem tanh_val : Elem.tanh (val x) = val (Real.tanh x) := by
  show un _ _ _ = _; simp [un]
@[simp] theorem sin_val : Elem.sin (val x) = val (Real.sin x) := by
  show un _ _ _ = _; simp [un]
@[simp] theorem cos_val : Elem.cos (val x) = val (Real.cos x) := by
  show un _ _ _ = _; simp [un]
@[simp] theorem abs_val : Elem.abs (val x) = val |x| := by
  show un _ _ _ = _; simp [un]
@[simp] theorem ceil_val : Elem.ceil (val x) = val (⌈x⌉ : ℝ) := by
  show un _ _ _ = _; simp [un]
@[simp] theorem ln_val {x : ℝ} (h : 0 < x) : Elem.ln (val x) = val (Real.log x) := by
  show un _ _ _ = _; simp [un, h]
theorem ln_undef {x : ℝ} (h : x ≤ 0) : Elem.ln (val x) = undef := by
  show un _ _ _ = _; simp [un, h]
@[simp] theorem log10_val {x : ℝ} (h : 0 < x) : Elem.log10 (val x) = val (Real.logb 10 x) := by
  show un _ _ _ = _; simp [un, h]
theorem log10_undef {x : ℝ} (h : x ≤ 0) : Elem.log10 (val x) = undef := by
  show un _ _ _ = _; simp [un, h]
@[simp] theorem sqrt_val {x : ℝ} (h : 0 ≤ x) : Elem.sqrt (val x) = val (Real.sqrt x) := by
  show un _ _ _ = _; simp [un, h]
theorem sqrt_undef {x : ℝ} (h : x < 0) : Elem.sqrt (val x) = undef := by
  show un _ _ _ = _; simp [un, h]
@[simp] theorem acos_val {x : ℝ} (h : -1 ≤ x) (h' : x ≤ 1) : Elem.acos (val x) = val (Real.arccos x) := by
  show un _ _ _ = _; simp [un, h, h']
@[simp] theorem atanh_val {x : ℝ} (h : -1 < x) (h' : x < 1) : Elem.atanh (val x) = val (Real.artanh x) := by
  show un _ _ _ = _; simp [un, h, h']
theorem powi_val {x : ℝ} {n : ℤ} (h : x ≠ 0 ∨ 0 ≤ n) : Elem.powi (val x) n = val (x ^ n) := by
  show un _ _ _ = _; simp only [un]; rw [if_pos h]
@[simp] theorem powi_val_nat (n : ℕ) : Elem.powi (val x) (n : ℤ) = val (x ^ n) := by
  rw [powi_val (Or.inr (Int.natCast_nonneg n)), zpow_natCast]
@[simp] theorem powi_val_ofNat (n : ℕ) [n.AtLeastTwo] :
    Elem.powi (val x) (ofNat(n) : ℤ) = val (x ^ (ofNat(n) : ℕ)) := powi_val_nat x n
@[simp] theorem powi_val_ne {x : ℝ} (h : x ≠ 0) (n : ℤ) : Elem.powi (val x) n = val (x ^ n) := powi_val (Or.inl h)
theorem powi_undef {n : ℤ} (h : n < 0) : Elem.powi (val 0) n = undef := by
  show un _ _ _ = _; simp [un, h]
theorem powf_val {x y : ℝ} (h : 0 < x ∨ (x = 0 ∧ 0 ≤ y) ∨ (x < 0 ∧ ∃ n : ℤ, y = n)) :
    Elem.powf (val x) (val y) = val (x ^ y) := by
  show bin _ _ _ _ = _; simp only [bin]; rw [if_pos h]
@[simp] theorem powf_val_pos {x : ℝ} (h : 0 < x) : Elem.powf (val x) (val y) = val (x ^ y) := powf_val (Or.inl h)
@[simp] theorem pi_val : (Elem.pi : SReal) = val Real.pi := rfl
@[simp] theorem lt_val : (Elem.lt (val x) (val y) = true) ↔ x < y := by simp [Elem.lt]
@[simp] theorem le_val : (Elem.le (val x) (val y) = true) ↔ x ≤ y := by simp [Elem.le]
@[simp] theorem toNat_val (m : ℕ) : Elem.toNat m (val x) = min m ⌊x⌋₊ := rfl
@[simp] theorem toNat_undef (m : ℕ) : Elem.toNat m undef = 0 := rfl
@[simp] theorem elem_panic : (Elem.panic : SReal) = panic := rfl
@[simp] theorem lt_undef_left : Elem.lt undef a = false := rfl
@[simp] theorem lt_undef_right : Elem.lt a undef = false := by cases a <;> rfl
@[simp] theorem le_undef_left : Elem.le undef a = false := rfl
@[simp] theorem le_undef_right : Elem.le a undef = false := by cases a <;> rfl

@[simp] theorem add_undef : val x + undef = undef := rfl
@[simp] theorem undef_add : undef + val x = undef := rfl
@[simp] theorem undef_add_undef : undef + undef = undef := rfl
@[simp] theorem sub_undef : val x - undef = undef := rfl
@[simp] theorem undef_sub : undef - val x = undef := rfl
@[simp] theorem undef_sub_undef : undef - undef = undef := rfl
@[simp] theorem mul_undef : val x * undef = undef := rfl
@[simp] theorem undef_mul : undef * val x = undef := rfl
@[simp] theorem undef_mul_undef : undef * undef = undef := rfl
@[simp] theorem div_undef : val x / undef = undef := rfl
@[simp] theorem undef_div : undef / val x = undef := rfl
@[simp] theorem undef_div_undef : undef / undef = undef := rfl
@[simp] theorem neg_undef : -undef = undef := rfl
@[simp] theorem exp_undef : Elem.exp undef = undef := rfl
@[simp] theorem ln_of_undef : Elem.ln undef = undef := rfl
@[simp] theorem tanh_undef : Elem.tanh undef = undef := rfl
@[simp] theorem sinh_undef : Elem.sinh undef = undef := rfl
@[simp] theorem cosh_undef : Elem.cosh undef = undef := rfl
@[simp] theorem abs_undef : Elem.abs undef = undef := rfl
@[simp] theorem sqrt_of_undef : Elem.sqrt undef = undef := rfl
@[simp] theorem ceil_undef : Elem.ceil undef = undef := rfl
@[simp] theorem powi_of_undef (n : ℤ) : Elem.powi undef n = undef := rfl

@[simp] theorem panic_add : panic + a = panic := rfl
@[simp] theorem add_panic : a + panic = panic := by cases a <;> rfl
@[simp] theorem panic_sub : panic - a = panic := rfl
@[simp] theorem sub_panic : a - panic = panic := by cases a <;> rfl
@[simp] theorem panic_mul : panic * a = panic := rfl
@[simp] theorem mul_panic : a * panic = panic := by cases a <;> rfl
@[simp] theorem panic_div : panic / a = panic := rfl
@[simp] theorem div_panic : a / panic = panic := by cases a <;> rfl
@[simp] theorem neg_panic : -panic = panic := rfl
@[simp] theorem exp_panic : Elem.exp panic = panic := rfl
@[simp] theorem ln_panic : Elem.ln panic = panic := rfl
@[simp] theorem sqrt_panic : Elem.sqrt panic = panic := rfl
@[simp] theorem powi_panic (n : ℤ) : Elem.powi panic n = panic := rfl

theorem val_injective {x y : ℝ} (h : val x = val y) : x = y := by injection h

end lemmas

end SReal

end Polymers
