import Verif.Model.RealInst

/-! Interpretation of the program text in IEEE 754 double precision.

A `Platform` is a rounding to nearest of the format `binary64`, with ties broken in any way, and a mathematical library whose
functions have a relative error of at most `ε` (in the subnormal range, of `ε` times the smallest normal number).
Theorems over `F64 P` quantify over the platform.  A result beyond the largest finite number becomes an infinity, invalid
operations give NaN, results below the normal range lose precision, as the standard says.

Simplifications: a NaN has no sign and no payload, and the two zeros are one number, taken to be positive where its sign matters
(division by zero, negative powers); a power of negative infinity with a real exponent is taken to be positive.  `f64::powi` is one
operation with `max 1 |n|` times the error of a library function, since LLVM computes it by repeated multiplication, and nothing is
assumed about its accuracy near the ends of the range.  Decimal literals and `PI` are the nearest numbers of the format. -/

namespace Polymers.Ieee

/-- The numbers of `binary64` with the exponent unbounded above: 53 bits of significand, exponent at least `-1074`. -/
def grid : Set ℝ := {x | ∃ m e : ℤ, |m| < 2 ^ 53 ∧ -1074 ≤ e ∧ x = m * (2 : ℝ) ^ e}

/-- The largest finite number, `f64::MAX`. -/
noncomputable def huge : ℝ := (2 - 2 ^ (-52 : ℤ)) * 2 ^ (1023 : ℕ)

/-- The functions of the mathematical library. -/
inductive Fn where
  /-- `f64::exp` -/
  | exp
  /-- `f64::ln` -/
  | ln
  /-- `f64::log10` -/
  | log10
  /-- `f64::sinh` -/
  | sinh
  /-- `f64::cosh` -/
  | cosh
  /-- `f64::tanh` -/
  | tanh
  /-- `f64::sin` -/
  | sin
  /-- `f64::cos` -/
  | cos
  /-- `f64::acos` -/
  | acos
  /-- `f64::atanh` -/
  | atanh

/-- What the functions of the library approximate. -/
noncomputable def Fn.exact : Fn → ℝ → ℝ
  | .exp => Real.exp
  | .ln => Real.log
  | .log10 => Real.logb 10
  | .sinh => Real.sinh
  | .cosh => Real.cosh
  | .tanh => Real.tanh
  | .sin => Real.sin
  | .cos => Real.cos
  | .acos => Real.arccos
  | .atanh => Real.artanh

/-- The arithmetic of a machine: rounding to nearest and a mathematical library. -/
structure Platform where
  /-- rounding -/
  rnd : ℝ → ℝ
  /-- the result of rounding belongs to the format -/
  rnd_mem : ∀ x, rnd x ∈ grid
  /-- the result of rounding is a nearest number of the format -/
  rnd_nearest : ∀ x, ∀ y ∈ grid, |rnd x - x| ≤ |y - x|
  /-- relative error of the mathematical library -/
  ε : ℝ
  /-- the library cannot be better than rounding -/
  le_ε : 2 ^ (-53 : ℤ) ≤ ε
  /-- the library is not worse than eight thousand units in the last place -/
  ε_le : ε ≤ 2 ^ (-40 : ℤ)
  /-- the functions of the library -/
  fn : Fn → ℝ → ℝ
  /-- accuracy of the library -/
  fn_err : ∀ f x, |fn f x - f.exact x| ≤ ε * max |f.exact x| (2 ^ (-1022 : ℤ))
  /-- powers with an integer exponent -/
  powi : ℝ → ℤ → ℝ
  /-- accuracy of powers with an integer exponent -/
  powi_err : ∀ x n, 2 ^ (-1000 : ℤ) ≤ |x ^ n| → |x ^ n| ≤ 2 ^ (1000 : ℤ) → |powi x n - x ^ n| ≤ max 1 |(n : ℝ)| * ε * |x ^ n|
  /-- small powers are small -/
  powi_small : ∀ x n, |x ^ n| ≤ 2 ^ (-1000 : ℤ) → |powi x n| ≤ 2 ^ (-999 : ℤ)
  /-- large powers are large -/
  powi_large : ∀ x n, 2 ^ (1000 : ℤ) ≤ |x ^ n| → 2 ^ (999 : ℤ) ≤ |powi x n|
  /-- powers with a real exponent -/
  powf : ℝ → ℝ → ℝ
  /-- accuracy of powers with a real exponent -/
  powf_err : ∀ x y, |powf x y - x ^ y| ≤ ε * max |x ^ y| (2 ^ (-1022 : ℤ))

/-- A floating-point number: finite, infinite (`true` for the negative infinity) or not a number; or a panic. -/
inductive F64 (P : Platform) where
  /-- a finite number -/
  | fin (r : ℝ)
  /-- an infinity, negative if the argument is `true` -/
  | inf (neg : Bool)
  /-- not a number -/
  | nan
  /-- the program panicked -/
  | panic

namespace F64

variable {P : Platform}

open Classical in
/-- A rounded result: an infinity if it is beyond the largest finite number. -/
noncomputable def out (x : ℝ) : F64 P := if |x| ≤ huge then fin x else inf (decide (x < 0))

/-- Apply an operation to a finite number, with the given values at the infinities. -/
noncomputable def un (f : ℝ → F64 P) (pos neg : F64 P) : F64 P → F64 P
  | fin x => f x
  | inf false => pos
  | inf true => neg
  | nan => nan
  | panic => panic

/-- Apply an operation to two finite numbers, with the given treatment of infinities. -/
noncomputable def bin (f : ℝ → ℝ → F64 P) (g : ℝ → Bool → F64 P) (h : Bool → ℝ → F64 P) (k : Bool → Bool → F64 P) :
    F64 P → F64 P → F64 P
  | panic, _ => panic
  | _, panic => panic
  | nan, _ => nan
  | _, nan => nan
  | fin x, fin y => f x y
  | fin x, inf t => g x t
  | inf s, fin y => h s y
  | inf s, inf t => k s t

noncomputable instance : Add (F64 P) :=
  ⟨bin (fun x y => out (P.rnd (x + y))) (fun _ t => inf t) (fun s _ => inf s) (fun s t => if s = t then inf s else nan)⟩

noncomputable instance : Sub (F64 P) :=
  ⟨bin (fun x y => out (P.rnd (x - y))) (fun _ t => inf !t) (fun s _ => inf s) (fun s t => if s = t then nan else inf s)⟩

open Classical in
noncomputable instance : Mul (F64 P) :=
  ⟨bin (fun x y => out (P.rnd (x * y))) (fun x t => if x = 0 then nan else inf (t ^^ decide (x < 0)))
    (fun s y => if y = 0 then nan else inf (s ^^ decide (y < 0))) (fun s t => inf (s ^^ t))⟩

open Classical in
noncomputable instance : Div (F64 P) :=
  ⟨bin (fun x y => if y = 0 then (if x = 0 then nan else inf (decide (x < 0))) else out (P.rnd (x / y))) (fun _ _ => fin 0)
    (fun s y => inf (s ^^ decide (y < 0))) (fun _ _ => nan)⟩

noncomputable instance : Neg (F64 P) := ⟨un (fun x => fin (-x)) (inf true) (inf false)⟩

noncomputable instance : OfScientific (F64 P) := ⟨fun m s e => out (P.rnd (OfScientific.ofScientific m s e))⟩

noncomputable instance : NatCast (F64 P) := ⟨fun n => out (P.rnd n)⟩

open Classical in
/-- `f64` operations in double precision. -/
noncomputable instance : Elem (F64 P) where
  exp := un (fun x => out (P.fn .exp x)) (inf false) (fin 0)
  ln := un (fun x => if 0 < x then out (P.fn .ln x) else if x = 0 then inf true else nan) (inf false) nan
  log10 := un (fun x => if 0 < x then out (P.fn .log10 x) else if x = 0 then inf true else nan) (inf false) nan
  sinh := un (fun x => out (P.fn .sinh x)) (inf false) (inf true)
  cosh := un (fun x => out (P.fn .cosh x)) (inf false) (inf false)
  tanh := un (fun x => out (P.fn .tanh x)) (fin 1) (fin (-1))
  sin := un (fun x => out (P.fn .sin x)) nan nan
  cos := un (fun x => out (P.fn .cos x)) nan nan
  acos := un (fun x => if |x| ≤ 1 then out (P.fn .acos x) else nan) nan nan
  atanh := un (fun x => if |x| < 1 then out (P.fn .atanh x) else if |x| = 1 then inf (decide (x < 0)) else nan) nan nan
  sqrt := un (fun x => if 0 ≤ x then out (P.rnd (Real.sqrt x)) else nan) (inf false) nan
  abs := un (fun x => fin |x|) (inf false) (inf false)
  ceil := un (fun x => fin (⌈x⌉ : ℝ)) (inf false) (inf true)
  powi := fun x n => un (fun x => if x = 0 ∧ n < 0 then inf false else out (P.powi x n))
    (if n = 0 then fin 1 else if 0 < n then inf false else fin 0)
    (if n = 0 then fin 1 else if 0 < n then inf (decide (Odd n)) else fin 0) x
  powf := bin
    (fun x y => if 0 < x ∨ (x = 0 ∧ 0 ≤ y) ∨ (x < 0 ∧ ∃ n : ℤ, y = n) then out (P.powf x y) else if x = 0 then inf false else nan)
    (fun x t => if |x| = 1 then fin 1 else if (|x| < 1 ↔ t = true) then inf false else fin 0)
    (fun _ y => if y = 0 then fin 1 else if 0 < y then inf false else fin 0) (fun _ t => if t then fin 0 else inf false)
  pi := fin (P.rnd Real.pi)
  maxFin := fin huge
  lt := fun x y => match x, y with
    | fin x, fin y => decide (x < y)
    | fin _, inf t => !t
    | inf s, fin _ => s
    | inf s, inf t => s && !t
    | _, _ => false
  le := fun x y => match x, y with
    | fin x, fin y => decide (x ≤ y)
    | fin _, inf t => !t
    | inf s, fin _ => s
    | inf s, inf t => s || !t
    | _, _ => false
  toNat := fun m x => match x with | fin x => min m ⌊x⌋₊ | inf false => m | _ => 0
  panic := panic

end F64

end Polymers.Ieee
