import Verif.Model.Base

/-! Execution of the program text with hardware floating point: used for `#eval`-style sanity checks only, no theorem
depends on it. -/

namespace Polymers

instance : NatCast Float := ⟨Float.ofNat⟩

instance : Elem Float where
  exp := Float.exp
  ln := Float.log
  log10 := Float.log10
  sinh := Float.sinh
  cosh := Float.cosh
  tanh := Float.tanh
  sin := Float.sin
  cos := Float.cos
  acos := Float.acos
  atanh := Float.atanh
  sqrt := Float.sqrt
  abs := Float.abs
  ceil := Float.ceil
  powi := fun x n => Float.pow x (Float.ofInt n)
  powf := Float.pow
  pi := 3.141592653589793
  maxFin := 1.7976931348623157e308
  lt := fun x y => x < y
  le := fun x y => x ≤ y
  toNat := fun m x => if m = 255 then x.toUInt8.toNat else min m x.toUInt64.toNat
  panic := 0.0 / 0.0

end Polymers
