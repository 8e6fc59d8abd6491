/-
The number type of the model.

Rust `f64` is a type variable `α` carrying `+ - * /`, negation, decimal literals (`OfScientific`), casts from
integers (`NatCast`) and the class `Elem` below.  The program text is interpreted at `ℝ` (`Verif/Model/RealInst.lean`),
at `SReal` (reals with explicit `undef` and `panic`, `Verif/Model/SReal.lean`) and at `Float` (execution only).
-/

namespace Polymers

/-- The `f64` methods and constants used by `/repo/src` (std library; every `mod.rs` uses some of them):
`exp ln log10 sinh cosh tanh sin cos acos atanh sqrt abs ceil powi powf`, `PI`, `f64::MAX`, the comparisons
`<` and `<=` (`>`/`>=` are these with swapped arguments), the saturating cast `x as uN` (`toNat (2^N-1) x`),
and `panic` for `panic!()`, failed `assert!` and failed integer arithmetic inside an expression. -/
class Elem (α : Type) where
  /-- `f64::exp` -/
  exp : α → α
  /-- `f64::ln` -/
  ln : α → α
  /-- `f64::log10` -/
  log10 : α → α
  /-- `f64::sinh` -/
  sinh : α → α
  /-- `f64::cosh` -/
  cosh : α → α
  /-- `f64::tanh` -/
  tanh : α → α
  /-- `f64::sin` -/
  sin : α → α
  /-- `f64::cos` -/
  cos : α → α
  /-- `f64::acos` -/
  acos : α → α
  /-- `f64::atanh` -/
  atanh : α → α
  /-- `f64::sqrt` -/
  sqrt : α → α
  /-- `f64::abs` -/
  abs : α → α
  /-- `f64::ceil` -/
  ceil : α → α
  /-- `f64::powi` -/
  powi : α → Int → α
  /-- `f64::powf` -/
  powf : α → α → α
  /-- `std::f64::consts::PI` -/
  pi : α
  /-- `f64::MAX` -/
  maxFin : α
  /-- `<` -/
  lt : α → α → Bool
  /-- `<=` -/
  le : α → α → Bool
  /-- `x as uN` with `2^N - 1` the first argument (saturating, NaN to zero) -/
  toNat : Nat → α → Nat
  /-- a panic -/
  panic : α

variable {α : Type} [Add α] [Sub α] [Mul α] [Div α] [Neg α] [OfScientific α] [NatCast α] [Elem α]

/-- `src/physics/mod.rs` line 8: `BOLTZMANN_CONSTANT`. -/
def BOLTZMANN_CONSTANT : α := 8.314462618

/-- `src/physics/mod.rs` line 11: `PLANCK_CONSTANT`. -/
def PLANCK_CONSTANT : α := 0.06350779923502961

/-- `src/physics/single_chain/mod.rs` line 30: `ONE`. -/
def ONE : α := 1.0

/-- `src/physics/single_chain/mod.rs` line 31: `ZERO`. -/
def ZERO : α := 1e-6

/-- `src/physics/single_chain/mod.rs` line 32: `POINTS`. -/
def POINTS : Nat := 64

/-- `Iterator::sum::<f64>()`: left-to-right addition starting from zero (used throughout `src/math/mod.rs`,
e.g. line 50). -/
def fsum (l : List α) : α := l.foldl (fun a x => a + x) 0.0

end Polymers
