import Mathlib.Data.Real.Basic
import Mathlib.Logic.Function.Iterate
import Mathlib.Analysis.Calculus.Deriv.Basic

/-! Specification: Newton's method for `f x = y`. -/

namespace Polymers.Spec

/-- One step of Newton's method for `f x = y`, damped by the divisor `p` (`p = 1`: the plain step). -/
noncomputable def newtonStep (y : ℝ) (f f' : ℝ → ℝ) (p : ℝ) (x : ℝ) : ℝ := x - (f x - y) / (f' x) / p

/-- The `k`-th Newton iterate from `guess`. -/
noncomputable def newtonIterate (y : ℝ) (f f' : ℝ → ℝ) (p guess : ℝ) (k : ℕ) : ℝ := (newtonStep y f f' p)^[k] guess

/-- The relative residual of `x` as a solution of `f x = y`. -/
noncomputable def relResidual (y : ℝ) (f : ℝ → ℝ) (x : ℝ) : ℝ := |(f x - y) / y|

/-- `force` inverts `length` by Newton's method: for every `y` satisfying `G` the value `force y` is the `k`-th Newton
iterate for `length x = y` with `1 ≤ k ≤ 100`, the slopes used being the true derivatives of `length` wherever `D`
holds, and either all 100 steps were made or the iterate before the last has relative residual at most `1e-6`. -/
def NewtonInverse (force length : ℝ → ℝ) (G D : ℝ → Prop) : Prop :=
  ∃ slope : ℝ → ℝ, (∀ x, D x → HasDerivAt length (slope x) x) ∧ ∀ y, G y → ∃ guess k, 1 ≤ k ∧ k ≤ 100 ∧
    force y = newtonIterate y length slope 1 guess k ∧
    (k < 100 → relResidual y length (newtonIterate y length slope 1 guess (k - 1)) ≤ 1 / 1000000)

/-- For every `y` satisfying `G` the value `force y` is the `k`-th Newton iterate for `length x = y` with `1 ≤ k ≤ 100`,
with steps using the given slopes, damped by the divisor `p` and starting from a guess satisfying `S`, provided that no
iterate is an exact solution; either all 100 steps were made or the iterate before the last has relative residual at
most `1e-6`. -/
def DampedNewtonRun (p : ℝ) (force length slope : ℝ → ℝ) (G S : ℝ → Prop) : Prop :=
  ∀ y, G y → ∃ guess, S guess ∧
    ((∀ j < 100, length (newtonIterate y length slope p guess j) ≠ y) → ∃ k, 1 ≤ k ∧ k ≤ 100 ∧
      force y = newtonIterate y length slope p guess k ∧
      (k < 100 → relResidual y length (newtonIterate y length slope p guess (k - 1)) ≤ 1 / 1000000))

/-- `force` inverts `length` by Newton's method damped by the divisor `p`, the slopes used being the true derivatives of
`length` wherever `D` holds. -/
def DampedNewtonInverse (p : ℝ) (force length : ℝ → ℝ) (G S D : ℝ → Prop) : Prop :=
  ∃ slope : ℝ → ℝ, (∀ x, D x → HasDerivAt length (slope x) x) ∧ DampedNewtonRun p force length slope G S

end Polymers.Spec
