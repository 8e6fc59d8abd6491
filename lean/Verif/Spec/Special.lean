import Mathlib.Topology.Algebra.InfiniteSum.Basic
import Mathlib.Analysis.Real.Sqrt

/-! Specification: special functions by their defining series. -/

namespace Polymers.Spec

open scoped Nat

/-- The modified Bessel function of the first kind of integer order, `I_ν(x) = Σ (x/2)^(2k+ν) / (k! (k+ν)!)`. -/
noncomputable def besselI (ν : ℕ) (x : ℝ) : ℝ := ∑' k : ℕ, (x / 2) ^ (2 * k + ν) / (k ! * (k + ν)!)

end Polymers.Spec
