import Mathlib.MeasureTheory.Integral.IntervalIntegral.Basic
import Mathlib.Analysis.SpecialFunctions.Exp
import Mathlib.Analysis.Real.Pi.Bounds
import Mathlib.MeasureTheory.Measure.Lebesgue.Basic

/-! Specification: the statistical mechanics of one link under a force.  A link of length `s` (in units of the rest length) pointing
in a direction with cosine `x` to the force has energy `-η s x` in units of `kT`, and a Boltzmann weight `w s` of its own; the
directions are uniform on the sphere, so the cosine is uniform on `[-1, 1]`.  The links of a freely jointed chain are independent,
so everything about the chain at fixed force follows. -/

namespace Polymers.Spec

/-- The average over the directions of the Boltzmann factor of a link, `a` being force times length. -/
noncomputable def directionAverage (a : ℝ) : ℝ := 1 / 2 * ∫ x in (-1 : ℝ)..1, Real.exp (a * x)

/-- The partition function of one link, up to the factor `4 π`. -/
noncomputable def linkPartition (w : ℝ → ℝ) (η : ℝ) : ℝ :=
  ∫ s in Set.Ioi (0 : ℝ), s ^ 2 * w s * directionAverage (η * s)

/-- The mean component of the link along the force. -/
noncomputable def linkExtension (w : ℝ → ℝ) (η : ℝ) : ℝ :=
  (∫ s in Set.Ioi (0 : ℝ), s ^ 2 * w s * (1 / 2 * ∫ x in (-1 : ℝ)..1, s * x * Real.exp (η * s * x))) / linkPartition w η

/-- The Boltzmann weight of a square well between the stretches `1` and `b`. -/
noncomputable def squareWell (b s : ℝ) : ℝ := (Set.Icc 1 b).indicator 1 s

/-- The weight of a link that breaks at the stretch `b`. -/
noncomputable def breakAt (b : ℝ) (w : ℝ → ℝ) (s : ℝ) : ℝ := (Set.Iic b).indicator w s

/-- How far a difference of Gibbs energies `G` between two forces is from that of the link with weight `w`. -/
noncomputable def gibbsError (G w : ℝ → ℝ) (η η' : ℝ) : ℝ :=
  (G η - G η') - (-Real.log (linkPartition w η) - -Real.log (linkPartition w η'))

/-- The factor of the momenta of one hinge of mass `m` as the library counts it, two degrees of freedom with Planck's constant
0.0635… in the library's units. -/
noncomputable def hingeFactor (m T : ℝ) : ℝ := 2 * Real.pi * m * (8.314462618 * T) / 0.06350779923502961 ^ 2

end Polymers.Spec
