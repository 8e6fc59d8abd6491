import Verif.Model.MonteCarlo
import Mathlib.Probability.Independence.Basic
import Mathlib.Probability.Distributions.Gaussian.Real
import Mathlib.MeasureTheory.Measure.Prod
import Mathlib.MeasureTheory.Measure.Lebesgue.Basic

/-! Specification: the random numbers which the Monte Carlo modules ask for.

A run asks the generator for some numbers per link. `draw ω i` are the numbers for the `i`-th link of the run, when the generator
is in the state `ω`; `P` is the probability on these states. -/

namespace Polymers.Spec

open MeasureTheory Set

/-- The generator is ideal: the numbers for different links are independent of each other, and all have the same distribution
`law`. -/
structure IdealDraws {Ω E : Type*} [MeasurableSpace Ω] [MeasurableSpace E] (law : Measure E) (P : Measure Ω) (draw : Ω → ℕ → E) :
    Prop where
  measurable : ∀ i, Measurable fun ω => draw ω i
  independent : ProbabilityTheory.iIndepFun (fun i ω => draw ω i) P
  uniform : ∀ i, P.map (fun ω => draw ω i) = law

/-- A number which is uniform between zero and one. -/
noncomputable def uniformNumber : Measure ℝ := volume.restrict (Icc (0 : ℝ) 1)

/-- Two independent numbers, both uniform between zero and one: what a link of the freely jointed chain asks for. -/
noncomputable def uniformPair : Measure (ℝ × ℝ) := uniformNumber.prod uniformNumber

/-- An ideal generator for the freely jointed chain. -/
abbrev UniformDraws {Ω : Type*} [MeasurableSpace Ω] (P : Measure Ω) (draw : Ω → ℕ → ℝ × ℝ) : Prop := IdealDraws uniformPair P draw

/-- A normal stretch with mean one and variance `1/κ`, and two uniform numbers: what a link of the extensible chain asks for. -/
noncomputable def stretchAndPair (κ : ℝ) : Measure (ℝ × ℝ × ℝ) :=
  (ProbabilityTheory.gaussianReal 1 (1 / κ).toNNReal).prod uniformPair

/-- Vectors are measured by their entries. -/
instance : MeasurableSpace (V3 ℝ) := MeasurableSpace.comap (fun v => (v.x, v.y, v.z)) inferInstance

/-- A vector of three independent uniform numbers. -/
noncomputable def uniformVector : Measure (V3 ℝ) :=
  (uniformNumber.prod (uniformNumber.prod uniformNumber)).map fun p => ⟨p.1, p.2.1, p.2.2⟩

/-- A uniform number and a vector of three: what a link of the freely rotating chain asks for. -/
noncomputable def numberAndVector : Measure (ℝ × V3 ℝ) := uniformNumber.prod uniformVector

/-- A normal stretch, a uniform number and a vector of three: what a link of the extensible freely rotating chain asks for. -/
noncomputable def stretchNumberAndVector (κ : ℝ) : Measure (ℝ × ℝ × V3 ℝ) :=
  (ProbabilityTheory.gaussianReal 1 (1 / κ).toNNReal).prod numberAndVector

end Polymers.Spec
