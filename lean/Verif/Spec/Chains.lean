import Verif.Model.MonteCarlo
import Verif.Model.RealInst

/-! Specification vocabulary for sampled chain configurations and histograms. -/

namespace Polymers.Spec

/-- Scalar product of two vectors. -/
def dot (u v : V3 ℝ) : ℝ := u.x * v.x + u.y * v.y + u.z * v.z

/-- The position of the end of link `i` of a configuration, the chain starting at the origin. -/
noncomputable def position (configuration : List (V3 ℝ)) (i : ℕ) : V3 ℝ := configuration.getD i ⟨0, 0, 0⟩

/-- The vector of link `i`. -/
noncomputable def linkVector (configuration : List (V3 ℝ)) : ℕ → V3 ℝ
  | 0 => position configuration 0
  | i + 1 => ⟨(position configuration (i + 1)).x - (position configuration i).x,
      (position configuration (i + 1)).y - (position configuration i).y,
      (position configuration (i + 1)).z - (position configuration i).z⟩

/-- The direction the angle of link `i` is measured from: the first axis for the first link, then the previous link. -/
noncomputable def previousLink (configuration : List (V3 ℝ)) : ℕ → V3 ℝ
  | 0 => ⟨1, 0, 0⟩
  | i + 1 => linkVector configuration i

/-- The vectors are parallel: the case of equality in the Cauchy-Schwarz inequality. -/
def Parallel (u v : V3 ℝ) : Prop := dot u v ^ 2 = dot u u * dot v v

/-- The number of samples in the half-open interval `[a, b)`. -/
noncomputable def samplesIn (samples : List ℝ) (a b : ℝ) : ℕ :=
  open Classical in samples.countP fun x => decide (a ≤ x ∧ x < b)

/-- What a histogram returns: `B` bins of equal width on `[0, s)`, their centres, and in each bin the number of samples in
it divided by the number of samples and by the width. -/
structure IsHistogram (s : ℝ) (B : ℕ) (samples : List ℝ) (out : List ℝ × List ℝ) : Prop where
  centers_length : out.1.length = B
  density_length : out.2.length = B
  centers : ∀ b < B, out.1.getD b 0 = s * (b + 1 / 2) / B
  density : ∀ b < B, out.2.getD b 0 =
    samplesIn samples (s * b / B) (s * (b + 1) / B) / (samples.length * (s / B))

end Polymers.Spec
