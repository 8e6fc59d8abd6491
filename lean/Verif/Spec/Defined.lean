import Verif.Spec.Ensembles
import Verif.Model.SReal

/-!
Definedness of the API.  The methods are evaluated over `SReal`, where a division by zero, a logarithm or root outside its
domain gives `undef` and a panic gives `panic`, both of which spread through everything computed from them.  A method family
is defined on a domain when on it every method returns an ordinary number; that number is the one the same method has over
the reals, so that everything proved about the methods over the reals is a statement about defined values there. -/

namespace Polymers.Spec

open Polymers.SReal

/-- `EnergyMethods` evaluated over `SReal` at real arguments. -/
structure EnergyMethodsS where
  energy : ℝ → ℝ → SReal
  energy_per_link : ℝ → ℝ → SReal
  relative : ℝ → ℝ → SReal
  relative_per_link : ℝ → ℝ → SReal
  nd_energy : ℝ → ℝ → SReal
  nd_energy_per_link : ℝ → ℝ → SReal
  nd_relative : ℝ → ℝ → SReal
  nd_relative_per_link : ℝ → ℝ → SReal

/-- `LengthMethods` evaluated over `SReal` at real arguments. -/
structure LengthMethodsS where
  length : ℝ → ℝ → SReal
  length_per_link : ℝ → ℝ → SReal
  nd_length : ℝ → ℝ → SReal
  nd_length_per_link : ℝ → ℝ → SReal

/-- `ForceMethods` evaluated over `SReal` at real arguments. -/
structure ForceMethodsS where
  force : ℝ → ℝ → SReal
  nd_force : ℝ → ℝ → SReal

/-- `DistributionMethods` evaluated over `SReal` at real arguments. -/
structure DistributionMethodsS where
  density : ℝ → SReal
  nd_density : ℝ → SReal
  radial : ℝ → SReal
  nd_radial : ℝ → SReal

/-- Every energy method is defined, with the value it has over the reals, at every positive temperature and nondimensional
argument in `D`; `nd x T` is the nondimensional argument of the argument `x`. -/
structure EnergyMethodsS.DefinedAs (s : EnergyMethodsS) (e : EnergyMethods) (nd : ℝ → ℝ → ℝ) (D : ℝ → ℝ → Prop) : Prop where
  energy : ∀ x T, 0 < T → D (nd x T) T → s.energy x T = val (e.energy x T)
  energy_per_link : ∀ x T, 0 < T → D (nd x T) T → s.energy_per_link x T = val (e.energy_per_link x T)
  relative : ∀ x T, 0 < T → D (nd x T) T → s.relative x T = val (e.relative x T)
  relative_per_link : ∀ x T, 0 < T → D (nd x T) T → s.relative_per_link x T = val (e.relative_per_link x T)
  nd_energy : ∀ y T, 0 < T → D y T → s.nd_energy y T = val (e.nd_energy y T)
  nd_energy_per_link : ∀ y T, 0 < T → D y T → s.nd_energy_per_link y T = val (e.nd_energy_per_link y T)
  nd_relative : ∀ y T, 0 < T → D y T → s.nd_relative y T = val (e.nd_relative y T)
  nd_relative_per_link : ∀ y T, 0 < T → D y T → s.nd_relative_per_link y T = val (e.nd_relative_per_link y T)

/-- Every length method is defined on `D`. -/
structure LengthMethodsS.DefinedAs (s : LengthMethodsS) (e : LengthMethods) (nd : ℝ → ℝ → ℝ) (D : ℝ → ℝ → Prop) : Prop where
  length : ∀ x T, 0 < T → D (nd x T) T → s.length x T = val (e.length x T)
  length_per_link : ∀ x T, 0 < T → D (nd x T) T → s.length_per_link x T = val (e.length_per_link x T)
  nd_length : ∀ y T, 0 < T → D y T → s.nd_length y T = val (e.nd_length y T)
  nd_length_per_link : ∀ y T, 0 < T → D y T → s.nd_length_per_link y T = val (e.nd_length_per_link y T)

/-- Every force method is defined on `D`. -/
structure ForceMethodsS.DefinedAs (s : ForceMethodsS) (e : ForceMethods) (nd : ℝ → ℝ → ℝ) (D : ℝ → ℝ → Prop) : Prop where
  force : ∀ x T, 0 < T → D (nd x T) T → s.force x T = val (e.force x T)
  nd_force : ∀ y T, 0 < T → D y T → s.nd_force y T = val (e.nd_force y T)

/-- Every distribution method is defined on `D`; `nd x` is the nondimensional argument of the argument `x`. -/
structure DistributionMethodsS.DefinedAs (s : DistributionMethodsS) (e : DistributionMethods) (nd : ℝ → ℝ) (D : ℝ → Prop) :
    Prop where
  density : ∀ x, D (nd x) → s.density x = val (e.density x)
  nd_density : ∀ y, D y → s.nd_density y = val (e.nd_density y)
  radial : ∀ x, D (nd x) → s.radial x = val (e.radial x)
  nd_radial : ∀ y, D y → s.nd_radial y = val (e.nd_radial y)

end Polymers.Spec
