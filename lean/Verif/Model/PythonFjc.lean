/- Generated by tools/py2lean.py from the py.rs files of /repo/src/physics/single_chain/fjc ; do not edit by hand. -/
import Verif.Model.Fjc
import Verif.Model.PythonBase

set_option linter.unusedVariables false

open Polymers

variable {α : Type} [Add α] [Sub α] [Mul α] [Div α] [Neg α] [OfScientific α] [NatCast α] [Elem α]

namespace Polymers.Python.fjc.thermodynamics.modified_canonical.asymptotic.strong_potential

/-- `src/physics/single_chain/fjc/thermodynamics/modified_canonical/asymptotic/strong_potential/py.rs` lines 20-33: struct `FJC`. -/
structure FJC (α : Type) where
  /-- field `hinge_mass` -/
  hinge_mass : α
  /-- field `link_length` -/
  link_length : α
  /-- field `number_of_links` -/
  number_of_links : Nat

/-- `src/physics/single_chain/fjc/thermodynamics/modified_canonical/asymptotic/strong_potential/py.rs` lines 39-47. -/
def FJC.init (number_of_links : Nat) (link_length : α) (hinge_mass : α) : Polymers.Python.fjc.thermodynamics.modified_canonical.asymptotic.strong_potential.FJC α :=
  { hinge_mass := hinge_mass, link_length := link_length, number_of_links := number_of_links }

/-- `src/physics/single_chain/fjc/thermodynamics/modified_canonical/asymptotic/strong_potential/py.rs` lines 58-61. -/
def FJC.force (self : Polymers.Python.fjc.thermodynamics.modified_canonical.asymptotic.strong_potential.FJC α) (potential_distance : NdArray α) (potential_stiffness : α) (temperature : α) : NdArray α :=
  NdArray.mapv potential_distance (fun (potential_distance : α) => Polymers.fjc.thermodynamics.modified_canonical.asymptotic.strong_potential.force self.number_of_links self.link_length potential_distance potential_stiffness temperature)

/-- `src/physics/single_chain/fjc/thermodynamics/modified_canonical/asymptotic/strong_potential/py.rs` lines 76-79. -/
def FJC.nondimensional_force (self : Polymers.Python.fjc.thermodynamics.modified_canonical.asymptotic.strong_potential.FJC α) (nondimensional_potential_distance : NdArray α) (nondimensional_potential_stiffness : α) : NdArray α :=
  NdArray.mapv nondimensional_potential_distance (fun (nondimensional_potential_distance : α) => Polymers.fjc.thermodynamics.modified_canonical.asymptotic.strong_potential.nondimensional_force self.number_of_links nondimensional_potential_distance nondimensional_potential_stiffness)

/-- `src/physics/single_chain/fjc/thermodynamics/modified_canonical/asymptotic/strong_potential/py.rs` lines 90-93. -/
def FJC.helmholtz_free_energy (self : Polymers.Python.fjc.thermodynamics.modified_canonical.asymptotic.strong_potential.FJC α) (potential_distance : NdArray α) (potential_stiffness : α) (temperature : α) : NdArray α :=
  NdArray.mapv potential_distance (fun (potential_distance : α) => Polymers.fjc.thermodynamics.modified_canonical.asymptotic.strong_potential.helmholtz_free_energy self.number_of_links self.link_length self.hinge_mass potential_distance potential_stiffness temperature)

/-- `src/physics/single_chain/fjc/thermodynamics/modified_canonical/asymptotic/strong_potential/py.rs` lines 104-107. -/
def FJC.helmholtz_free_energy_per_link (self : Polymers.Python.fjc.thermodynamics.modified_canonical.asymptotic.strong_potential.FJC α) (potential_distance : NdArray α) (potential_stiffness : α) (temperature : α) : NdArray α :=
  NdArray.mapv potential_distance (fun (potential_distance : α) => Polymers.fjc.thermodynamics.modified_canonical.asymptotic.strong_potential.helmholtz_free_energy_per_link self.number_of_links self.link_length self.hinge_mass potential_distance potential_stiffness temperature)

/-- `src/physics/single_chain/fjc/thermodynamics/modified_canonical/asymptotic/strong_potential/py.rs` lines 118-121. -/
def FJC.relative_helmholtz_free_energy (self : Polymers.Python.fjc.thermodynamics.modified_canonical.asymptotic.strong_potential.FJC α) (potential_distance : NdArray α) (potential_stiffness : α) (temperature : α) : NdArray α :=
  NdArray.mapv potential_distance (fun (potential_distance : α) => Polymers.fjc.thermodynamics.modified_canonical.asymptotic.strong_potential.relative_helmholtz_free_energy self.number_of_links self.link_length potential_distance potential_stiffness temperature)

/-- `src/physics/single_chain/fjc/thermodynamics/modified_canonical/asymptotic/strong_potential/py.rs` lines 132-135. -/
def FJC.relative_helmholtz_free_energy_per_link (self : Polymers.Python.fjc.thermodynamics.modified_canonical.asymptotic.strong_potential.FJC α) (potential_distance : NdArray α) (potential_stiffness : α) (temperature : α) : NdArray α :=
  NdArray.mapv potential_distance (fun (potential_distance : α) => Polymers.fjc.thermodynamics.modified_canonical.asymptotic.strong_potential.relative_helmholtz_free_energy_per_link self.number_of_links self.link_length potential_distance potential_stiffness temperature)

/-- `src/physics/single_chain/fjc/thermodynamics/modified_canonical/asymptotic/strong_potential/py.rs` lines 146-149. -/
def FJC.nondimensional_helmholtz_free_energy (self : Polymers.Python.fjc.thermodynamics.modified_canonical.asymptotic.strong_potential.FJC α) (nondimensional_potential_distance : NdArray α) (nondimensional_potential_stiffness : α) (temperature : α) : NdArray α :=
  NdArray.mapv nondimensional_potential_distance (fun (nondimensional_potential_distance : α) => Polymers.fjc.thermodynamics.modified_canonical.asymptotic.strong_potential.nondimensional_helmholtz_free_energy self.number_of_links self.link_length self.hinge_mass nondimensional_potential_distance nondimensional_potential_stiffness temperature)

/-- `src/physics/single_chain/fjc/thermodynamics/modified_canonical/asymptotic/strong_potential/py.rs` lines 160-163. -/
def FJC.nondimensional_helmholtz_free_energy_per_link (self : Polymers.Python.fjc.thermodynamics.modified_canonical.asymptotic.strong_potential.FJC α) (nondimensional_potential_distance : NdArray α) (nondimensional_potential_stiffness : α) (temperature : α) : NdArray α :=
  NdArray.mapv nondimensional_potential_distance (fun (nondimensional_potential_distance : α) => Polymers.fjc.thermodynamics.modified_canonical.asymptotic.strong_potential.nondimensional_helmholtz_free_energy_per_link self.number_of_links self.link_length self.hinge_mass nondimensional_potential_distance nondimensional_potential_stiffness temperature)

/-- `src/physics/single_chain/fjc/thermodynamics/modified_canonical/asymptotic/strong_potential/py.rs` lines 173-176. -/
def FJC.nondimensional_relative_helmholtz_free_energy (self : Polymers.Python.fjc.thermodynamics.modified_canonical.asymptotic.strong_potential.FJC α) (nondimensional_potential_distance : NdArray α) (nondimensional_potential_stiffness : α) : NdArray α :=
  NdArray.mapv nondimensional_potential_distance (fun (nondimensional_potential_distance : α) => Polymers.fjc.thermodynamics.modified_canonical.asymptotic.strong_potential.nondimensional_relative_helmholtz_free_energy self.number_of_links nondimensional_potential_distance nondimensional_potential_stiffness)

/-- `src/physics/single_chain/fjc/thermodynamics/modified_canonical/asymptotic/strong_potential/py.rs` lines 186-189. -/
def FJC.nondimensional_relative_helmholtz_free_energy_per_link (self : Polymers.Python.fjc.thermodynamics.modified_canonical.asymptotic.strong_potential.FJC α) (nondimensional_potential_distance : NdArray α) (nondimensional_potential_stiffness : α) : NdArray α :=
  NdArray.mapv nondimensional_potential_distance (fun (nondimensional_potential_distance : α) => Polymers.fjc.thermodynamics.modified_canonical.asymptotic.strong_potential.nondimensional_relative_helmholtz_free_energy_per_link self.number_of_links nondimensional_potential_distance nondimensional_potential_stiffness)

end Polymers.Python.fjc.thermodynamics.modified_canonical.asymptotic.strong_potential

namespace Polymers.Python.fjc.thermodynamics.modified_canonical.asymptotic.weak_potential

/-- `src/physics/single_chain/fjc/thermodynamics/modified_canonical/asymptotic/weak_potential/py.rs` lines 20-33: struct `FJC`. -/
structure FJC (α : Type) where
  /-- field `hinge_mass` -/
  hinge_mass : α
  /-- field `link_length` -/
  link_length : α
  /-- field `number_of_links` -/
  number_of_links : Nat

/-- `src/physics/single_chain/fjc/thermodynamics/modified_canonical/asymptotic/weak_potential/py.rs` lines 39-47. -/
def FJC.init (number_of_links : Nat) (link_length : α) (hinge_mass : α) : Polymers.Python.fjc.thermodynamics.modified_canonical.asymptotic.weak_potential.FJC α :=
  { hinge_mass := hinge_mass, link_length := link_length, number_of_links := number_of_links }

/-- `src/physics/single_chain/fjc/thermodynamics/modified_canonical/asymptotic/weak_potential/py.rs` lines 58-61. -/
def FJC.end_to_end_length (self : Polymers.Python.fjc.thermodynamics.modified_canonical.asymptotic.weak_potential.FJC α) (potential_distance : NdArray α) (potential_stiffness : α) (temperature : α) : NdArray α :=
  NdArray.mapv potential_distance (fun (potential_distance : α) => Polymers.fjc.thermodynamics.modified_canonical.asymptotic.weak_potential.end_to_end_length self.number_of_links self.link_length potential_distance potential_stiffness temperature)

/-- `src/physics/single_chain/fjc/thermodynamics/modified_canonical/asymptotic/weak_potential/py.rs` lines 72-75. -/
def FJC.end_to_end_length_per_link (self : Polymers.Python.fjc.thermodynamics.modified_canonical.asymptotic.weak_potential.FJC α) (potential_distance : NdArray α) (potential_stiffness : α) (temperature : α) : NdArray α :=
  NdArray.mapv potential_distance (fun (potential_distance : α) => Polymers.fjc.thermodynamics.modified_canonical.asymptotic.weak_potential.end_to_end_length_per_link self.number_of_links self.link_length potential_distance potential_stiffness temperature)

/-- `src/physics/single_chain/fjc/thermodynamics/modified_canonical/asymptotic/weak_potential/py.rs` lines 85-88. -/
def FJC.nondimensional_end_to_end_length (self : Polymers.Python.fjc.thermodynamics.modified_canonical.asymptotic.weak_potential.FJC α) (nondimensional_potential_distance : NdArray α) (nondimensional_potential_stiffness : α) : NdArray α :=
  NdArray.mapv nondimensional_potential_distance (fun (nondimensional_potential_distance : α) => Polymers.fjc.thermodynamics.modified_canonical.asymptotic.weak_potential.nondimensional_end_to_end_length self.number_of_links nondimensional_potential_distance nondimensional_potential_stiffness)

/-- `src/physics/single_chain/fjc/thermodynamics/modified_canonical/asymptotic/weak_potential/py.rs` lines 103-106. -/
def FJC.nondimensional_end_to_end_length_per_link (self : Polymers.Python.fjc.thermodynamics.modified_canonical.asymptotic.weak_potential.FJC α) (nondimensional_potential_distance : NdArray α) (nondimensional_potential_stiffness : α) : NdArray α :=
  NdArray.mapv nondimensional_potential_distance (fun (nondimensional_potential_distance : α) => Polymers.fjc.thermodynamics.modified_canonical.asymptotic.weak_potential.nondimensional_end_to_end_length_per_link self.number_of_links nondimensional_potential_distance nondimensional_potential_stiffness)

/-- `src/physics/single_chain/fjc/thermodynamics/modified_canonical/asymptotic/weak_potential/py.rs` lines 116-119. -/
def FJC.force (self : Polymers.Python.fjc.thermodynamics.modified_canonical.asymptotic.weak_potential.FJC α) (potential_distance : NdArray α) (potential_stiffness : α) : NdArray α :=
  NdArray.mapv potential_distance (fun (potential_distance : α) => Polymers.fjc.thermodynamics.modified_canonical.asymptotic.weak_potential.force potential_distance potential_stiffness)

/-- `src/physics/single_chain/fjc/thermodynamics/modified_canonical/asymptotic/weak_potential/py.rs` lines 129-132. -/
def FJC.nondimensional_force (self : Polymers.Python.fjc.thermodynamics.modified_canonical.asymptotic.weak_potential.FJC α) (nondimensional_potential_distance : NdArray α) (nondimensional_potential_stiffness : α) : NdArray α :=
  NdArray.mapv nondimensional_potential_distance (fun (nondimensional_potential_distance : α) => Polymers.fjc.thermodynamics.modified_canonical.asymptotic.weak_potential.nondimensional_force self.number_of_links nondimensional_potential_distance nondimensional_potential_stiffness)

/-- `src/physics/single_chain/fjc/thermodynamics/modified_canonical/asymptotic/weak_potential/py.rs` lines 143-146. -/
def FJC.gibbs_free_energy (self : Polymers.Python.fjc.thermodynamics.modified_canonical.asymptotic.weak_potential.FJC α) (potential_distance : NdArray α) (potential_stiffness : α) (temperature : α) : NdArray α :=
  NdArray.mapv potential_distance (fun (potential_distance : α) => Polymers.fjc.thermodynamics.modified_canonical.asymptotic.weak_potential.gibbs_free_energy self.number_of_links self.link_length self.hinge_mass potential_distance potential_stiffness temperature)

/-- `src/physics/single_chain/fjc/thermodynamics/modified_canonical/asymptotic/weak_potential/py.rs` lines 157-160. -/
def FJC.gibbs_free_energy_per_link (self : Polymers.Python.fjc.thermodynamics.modified_canonical.asymptotic.weak_potential.FJC α) (potential_distance : NdArray α) (potential_stiffness : α) (temperature : α) : NdArray α :=
  NdArray.mapv potential_distance (fun (potential_distance : α) => Polymers.fjc.thermodynamics.modified_canonical.asymptotic.weak_potential.gibbs_free_energy_per_link self.number_of_links self.link_length self.hinge_mass potential_distance potential_stiffness temperature)

/-- `src/physics/single_chain/fjc/thermodynamics/modified_canonical/asymptotic/weak_potential/py.rs` lines 171-174. -/
def FJC.relative_gibbs_free_energy (self : Polymers.Python.fjc.thermodynamics.modified_canonical.asymptotic.weak_potential.FJC α) (potential_distance : NdArray α) (potential_stiffness : α) (temperature : α) : NdArray α :=
  NdArray.mapv potential_distance (fun (potential_distance : α) => Polymers.fjc.thermodynamics.modified_canonical.asymptotic.weak_potential.relative_gibbs_free_energy self.number_of_links self.link_length potential_distance potential_stiffness temperature)

/-- `src/physics/single_chain/fjc/thermodynamics/modified_canonical/asymptotic/weak_potential/py.rs` lines 185-188. -/
def FJC.relative_gibbs_free_energy_per_link (self : Polymers.Python.fjc.thermodynamics.modified_canonical.asymptotic.weak_potential.FJC α) (potential_distance : NdArray α) (potential_stiffness : α) (temperature : α) : NdArray α :=
  NdArray.mapv potential_distance (fun (potential_distance : α) => Polymers.fjc.thermodynamics.modified_canonical.asymptotic.weak_potential.relative_gibbs_free_energy_per_link self.number_of_links self.link_length potential_distance potential_stiffness temperature)

/-- `src/physics/single_chain/fjc/thermodynamics/modified_canonical/asymptotic/weak_potential/py.rs` lines 199-202. -/
def FJC.nondimensional_gibbs_free_energy (self : Polymers.Python.fjc.thermodynamics.modified_canonical.asymptotic.weak_potential.FJC α) (nondimensional_potential_distance : NdArray α) (nondimensional_potential_stiffness : α) (temperature : α) : NdArray α :=
  NdArray.mapv nondimensional_potential_distance (fun (nondimensional_potential_distance : α) => Polymers.fjc.thermodynamics.modified_canonical.asymptotic.weak_potential.nondimensional_gibbs_free_energy self.number_of_links self.link_length self.hinge_mass nondimensional_potential_distance nondimensional_potential_stiffness temperature)

/-- `src/physics/single_chain/fjc/thermodynamics/modified_canonical/asymptotic/weak_potential/py.rs` lines 213-216. -/
def FJC.nondimensional_gibbs_free_energy_per_link (self : Polymers.Python.fjc.thermodynamics.modified_canonical.asymptotic.weak_potential.FJC α) (nondimensional_potential_distance : NdArray α) (nondimensional_potential_stiffness : α) (temperature : α) : NdArray α :=
  NdArray.mapv nondimensional_potential_distance (fun (nondimensional_potential_distance : α) => Polymers.fjc.thermodynamics.modified_canonical.asymptotic.weak_potential.nondimensional_gibbs_free_energy_per_link self.number_of_links self.link_length self.hinge_mass nondimensional_potential_distance nondimensional_potential_stiffness temperature)

/-- `src/physics/single_chain/fjc/thermodynamics/modified_canonical/asymptotic/weak_potential/py.rs` lines 226-229. -/
def FJC.nondimensional_relative_gibbs_free_energy (self : Polymers.Python.fjc.thermodynamics.modified_canonical.asymptotic.weak_potential.FJC α) (nondimensional_potential_distance : NdArray α) (nondimensional_potential_stiffness : α) : NdArray α :=
  NdArray.mapv nondimensional_potential_distance (fun (nondimensional_potential_distance : α) => Polymers.fjc.thermodynamics.modified_canonical.asymptotic.weak_potential.nondimensional_relative_gibbs_free_energy self.number_of_links nondimensional_potential_distance nondimensional_potential_stiffness)

/-- `src/physics/single_chain/fjc/thermodynamics/modified_canonical/asymptotic/weak_potential/py.rs` lines 239-242. -/
def FJC.nondimensional_relative_gibbs_free_energy_per_link (self : Polymers.Python.fjc.thermodynamics.modified_canonical.asymptotic.weak_potential.FJC α) (nondimensional_potential_distance : NdArray α) (nondimensional_potential_stiffness : α) : NdArray α :=
  NdArray.mapv nondimensional_potential_distance (fun (nondimensional_potential_distance : α) => Polymers.fjc.thermodynamics.modified_canonical.asymptotic.weak_potential.nondimensional_relative_gibbs_free_energy_per_link self.number_of_links nondimensional_potential_distance nondimensional_potential_stiffness)

end Polymers.Python.fjc.thermodynamics.modified_canonical.asymptotic.weak_potential

namespace Polymers.Python.fjc.thermodynamics.isometric.legendre

/-- `src/physics/single_chain/fjc/thermodynamics/isometric/legendre/py.rs` lines 27-42: struct `FJC`. -/
structure FJC (α : Type) where
  /-- field `hinge_mass` -/
  hinge_mass : α
  /-- field `link_length` -/
  link_length : α
  /-- field `number_of_links` -/
  number_of_links : Nat
  /-- field `normalization_nondimensional_equilibrium_distribution` -/
  normalization_nondimensional_equilibrium_distribution : α

/-- `src/physics/single_chain/fjc/thermodynamics/isometric/legendre/py.rs` lines 48-58. -/
def FJC.init (number_of_links : Nat) (link_length : α) (hinge_mass : α) : Polymers.Python.fjc.thermodynamics.isometric.legendre.FJC α :=
  let normalization : α := Polymers.math.integrate_1d (fun (nondimensional_end_to_end_length_per_link : α) => Polymers.fjc.thermodynamics.isometric.legendre.nondimensional_equilibrium_radial_distribution number_of_links 1.0 nondimensional_end_to_end_length_per_link) (Polymers.ZERO : α) (Polymers.ONE : α) Polymers.POINTS
  { hinge_mass := hinge_mass, link_length := link_length, number_of_links := number_of_links, normalization_nondimensional_equilibrium_distribution := normalization }

/-- `src/physics/single_chain/fjc/thermodynamics/isometric/legendre/py.rs` lines 73-76. -/
def FJC.force (self : Polymers.Python.fjc.thermodynamics.isometric.legendre.FJC α) (end_to_end_length : NdArray α) (temperature : α) : NdArray α :=
  NdArray.mapv end_to_end_length (fun (end_to_end_length : α) => Polymers.fjc.thermodynamics.isometric.legendre.force self.number_of_links self.link_length end_to_end_length temperature)

/-- `src/physics/single_chain/fjc/thermodynamics/isometric/legendre/py.rs` lines 90-93. -/
def FJC.nondimensional_force (self : Polymers.Python.fjc.thermodynamics.isometric.legendre.FJC α) (nondimensional_end_to_end_length_per_link : NdArray α) : NdArray α :=
  NdArray.mapv nondimensional_end_to_end_length_per_link (fun (nondimensional_end_to_end_length_per_link : α) => Polymers.fjc.thermodynamics.isometric.legendre.nondimensional_force nondimensional_end_to_end_length_per_link)

/-- `src/physics/single_chain/fjc/thermodynamics/isometric/legendre/py.rs` lines 108-111. -/
def FJC.helmholtz_free_energy (self : Polymers.Python.fjc.thermodynamics.isometric.legendre.FJC α) (end_to_end_length : NdArray α) (temperature : α) : NdArray α :=
  NdArray.mapv end_to_end_length (fun (end_to_end_length : α) => Polymers.fjc.thermodynamics.isometric.legendre.helmholtz_free_energy self.number_of_links self.link_length self.hinge_mass end_to_end_length temperature)

/-- `src/physics/single_chain/fjc/thermodynamics/isometric/legendre/py.rs` lines 121-124. -/
def FJC.helmholtz_free_energy_per_link (self : Polymers.Python.fjc.thermodynamics.isometric.legendre.FJC α) (end_to_end_length : NdArray α) (temperature : α) : NdArray α :=
  NdArray.mapv end_to_end_length (fun (end_to_end_length : α) => Polymers.fjc.thermodynamics.isometric.legendre.helmholtz_free_energy_per_link self.number_of_links self.link_length self.hinge_mass end_to_end_length temperature)

/-- `src/physics/single_chain/fjc/thermodynamics/isometric/legendre/py.rs` lines 134-137. -/
def FJC.relative_helmholtz_free_energy (self : Polymers.Python.fjc.thermodynamics.isometric.legendre.FJC α) (end_to_end_length : NdArray α) (temperature : α) : NdArray α :=
  NdArray.mapv end_to_end_length (fun (end_to_end_length : α) => Polymers.fjc.thermodynamics.isometric.legendre.relative_helmholtz_free_energy self.number_of_links self.link_length end_to_end_length temperature)

/-- `src/physics/single_chain/fjc/thermodynamics/isometric/legendre/py.rs` lines 147-150. -/
def FJC.relative_helmholtz_free_energy_per_link (self : Polymers.Python.fjc.thermodynamics.isometric.legendre.FJC α) (end_to_end_length : NdArray α) (temperature : α) : NdArray α :=
  NdArray.mapv end_to_end_length (fun (end_to_end_length : α) => Polymers.fjc.thermodynamics.isometric.legendre.relative_helmholtz_free_energy_per_link self.number_of_links self.link_length end_to_end_length temperature)

/-- `src/physics/single_chain/fjc/thermodynamics/isometric/legendre/py.rs` lines 160-163. -/
def FJC.nondimensional_helmholtz_free_energy (self : Polymers.Python.fjc.thermodynamics.isometric.legendre.FJC α) (nondimensional_end_to_end_length_per_link : NdArray α) (temperature : α) : NdArray α :=
  NdArray.mapv nondimensional_end_to_end_length_per_link (fun (nondimensional_end_to_end_length_per_link : α) => Polymers.fjc.thermodynamics.isometric.legendre.nondimensional_helmholtz_free_energy self.number_of_links self.link_length self.hinge_mass nondimensional_end_to_end_length_per_link temperature)

/-- `src/physics/single_chain/fjc/thermodynamics/isometric/legendre/py.rs` lines 178-181. -/
def FJC.nondimensional_helmholtz_free_energy_per_link (self : Polymers.Python.fjc.thermodynamics.isometric.legendre.FJC α) (nondimensional_end_to_end_length_per_link : NdArray α) (temperature : α) : NdArray α :=
  NdArray.mapv nondimensional_end_to_end_length_per_link (fun (nondimensional_end_to_end_length_per_link : α) => Polymers.fjc.thermodynamics.isometric.legendre.nondimensional_helmholtz_free_energy_per_link self.number_of_links self.link_length self.hinge_mass nondimensional_end_to_end_length_per_link temperature)

/-- `src/physics/single_chain/fjc/thermodynamics/isometric/legendre/py.rs` lines 190-193. -/
def FJC.nondimensional_relative_helmholtz_free_energy (self : Polymers.Python.fjc.thermodynamics.isometric.legendre.FJC α) (nondimensional_end_to_end_length_per_link : NdArray α) : NdArray α :=
  NdArray.mapv nondimensional_end_to_end_length_per_link (fun (nondimensional_end_to_end_length_per_link : α) => Polymers.fjc.thermodynamics.isometric.legendre.nondimensional_relative_helmholtz_free_energy self.number_of_links nondimensional_end_to_end_length_per_link)

/-- `src/physics/single_chain/fjc/thermodynamics/isometric/legendre/py.rs` lines 207-210. -/
def FJC.nondimensional_relative_helmholtz_free_energy_per_link (self : Polymers.Python.fjc.thermodynamics.isometric.legendre.FJC α) (nondimensional_end_to_end_length_per_link : NdArray α) : NdArray α :=
  NdArray.mapv nondimensional_end_to_end_length_per_link (fun (nondimensional_end_to_end_length_per_link : α) => Polymers.fjc.thermodynamics.isometric.legendre.nondimensional_relative_helmholtz_free_energy_per_link nondimensional_end_to_end_length_per_link)

/-- `src/physics/single_chain/fjc/thermodynamics/isometric/legendre/py.rs` lines 222-225. -/
def FJC.equilibrium_distribution (self : Polymers.Python.fjc.thermodynamics.isometric.legendre.FJC α) (end_to_end_length : NdArray α) : NdArray α :=
  NdArray.mapv end_to_end_length (fun (end_to_end_length : α) => Polymers.fjc.thermodynamics.isometric.legendre.equilibrium_distribution self.number_of_links self.link_length self.normalization_nondimensional_equilibrium_distribution end_to_end_length)

/-- `src/physics/single_chain/fjc/thermodynamics/isometric/legendre/py.rs` lines 237-240. -/
def FJC.nondimensional_equilibrium_distribution (self : Polymers.Python.fjc.thermodynamics.isometric.legendre.FJC α) (nondimensional_end_to_end_length_per_link : NdArray α) : NdArray α :=
  NdArray.mapv nondimensional_end_to_end_length_per_link (fun (nondimensional_end_to_end_length_per_link : α) => Polymers.fjc.thermodynamics.isometric.legendre.nondimensional_equilibrium_distribution self.number_of_links self.normalization_nondimensional_equilibrium_distribution nondimensional_end_to_end_length_per_link)

/-- `src/physics/single_chain/fjc/thermodynamics/isometric/legendre/py.rs` lines 252-255. -/
def FJC.equilibrium_radial_distribution (self : Polymers.Python.fjc.thermodynamics.isometric.legendre.FJC α) (end_to_end_length : NdArray α) : NdArray α :=
  NdArray.mapv end_to_end_length (fun (end_to_end_length : α) => Polymers.fjc.thermodynamics.isometric.legendre.equilibrium_radial_distribution self.number_of_links self.link_length self.normalization_nondimensional_equilibrium_distribution end_to_end_length)

/-- `src/physics/single_chain/fjc/thermodynamics/isometric/legendre/py.rs` lines 267-270. -/
def FJC.nondimensional_equilibrium_radial_distribution (self : Polymers.Python.fjc.thermodynamics.isometric.legendre.FJC α) (nondimensional_end_to_end_length_per_link : NdArray α) : NdArray α :=
  NdArray.mapv nondimensional_end_to_end_length_per_link (fun (nondimensional_end_to_end_length_per_link : α) => Polymers.fjc.thermodynamics.isometric.legendre.nondimensional_equilibrium_radial_distribution self.number_of_links self.normalization_nondimensional_equilibrium_distribution nondimensional_end_to_end_length_per_link)

/-- `src/physics/single_chain/fjc/thermodynamics/isometric/legendre/py.rs` lines 285-288. -/
def FJC.gibbs_free_energy (self : Polymers.Python.fjc.thermodynamics.isometric.legendre.FJC α) (end_to_end_length : NdArray α) (temperature : α) : NdArray α :=
  NdArray.mapv end_to_end_length (fun (end_to_end_length : α) => Polymers.fjc.thermodynamics.isometric.legendre.gibbs_free_energy self.number_of_links self.link_length self.hinge_mass end_to_end_length temperature)

/-- `src/physics/single_chain/fjc/thermodynamics/isometric/legendre/py.rs` lines 298-301. -/
def FJC.gibbs_free_energy_per_link (self : Polymers.Python.fjc.thermodynamics.isometric.legendre.FJC α) (end_to_end_length : NdArray α) (temperature : α) : NdArray α :=
  NdArray.mapv end_to_end_length (fun (end_to_end_length : α) => Polymers.fjc.thermodynamics.isometric.legendre.gibbs_free_energy_per_link self.number_of_links self.link_length self.hinge_mass end_to_end_length temperature)

/-- `src/physics/single_chain/fjc/thermodynamics/isometric/legendre/py.rs` lines 311-314. -/
def FJC.relative_gibbs_free_energy (self : Polymers.Python.fjc.thermodynamics.isometric.legendre.FJC α) (end_to_end_length : NdArray α) (temperature : α) : NdArray α :=
  NdArray.mapv end_to_end_length (fun (end_to_end_length : α) => Polymers.fjc.thermodynamics.isometric.legendre.relative_gibbs_free_energy self.number_of_links self.link_length end_to_end_length temperature)

/-- `src/physics/single_chain/fjc/thermodynamics/isometric/legendre/py.rs` lines 324-327. -/
def FJC.relative_gibbs_free_energy_per_link (self : Polymers.Python.fjc.thermodynamics.isometric.legendre.FJC α) (end_to_end_length : NdArray α) (temperature : α) : NdArray α :=
  NdArray.mapv end_to_end_length (fun (end_to_end_length : α) => Polymers.fjc.thermodynamics.isometric.legendre.relative_gibbs_free_energy_per_link self.number_of_links self.link_length end_to_end_length temperature)

/-- `src/physics/single_chain/fjc/thermodynamics/isometric/legendre/py.rs` lines 337-340. -/
def FJC.nondimensional_gibbs_free_energy (self : Polymers.Python.fjc.thermodynamics.isometric.legendre.FJC α) (nondimensional_end_to_end_length_per_link : NdArray α) (temperature : α) : NdArray α :=
  NdArray.mapv nondimensional_end_to_end_length_per_link (fun (nondimensional_end_to_end_length_per_link : α) => Polymers.fjc.thermodynamics.isometric.legendre.nondimensional_gibbs_free_energy self.number_of_links self.link_length self.hinge_mass nondimensional_end_to_end_length_per_link temperature)

/-- `src/physics/single_chain/fjc/thermodynamics/isometric/legendre/py.rs` lines 350-353. -/
def FJC.nondimensional_gibbs_free_energy_per_link (self : Polymers.Python.fjc.thermodynamics.isometric.legendre.FJC α) (nondimensional_end_to_end_length_per_link : NdArray α) (temperature : α) : NdArray α :=
  NdArray.mapv nondimensional_end_to_end_length_per_link (fun (nondimensional_end_to_end_length_per_link : α) => Polymers.fjc.thermodynamics.isometric.legendre.nondimensional_gibbs_free_energy_per_link self.number_of_links self.link_length self.hinge_mass nondimensional_end_to_end_length_per_link temperature)

/-- `src/physics/single_chain/fjc/thermodynamics/isometric/legendre/py.rs` lines 362-365. -/
def FJC.nondimensional_relative_gibbs_free_energy (self : Polymers.Python.fjc.thermodynamics.isometric.legendre.FJC α) (nondimensional_end_to_end_length_per_link : NdArray α) : NdArray α :=
  NdArray.mapv nondimensional_end_to_end_length_per_link (fun (nondimensional_end_to_end_length_per_link : α) => Polymers.fjc.thermodynamics.isometric.legendre.nondimensional_relative_gibbs_free_energy self.number_of_links nondimensional_end_to_end_length_per_link)

/-- `src/physics/single_chain/fjc/thermodynamics/isometric/legendre/py.rs` lines 374-377. -/
def FJC.nondimensional_relative_gibbs_free_energy_per_link (self : Polymers.Python.fjc.thermodynamics.isometric.legendre.FJC α) (nondimensional_end_to_end_length_per_link : NdArray α) : NdArray α :=
  NdArray.mapv nondimensional_end_to_end_length_per_link (fun (nondimensional_end_to_end_length_per_link : α) => Polymers.fjc.thermodynamics.isometric.legendre.nondimensional_relative_gibbs_free_energy_per_link self.number_of_links nondimensional_end_to_end_length_per_link)

end Polymers.Python.fjc.thermodynamics.isometric.legendre

namespace Polymers.Python.fjc.thermodynamics.isotensional.legendre

/-- `src/physics/single_chain/fjc/thermodynamics/isotensional/legendre/py.rs` lines 20-33: struct `FJC`. -/
structure FJC (α : Type) where
  /-- field `hinge_mass` -/
  hinge_mass : α
  /-- field `link_length` -/
  link_length : α
  /-- field `number_of_links` -/
  number_of_links : Nat

/-- `src/physics/single_chain/fjc/thermodynamics/isotensional/legendre/py.rs` lines 39-47. -/
def FJC.init (number_of_links : Nat) (link_length : α) (hinge_mass : α) : Polymers.Python.fjc.thermodynamics.isotensional.legendre.FJC α :=
  { hinge_mass := hinge_mass, link_length := link_length, number_of_links := number_of_links }

/-- `src/physics/single_chain/fjc/thermodynamics/isotensional/legendre/py.rs` lines 60-63. -/
def FJC.helmholtz_free_energy (self : Polymers.Python.fjc.thermodynamics.isotensional.legendre.FJC α) (force : NdArray α) (temperature : α) : NdArray α :=
  NdArray.mapv force (fun (force : α) => Polymers.fjc.thermodynamics.isotensional.legendre.helmholtz_free_energy self.number_of_links self.link_length self.hinge_mass force temperature)

/-- `src/physics/single_chain/fjc/thermodynamics/isotensional/legendre/py.rs` lines 73-76. -/
def FJC.helmholtz_free_energy_per_link (self : Polymers.Python.fjc.thermodynamics.isotensional.legendre.FJC α) (force : NdArray α) (temperature : α) : NdArray α :=
  NdArray.mapv force (fun (force : α) => Polymers.fjc.thermodynamics.isotensional.legendre.helmholtz_free_energy_per_link self.link_length self.hinge_mass force temperature)

/-- `src/physics/single_chain/fjc/thermodynamics/isotensional/legendre/py.rs` lines 86-89. -/
def FJC.relative_helmholtz_free_energy (self : Polymers.Python.fjc.thermodynamics.isotensional.legendre.FJC α) (force : NdArray α) (temperature : α) : NdArray α :=
  NdArray.mapv force (fun (force : α) => Polymers.fjc.thermodynamics.isotensional.legendre.relative_helmholtz_free_energy self.number_of_links self.link_length force temperature)

/-- `src/physics/single_chain/fjc/thermodynamics/isotensional/legendre/py.rs` lines 99-102. -/
def FJC.relative_helmholtz_free_energy_per_link (self : Polymers.Python.fjc.thermodynamics.isotensional.legendre.FJC α) (force : NdArray α) (temperature : α) : NdArray α :=
  NdArray.mapv force (fun (force : α) => Polymers.fjc.thermodynamics.isotensional.legendre.relative_helmholtz_free_energy_per_link self.link_length force temperature)

/-- `src/physics/single_chain/fjc/thermodynamics/isotensional/legendre/py.rs` lines 112-115. -/
def FJC.nondimensional_helmholtz_free_energy (self : Polymers.Python.fjc.thermodynamics.isotensional.legendre.FJC α) (nondimensional_force : NdArray α) (temperature : α) : NdArray α :=
  NdArray.mapv nondimensional_force (fun (nondimensional_force : α) => Polymers.fjc.thermodynamics.isotensional.legendre.nondimensional_helmholtz_free_energy self.number_of_links self.link_length self.hinge_mass nondimensional_force temperature)

/-- `src/physics/single_chain/fjc/thermodynamics/isotensional/legendre/py.rs` lines 125-128. -/
def FJC.nondimensional_helmholtz_free_energy_per_link (self : Polymers.Python.fjc.thermodynamics.isotensional.legendre.FJC α) (nondimensional_force : NdArray α) (temperature : α) : NdArray α :=
  NdArray.mapv nondimensional_force (fun (nondimensional_force : α) => Polymers.fjc.thermodynamics.isotensional.legendre.nondimensional_helmholtz_free_energy_per_link self.link_length self.hinge_mass nondimensional_force temperature)

/-- `src/physics/single_chain/fjc/thermodynamics/isotensional/legendre/py.rs` lines 137-140. -/
def FJC.nondimensional_relative_helmholtz_free_energy (self : Polymers.Python.fjc.thermodynamics.isotensional.legendre.FJC α) (nondimensional_force : NdArray α) : NdArray α :=
  NdArray.mapv nondimensional_force (fun (nondimensional_force : α) => Polymers.fjc.thermodynamics.isotensional.legendre.nondimensional_relative_helmholtz_free_energy self.number_of_links nondimensional_force)

/-- `src/physics/single_chain/fjc/thermodynamics/isotensional/legendre/py.rs` lines 149-152. -/
def FJC.nondimensional_relative_helmholtz_free_energy_per_link (self : Polymers.Python.fjc.thermodynamics.isotensional.legendre.FJC α) (nondimensional_force : NdArray α) : NdArray α :=
  NdArray.mapv nondimensional_force (fun (nondimensional_force : α) => Polymers.fjc.thermodynamics.isotensional.legendre.nondimensional_relative_helmholtz_free_energy_per_link nondimensional_force)

end Polymers.Python.fjc.thermodynamics.isotensional.legendre

namespace Polymers.Python.fjc.thermodynamics.modified_canonical.asymptotic

/-- `src/physics/single_chain/fjc/thermodynamics/modified_canonical/asymptotic/py.rs` lines 16-37: struct `FJC`. -/
structure FJC (α : Type) where
  /-- field `hinge_mass` -/
  hinge_mass : α
  /-- field `link_length` -/
  link_length : α
  /-- field `number_of_links` -/
  number_of_links : Nat
  /-- field `weak_potential` -/
  weak_potential : Polymers.Python.fjc.thermodynamics.modified_canonical.asymptotic.weak_potential.FJC α
  /-- field `strong_potential` -/
  strong_potential : Polymers.Python.fjc.thermodynamics.modified_canonical.asymptotic.strong_potential.FJC α

/-- `src/physics/single_chain/fjc/thermodynamics/modified_canonical/asymptotic/py.rs` lines 43-53. -/
def FJC.init (number_of_links : Nat) (link_length : α) (hinge_mass : α) : Polymers.Python.fjc.thermodynamics.modified_canonical.asymptotic.FJC α :=
  { hinge_mass := hinge_mass, link_length := link_length, number_of_links := number_of_links, weak_potential := Polymers.Python.fjc.thermodynamics.modified_canonical.asymptotic.weak_potential.FJC.init number_of_links link_length hinge_mass, strong_potential := Polymers.Python.fjc.thermodynamics.modified_canonical.asymptotic.strong_potential.FJC.init number_of_links link_length hinge_mass }

end Polymers.Python.fjc.thermodynamics.modified_canonical.asymptotic

namespace Polymers.Python.fjc.thermodynamics.isometric

/-- `src/physics/single_chain/fjc/thermodynamics/isometric/py.rs` lines 21-38: struct `FJC`. -/
structure FJC (α : Type) where
  /-- field `hinge_mass` -/
  hinge_mass : α
  /-- field `link_length` -/
  link_length : α
  /-- field `number_of_links` -/
  number_of_links : Nat
  /-- field `legendre` -/
  legendre : Polymers.Python.fjc.thermodynamics.isometric.legendre.FJC α

/-- `src/physics/single_chain/fjc/thermodynamics/isometric/py.rs` lines 44-53. -/
def FJC.init (number_of_links : Nat) (link_length : α) (hinge_mass : α) : Polymers.Python.fjc.thermodynamics.isometric.FJC α :=
  { hinge_mass := hinge_mass, link_length := link_length, number_of_links := number_of_links, legendre := Polymers.Python.fjc.thermodynamics.isometric.legendre.FJC.init number_of_links link_length hinge_mass }

/-- `src/physics/single_chain/fjc/thermodynamics/isometric/py.rs` lines 68-71. -/
def FJC.force (self : Polymers.Python.fjc.thermodynamics.isometric.FJC α) (end_to_end_length : NdArray α) (temperature : α) : NdArray α :=
  NdArray.mapv end_to_end_length (fun (end_to_end_length : α) => Polymers.fjc.thermodynamics.isometric.force self.number_of_links self.link_length end_to_end_length temperature)

/-- `src/physics/single_chain/fjc/thermodynamics/isometric/py.rs` lines 85-88. -/
def FJC.nondimensional_force (self : Polymers.Python.fjc.thermodynamics.isometric.FJC α) (nondimensional_end_to_end_length_per_link : NdArray α) : NdArray α :=
  NdArray.mapv nondimensional_end_to_end_length_per_link (fun (nondimensional_end_to_end_length_per_link : α) => Polymers.fjc.thermodynamics.isometric.nondimensional_force self.number_of_links nondimensional_end_to_end_length_per_link)

/-- `src/physics/single_chain/fjc/thermodynamics/isometric/py.rs` lines 101-104. -/
def FJC.helmholtz_free_energy (self : Polymers.Python.fjc.thermodynamics.isometric.FJC α) (end_to_end_length : NdArray α) (temperature : α) : NdArray α :=
  NdArray.mapv end_to_end_length (fun (end_to_end_length : α) => Polymers.fjc.thermodynamics.isometric.helmholtz_free_energy self.number_of_links self.link_length self.hinge_mass end_to_end_length temperature)

/-- `src/physics/single_chain/fjc/thermodynamics/isometric/py.rs` lines 114-117. -/
def FJC.helmholtz_free_energy_per_link (self : Polymers.Python.fjc.thermodynamics.isometric.FJC α) (end_to_end_length : NdArray α) (temperature : α) : NdArray α :=
  NdArray.mapv end_to_end_length (fun (end_to_end_length : α) => Polymers.fjc.thermodynamics.isometric.helmholtz_free_energy_per_link self.number_of_links self.link_length self.hinge_mass end_to_end_length temperature)

/-- `src/physics/single_chain/fjc/thermodynamics/isometric/py.rs` lines 130-133. -/
def FJC.relative_helmholtz_free_energy (self : Polymers.Python.fjc.thermodynamics.isometric.FJC α) (end_to_end_length : NdArray α) (temperature : α) : NdArray α :=
  NdArray.mapv end_to_end_length (fun (end_to_end_length : α) => Polymers.fjc.thermodynamics.isometric.relative_helmholtz_free_energy self.number_of_links self.link_length end_to_end_length temperature)

/-- `src/physics/single_chain/fjc/thermodynamics/isometric/py.rs` lines 143-146. -/
def FJC.relative_helmholtz_free_energy_per_link (self : Polymers.Python.fjc.thermodynamics.isometric.FJC α) (end_to_end_length : NdArray α) (temperature : α) : NdArray α :=
  NdArray.mapv end_to_end_length (fun (end_to_end_length : α) => Polymers.fjc.thermodynamics.isometric.relative_helmholtz_free_energy_per_link self.number_of_links self.link_length end_to_end_length temperature)

/-- `src/physics/single_chain/fjc/thermodynamics/isometric/py.rs` lines 156-159. -/
def FJC.nondimensional_helmholtz_free_energy (self : Polymers.Python.fjc.thermodynamics.isometric.FJC α) (nondimensional_end_to_end_length_per_link : NdArray α) (temperature : α) : NdArray α :=
  NdArray.mapv nondimensional_end_to_end_length_per_link (fun (nondimensional_end_to_end_length_per_link : α) => Polymers.fjc.thermodynamics.isometric.nondimensional_helmholtz_free_energy self.number_of_links self.link_length self.hinge_mass nondimensional_end_to_end_length_per_link temperature)

/-- `src/physics/single_chain/fjc/thermodynamics/isometric/py.rs` lines 169-172. -/
def FJC.nondimensional_helmholtz_free_energy_per_link (self : Polymers.Python.fjc.thermodynamics.isometric.FJC α) (nondimensional_end_to_end_length_per_link : NdArray α) (temperature : α) : NdArray α :=
  NdArray.mapv nondimensional_end_to_end_length_per_link (fun (nondimensional_end_to_end_length_per_link : α) => Polymers.fjc.thermodynamics.isometric.nondimensional_helmholtz_free_energy_per_link self.number_of_links self.link_length self.hinge_mass nondimensional_end_to_end_length_per_link temperature)

/-- `src/physics/single_chain/fjc/thermodynamics/isometric/py.rs` lines 184-187. -/
def FJC.nondimensional_relative_helmholtz_free_energy (self : Polymers.Python.fjc.thermodynamics.isometric.FJC α) (nondimensional_end_to_end_length_per_link : NdArray α) : NdArray α :=
  NdArray.mapv nondimensional_end_to_end_length_per_link (fun (nondimensional_end_to_end_length_per_link : α) => Polymers.fjc.thermodynamics.isometric.nondimensional_relative_helmholtz_free_energy self.number_of_links nondimensional_end_to_end_length_per_link)

/-- `src/physics/single_chain/fjc/thermodynamics/isometric/py.rs` lines 199-202. -/
def FJC.nondimensional_relative_helmholtz_free_energy_per_link (self : Polymers.Python.fjc.thermodynamics.isometric.FJC α) (nondimensional_end_to_end_length_per_link : NdArray α) : NdArray α :=
  NdArray.mapv nondimensional_end_to_end_length_per_link (fun (nondimensional_end_to_end_length_per_link : α) => Polymers.fjc.thermodynamics.isometric.nondimensional_relative_helmholtz_free_energy_per_link self.number_of_links nondimensional_end_to_end_length_per_link)

/-- `src/physics/single_chain/fjc/thermodynamics/isometric/py.rs` lines 216-219. -/
def FJC.equilibrium_distribution (self : Polymers.Python.fjc.thermodynamics.isometric.FJC α) (end_to_end_length : NdArray α) : NdArray α :=
  NdArray.mapv end_to_end_length (fun (end_to_end_length : α) => Polymers.fjc.thermodynamics.isometric.equilibrium_distribution self.number_of_links self.link_length end_to_end_length)

/-- `src/physics/single_chain/fjc/thermodynamics/isometric/py.rs` lines 233-236. -/
def FJC.nondimensional_equilibrium_distribution (self : Polymers.Python.fjc.thermodynamics.isometric.FJC α) (nondimensional_end_to_end_length_per_link : NdArray α) : NdArray α :=
  NdArray.mapv nondimensional_end_to_end_length_per_link (fun (nondimensional_end_to_end_length_per_link : α) => Polymers.fjc.thermodynamics.isometric.nondimensional_equilibrium_distribution self.number_of_links nondimensional_end_to_end_length_per_link)

/-- `src/physics/single_chain/fjc/thermodynamics/isometric/py.rs` lines 250-253. -/
def FJC.equilibrium_radial_distribution (self : Polymers.Python.fjc.thermodynamics.isometric.FJC α) (end_to_end_length : NdArray α) : NdArray α :=
  NdArray.mapv end_to_end_length (fun (end_to_end_length : α) => Polymers.fjc.thermodynamics.isometric.equilibrium_radial_distribution self.number_of_links self.link_length end_to_end_length)

/-- `src/physics/single_chain/fjc/thermodynamics/isometric/py.rs` lines 267-270. -/
def FJC.nondimensional_equilibrium_radial_distribution (self : Polymers.Python.fjc.thermodynamics.isometric.FJC α) (nondimensional_end_to_end_length_per_link : NdArray α) : NdArray α :=
  NdArray.mapv nondimensional_end_to_end_length_per_link (fun (nondimensional_end_to_end_length_per_link : α) => Polymers.fjc.thermodynamics.isometric.nondimensional_equilibrium_radial_distribution self.number_of_links nondimensional_end_to_end_length_per_link)

end Polymers.Python.fjc.thermodynamics.isometric

namespace Polymers.Python.fjc.thermodynamics.isotensional

/-- `src/physics/single_chain/fjc/thermodynamics/isotensional/py.rs` lines 21-38: struct `FJC`. -/
structure FJC (α : Type) where
  /-- field `hinge_mass` -/
  hinge_mass : α
  /-- field `link_length` -/
  link_length : α
  /-- field `number_of_links` -/
  number_of_links : Nat
  /-- field `legendre` -/
  legendre : Polymers.Python.fjc.thermodynamics.isotensional.legendre.FJC α

/-- `src/physics/single_chain/fjc/thermodynamics/isotensional/py.rs` lines 44-53. -/
def FJC.init (number_of_links : Nat) (link_length : α) (hinge_mass : α) : Polymers.Python.fjc.thermodynamics.isotensional.FJC α :=
  { hinge_mass := hinge_mass, link_length := link_length, number_of_links := number_of_links, legendre := Polymers.Python.fjc.thermodynamics.isotensional.legendre.FJC.init number_of_links link_length hinge_mass }

/-- `src/physics/single_chain/fjc/thermodynamics/isotensional/py.rs` lines 68-71. -/
def FJC.end_to_end_length (self : Polymers.Python.fjc.thermodynamics.isotensional.FJC α) (force : NdArray α) (temperature : α) : NdArray α :=
  NdArray.mapv force (fun (force : α) => Polymers.fjc.thermodynamics.isotensional.end_to_end_length self.number_of_links self.link_length force temperature)

/-- `src/physics/single_chain/fjc/thermodynamics/isotensional/py.rs` lines 81-84. -/
def FJC.end_to_end_length_per_link (self : Polymers.Python.fjc.thermodynamics.isotensional.FJC α) (force : NdArray α) (temperature : α) : NdArray α :=
  NdArray.mapv force (fun (force : α) => Polymers.fjc.thermodynamics.isotensional.end_to_end_length_per_link self.link_length force temperature)

/-- `src/physics/single_chain/fjc/thermodynamics/isotensional/py.rs` lines 93-96. -/
def FJC.nondimensional_end_to_end_length (self : Polymers.Python.fjc.thermodynamics.isotensional.FJC α) (nondimensional_force : NdArray α) : NdArray α :=
  NdArray.mapv nondimensional_force (fun (nondimensional_force : α) => Polymers.fjc.thermodynamics.isotensional.nondimensional_end_to_end_length self.number_of_links nondimensional_force)

/-- `src/physics/single_chain/fjc/thermodynamics/isotensional/py.rs` lines 110-113. -/
def FJC.nondimensional_end_to_end_length_per_link (self : Polymers.Python.fjc.thermodynamics.isotensional.FJC α) (nondimensional_force : NdArray α) : NdArray α :=
  NdArray.mapv nondimensional_force (fun (nondimensional_force : α) => Polymers.fjc.thermodynamics.isotensional.nondimensional_end_to_end_length_per_link nondimensional_force)

/-- `src/physics/single_chain/fjc/thermodynamics/isotensional/py.rs` lines 126-129. -/
def FJC.gibbs_free_energy (self : Polymers.Python.fjc.thermodynamics.isotensional.FJC α) (force : NdArray α) (temperature : α) : NdArray α :=
  NdArray.mapv force (fun (force : α) => Polymers.fjc.thermodynamics.isotensional.gibbs_free_energy self.number_of_links self.link_length self.hinge_mass force temperature)

/-- `src/physics/single_chain/fjc/thermodynamics/isotensional/py.rs` lines 139-142. -/
def FJC.gibbs_free_energy_per_link (self : Polymers.Python.fjc.thermodynamics.isotensional.FJC α) (force : NdArray α) (temperature : α) : NdArray α :=
  NdArray.mapv force (fun (force : α) => Polymers.fjc.thermodynamics.isotensional.gibbs_free_energy_per_link self.link_length self.hinge_mass force temperature)

/-- `src/physics/single_chain/fjc/thermodynamics/isotensional/py.rs` lines 155-158. -/
def FJC.relative_gibbs_free_energy (self : Polymers.Python.fjc.thermodynamics.isotensional.FJC α) (force : NdArray α) (temperature : α) : NdArray α :=
  NdArray.mapv force (fun (force : α) => Polymers.fjc.thermodynamics.isotensional.relative_gibbs_free_energy self.number_of_links self.link_length force temperature)

/-- `src/physics/single_chain/fjc/thermodynamics/isotensional/py.rs` lines 168-171. -/
def FJC.relative_gibbs_free_energy_per_link (self : Polymers.Python.fjc.thermodynamics.isotensional.FJC α) (force : NdArray α) (temperature : α) : NdArray α :=
  NdArray.mapv force (fun (force : α) => Polymers.fjc.thermodynamics.isotensional.relative_gibbs_free_energy_per_link self.link_length force temperature)

/-- `src/physics/single_chain/fjc/thermodynamics/isotensional/py.rs` lines 181-184. -/
def FJC.nondimensional_gibbs_free_energy (self : Polymers.Python.fjc.thermodynamics.isotensional.FJC α) (nondimensional_force : NdArray α) (temperature : α) : NdArray α :=
  NdArray.mapv nondimensional_force (fun (nondimensional_force : α) => Polymers.fjc.thermodynamics.isotensional.nondimensional_gibbs_free_energy self.number_of_links self.link_length self.hinge_mass nondimensional_force temperature)

/-- `src/physics/single_chain/fjc/thermodynamics/isotensional/py.rs` lines 194-197. -/
def FJC.nondimensional_gibbs_free_energy_per_link (self : Polymers.Python.fjc.thermodynamics.isotensional.FJC α) (nondimensional_force : NdArray α) (temperature : α) : NdArray α :=
  NdArray.mapv nondimensional_force (fun (nondimensional_force : α) => Polymers.fjc.thermodynamics.isotensional.nondimensional_gibbs_free_energy_per_link self.link_length self.hinge_mass nondimensional_force temperature)

/-- `src/physics/single_chain/fjc/thermodynamics/isotensional/py.rs` lines 206-209. -/
def FJC.nondimensional_relative_gibbs_free_energy (self : Polymers.Python.fjc.thermodynamics.isotensional.FJC α) (nondimensional_force : NdArray α) : NdArray α :=
  NdArray.mapv nondimensional_force (fun (nondimensional_force : α) => Polymers.fjc.thermodynamics.isotensional.nondimensional_relative_gibbs_free_energy self.number_of_links nondimensional_force)

/-- `src/physics/single_chain/fjc/thermodynamics/isotensional/py.rs` lines 221-224. -/
def FJC.nondimensional_relative_gibbs_free_energy_per_link (self : Polymers.Python.fjc.thermodynamics.isotensional.FJC α) (nondimensional_force : NdArray α) : NdArray α :=
  NdArray.mapv nondimensional_force (fun (nondimensional_force : α) => Polymers.fjc.thermodynamics.isotensional.nondimensional_relative_gibbs_free_energy_per_link nondimensional_force)

end Polymers.Python.fjc.thermodynamics.isotensional

namespace Polymers.Python.fjc.thermodynamics.modified_canonical

/-- `src/physics/single_chain/fjc/thermodynamics/modified_canonical/py.rs` lines 21-38: struct `FJC`. -/
structure FJC (α : Type) where
  /-- field `hinge_mass` -/
  hinge_mass : α
  /-- field `link_length` -/
  link_length : α
  /-- field `number_of_links` -/
  number_of_links : Nat
  /-- field `asymptotic` -/
  asymptotic : Polymers.Python.fjc.thermodynamics.modified_canonical.asymptotic.FJC α

/-- `src/physics/single_chain/fjc/thermodynamics/modified_canonical/py.rs` lines 44-53. -/
def FJC.init (number_of_links : Nat) (link_length : α) (hinge_mass : α) : Polymers.Python.fjc.thermodynamics.modified_canonical.FJC α :=
  { hinge_mass := hinge_mass, link_length := link_length, number_of_links := number_of_links, asymptotic := Polymers.Python.fjc.thermodynamics.modified_canonical.asymptotic.FJC.init number_of_links link_length hinge_mass }

/-- `src/physics/single_chain/fjc/thermodynamics/modified_canonical/py.rs` lines 64-67. -/
def FJC.end_to_end_length (self : Polymers.Python.fjc.thermodynamics.modified_canonical.FJC α) (potential_distance : NdArray α) (potential_stiffness : α) (temperature : α) : NdArray α :=
  NdArray.mapv potential_distance (fun (potential_distance : α) => Polymers.fjc.thermodynamics.modified_canonical.end_to_end_length self.number_of_links self.link_length potential_distance potential_stiffness temperature)

/-- `src/physics/single_chain/fjc/thermodynamics/modified_canonical/py.rs` lines 78-81. -/
def FJC.end_to_end_length_per_link (self : Polymers.Python.fjc.thermodynamics.modified_canonical.FJC α) (potential_distance : NdArray α) (potential_stiffness : α) (temperature : α) : NdArray α :=
  NdArray.mapv potential_distance (fun (potential_distance : α) => Polymers.fjc.thermodynamics.modified_canonical.end_to_end_length_per_link self.number_of_links self.link_length potential_distance potential_stiffness temperature)

/-- `src/physics/single_chain/fjc/thermodynamics/modified_canonical/py.rs` lines 91-94. -/
def FJC.nondimensional_end_to_end_length (self : Polymers.Python.fjc.thermodynamics.modified_canonical.FJC α) (nondimensional_potential_distance : NdArray α) (nondimensional_potential_stiffness : α) : NdArray α :=
  NdArray.mapv nondimensional_potential_distance (fun (nondimensional_potential_distance : α) => Polymers.fjc.thermodynamics.modified_canonical.nondimensional_end_to_end_length self.number_of_links nondimensional_potential_distance nondimensional_potential_stiffness)

/-- `src/physics/single_chain/fjc/thermodynamics/modified_canonical/py.rs` lines 104-107. -/
def FJC.nondimensional_end_to_end_length_per_link (self : Polymers.Python.fjc.thermodynamics.modified_canonical.FJC α) (nondimensional_potential_distance : NdArray α) (nondimensional_potential_stiffness : α) : NdArray α :=
  NdArray.mapv nondimensional_potential_distance (fun (nondimensional_potential_distance : α) => Polymers.fjc.thermodynamics.modified_canonical.nondimensional_end_to_end_length_per_link self.number_of_links nondimensional_potential_distance nondimensional_potential_stiffness)

/-- `src/physics/single_chain/fjc/thermodynamics/modified_canonical/py.rs` lines 118-121. -/
def FJC.force (self : Polymers.Python.fjc.thermodynamics.modified_canonical.FJC α) (potential_distance : NdArray α) (potential_stiffness : α) (temperature : α) : NdArray α :=
  NdArray.mapv potential_distance (fun (potential_distance : α) => Polymers.fjc.thermodynamics.modified_canonical.force self.number_of_links self.link_length potential_distance potential_stiffness temperature)

/-- `src/physics/single_chain/fjc/thermodynamics/modified_canonical/py.rs` lines 131-134. -/
def FJC.nondimensional_force (self : Polymers.Python.fjc.thermodynamics.modified_canonical.FJC α) (nondimensional_potential_distance : NdArray α) (nondimensional_potential_stiffness : α) : NdArray α :=
  NdArray.mapv nondimensional_potential_distance (fun (nondimensional_potential_distance : α) => Polymers.fjc.thermodynamics.modified_canonical.nondimensional_force self.number_of_links nondimensional_potential_distance nondimensional_potential_stiffness)

/-- `src/physics/single_chain/fjc/thermodynamics/modified_canonical/py.rs` lines 145-148. -/
def FJC.helmholtz_free_energy (self : Polymers.Python.fjc.thermodynamics.modified_canonical.FJC α) (potential_distance : NdArray α) (potential_stiffness : α) (temperature : α) : NdArray α :=
  NdArray.mapv potential_distance (fun (potential_distance : α) => Polymers.fjc.thermodynamics.modified_canonical.helmholtz_free_energy self.number_of_links self.link_length self.hinge_mass potential_distance potential_stiffness temperature)

/-- `src/physics/single_chain/fjc/thermodynamics/modified_canonical/py.rs` lines 159-162. -/
def FJC.helmholtz_free_energy_per_link (self : Polymers.Python.fjc.thermodynamics.modified_canonical.FJC α) (potential_distance : NdArray α) (potential_stiffness : α) (temperature : α) : NdArray α :=
  NdArray.mapv potential_distance (fun (potential_distance : α) => Polymers.fjc.thermodynamics.modified_canonical.helmholtz_free_energy_per_link self.number_of_links self.link_length self.hinge_mass potential_distance potential_stiffness temperature)

/-- `src/physics/single_chain/fjc/thermodynamics/modified_canonical/py.rs` lines 173-176. -/
def FJC.relative_helmholtz_free_energy (self : Polymers.Python.fjc.thermodynamics.modified_canonical.FJC α) (potential_distance : NdArray α) (potential_stiffness : α) (temperature : α) : NdArray α :=
  NdArray.mapv potential_distance (fun (potential_distance : α) => Polymers.fjc.thermodynamics.modified_canonical.relative_helmholtz_free_energy self.number_of_links self.link_length potential_distance potential_stiffness temperature)

/-- `src/physics/single_chain/fjc/thermodynamics/modified_canonical/py.rs` lines 187-190. -/
def FJC.relative_helmholtz_free_energy_per_link (self : Polymers.Python.fjc.thermodynamics.modified_canonical.FJC α) (potential_distance : NdArray α) (potential_stiffness : α) (temperature : α) : NdArray α :=
  NdArray.mapv potential_distance (fun (potential_distance : α) => Polymers.fjc.thermodynamics.modified_canonical.relative_helmholtz_free_energy_per_link self.number_of_links self.link_length potential_distance potential_stiffness temperature)

/-- `src/physics/single_chain/fjc/thermodynamics/modified_canonical/py.rs` lines 201-204. -/
def FJC.nondimensional_helmholtz_free_energy (self : Polymers.Python.fjc.thermodynamics.modified_canonical.FJC α) (nondimensional_potential_distance : NdArray α) (nondimensional_potential_stiffness : α) (temperature : α) : NdArray α :=
  NdArray.mapv nondimensional_potential_distance (fun (nondimensional_potential_distance : α) => Polymers.fjc.thermodynamics.modified_canonical.nondimensional_helmholtz_free_energy self.number_of_links self.link_length self.hinge_mass nondimensional_potential_distance nondimensional_potential_stiffness temperature)

/-- `src/physics/single_chain/fjc/thermodynamics/modified_canonical/py.rs` lines 215-218. -/
def FJC.nondimensional_helmholtz_free_energy_per_link (self : Polymers.Python.fjc.thermodynamics.modified_canonical.FJC α) (nondimensional_potential_distance : NdArray α) (nondimensional_potential_stiffness : α) (temperature : α) : NdArray α :=
  NdArray.mapv nondimensional_potential_distance (fun (nondimensional_potential_distance : α) => Polymers.fjc.thermodynamics.modified_canonical.nondimensional_helmholtz_free_energy_per_link self.number_of_links self.link_length self.hinge_mass nondimensional_potential_distance nondimensional_potential_stiffness temperature)

/-- `src/physics/single_chain/fjc/thermodynamics/modified_canonical/py.rs` lines 228-231. -/
def FJC.nondimensional_relative_helmholtz_free_energy (self : Polymers.Python.fjc.thermodynamics.modified_canonical.FJC α) (nondimensional_potential_distance : NdArray α) (nondimensional_potential_stiffness : α) : NdArray α :=
  NdArray.mapv nondimensional_potential_distance (fun (nondimensional_potential_distance : α) => Polymers.fjc.thermodynamics.modified_canonical.nondimensional_relative_helmholtz_free_energy self.number_of_links nondimensional_potential_distance nondimensional_potential_stiffness)

/-- `src/physics/single_chain/fjc/thermodynamics/modified_canonical/py.rs` lines 241-244. -/
def FJC.nondimensional_relative_helmholtz_free_energy_per_link (self : Polymers.Python.fjc.thermodynamics.modified_canonical.FJC α) (nondimensional_potential_distance : NdArray α) (nondimensional_potential_stiffness : α) : NdArray α :=
  NdArray.mapv nondimensional_potential_distance (fun (nondimensional_potential_distance : α) => Polymers.fjc.thermodynamics.modified_canonical.nondimensional_relative_helmholtz_free_energy_per_link self.number_of_links nondimensional_potential_distance nondimensional_potential_stiffness)

/-- `src/physics/single_chain/fjc/thermodynamics/modified_canonical/py.rs` lines 255-258. -/
def FJC.gibbs_free_energy (self : Polymers.Python.fjc.thermodynamics.modified_canonical.FJC α) (potential_distance : NdArray α) (potential_stiffness : α) (temperature : α) : NdArray α :=
  NdArray.mapv potential_distance (fun (potential_distance : α) => Polymers.fjc.thermodynamics.modified_canonical.gibbs_free_energy self.number_of_links self.link_length self.hinge_mass potential_distance potential_stiffness temperature)

/-- `src/physics/single_chain/fjc/thermodynamics/modified_canonical/py.rs` lines 269-272. -/
def FJC.gibbs_free_energy_per_link (self : Polymers.Python.fjc.thermodynamics.modified_canonical.FJC α) (potential_distance : NdArray α) (potential_stiffness : α) (temperature : α) : NdArray α :=
  NdArray.mapv potential_distance (fun (potential_distance : α) => Polymers.fjc.thermodynamics.modified_canonical.gibbs_free_energy_per_link self.number_of_links self.link_length self.hinge_mass potential_distance potential_stiffness temperature)

/-- `src/physics/single_chain/fjc/thermodynamics/modified_canonical/py.rs` lines 283-286. -/
def FJC.relative_gibbs_free_energy (self : Polymers.Python.fjc.thermodynamics.modified_canonical.FJC α) (potential_distance : NdArray α) (potential_stiffness : α) (temperature : α) : NdArray α :=
  NdArray.mapv potential_distance (fun (potential_distance : α) => Polymers.fjc.thermodynamics.modified_canonical.relative_gibbs_free_energy self.number_of_links self.link_length potential_distance potential_stiffness temperature)

/-- `src/physics/single_chain/fjc/thermodynamics/modified_canonical/py.rs` lines 297-300. -/
def FJC.relative_gibbs_free_energy_per_link (self : Polymers.Python.fjc.thermodynamics.modified_canonical.FJC α) (potential_distance : NdArray α) (potential_stiffness : α) (temperature : α) : NdArray α :=
  NdArray.mapv potential_distance (fun (potential_distance : α) => Polymers.fjc.thermodynamics.modified_canonical.relative_gibbs_free_energy_per_link self.number_of_links self.link_length potential_distance potential_stiffness temperature)

/-- `src/physics/single_chain/fjc/thermodynamics/modified_canonical/py.rs` lines 311-314. -/
def FJC.nondimensional_gibbs_free_energy (self : Polymers.Python.fjc.thermodynamics.modified_canonical.FJC α) (nondimensional_potential_distance : NdArray α) (nondimensional_potential_stiffness : α) (temperature : α) : NdArray α :=
  NdArray.mapv nondimensional_potential_distance (fun (nondimensional_potential_distance : α) => Polymers.fjc.thermodynamics.modified_canonical.nondimensional_gibbs_free_energy self.number_of_links self.link_length self.hinge_mass nondimensional_potential_distance nondimensional_potential_stiffness temperature)

/-- `src/physics/single_chain/fjc/thermodynamics/modified_canonical/py.rs` lines 325-328. -/
def FJC.nondimensional_gibbs_free_energy_per_link (self : Polymers.Python.fjc.thermodynamics.modified_canonical.FJC α) (nondimensional_potential_distance : NdArray α) (nondimensional_potential_stiffness : α) (temperature : α) : NdArray α :=
  NdArray.mapv nondimensional_potential_distance (fun (nondimensional_potential_distance : α) => Polymers.fjc.thermodynamics.modified_canonical.nondimensional_gibbs_free_energy_per_link self.number_of_links self.link_length self.hinge_mass nondimensional_potential_distance nondimensional_potential_stiffness temperature)

/-- `src/physics/single_chain/fjc/thermodynamics/modified_canonical/py.rs` lines 338-341. -/
def FJC.nondimensional_relative_gibbs_free_energy (self : Polymers.Python.fjc.thermodynamics.modified_canonical.FJC α) (nondimensional_potential_distance : NdArray α) (nondimensional_potential_stiffness : α) : NdArray α :=
  NdArray.mapv nondimensional_potential_distance (fun (nondimensional_potential_distance : α) => Polymers.fjc.thermodynamics.modified_canonical.nondimensional_relative_gibbs_free_energy self.number_of_links nondimensional_potential_distance nondimensional_potential_stiffness)

/-- `src/physics/single_chain/fjc/thermodynamics/modified_canonical/py.rs` lines 351-354. -/
def FJC.nondimensional_relative_gibbs_free_energy_per_link (self : Polymers.Python.fjc.thermodynamics.modified_canonical.FJC α) (nondimensional_potential_distance : NdArray α) (nondimensional_potential_stiffness : α) : NdArray α :=
  NdArray.mapv nondimensional_potential_distance (fun (nondimensional_potential_distance : α) => Polymers.fjc.thermodynamics.modified_canonical.nondimensional_relative_gibbs_free_energy_per_link self.number_of_links nondimensional_potential_distance nondimensional_potential_stiffness)

end Polymers.Python.fjc.thermodynamics.modified_canonical

namespace Polymers.Python.fjc.thermodynamics

/-- `src/physics/single_chain/fjc/thermodynamics/py.rs` lines 17-42: struct `FJC`. -/
structure FJC (α : Type) where
  /-- field `hinge_mass` -/
  hinge_mass : α
  /-- field `link_length` -/
  link_length : α
  /-- field `number_of_links` -/
  number_of_links : Nat
  /-- field `isometric` -/
  isometric : Polymers.Python.fjc.thermodynamics.isometric.FJC α
  /-- field `isotensional` -/
  isotensional : Polymers.Python.fjc.thermodynamics.isotensional.FJC α
  /-- field `modified_canonical` -/
  modified_canonical : Polymers.Python.fjc.thermodynamics.modified_canonical.FJC α

/-- `src/physics/single_chain/fjc/thermodynamics/py.rs` lines 48-59. -/
def FJC.init (number_of_links : Nat) (link_length : α) (hinge_mass : α) : Polymers.Python.fjc.thermodynamics.FJC α :=
  { hinge_mass := hinge_mass, link_length := link_length, number_of_links := number_of_links, isometric := Polymers.Python.fjc.thermodynamics.isometric.FJC.init number_of_links link_length hinge_mass, isotensional := Polymers.Python.fjc.thermodynamics.isotensional.FJC.init number_of_links link_length hinge_mass, modified_canonical := Polymers.Python.fjc.thermodynamics.modified_canonical.FJC.init number_of_links link_length hinge_mass }

end Polymers.Python.fjc.thermodynamics

namespace Polymers.Python.fjc

/-- `src/physics/single_chain/fjc/py.rs` lines 14-31: struct `FJC`. -/
structure FJC (α : Type) where
  /-- field `hinge_mass` -/
  hinge_mass : α
  /-- field `link_length` -/
  link_length : α
  /-- field `number_of_links` -/
  number_of_links : Nat
  /-- field `thermodynamics` -/
  thermodynamics : Polymers.Python.fjc.thermodynamics.FJC α

/-- `src/physics/single_chain/fjc/py.rs` lines 37-46. -/
def FJC.init (number_of_links : Nat) (link_length : α) (hinge_mass : α) : Polymers.Python.fjc.FJC α :=
  { hinge_mass := hinge_mass, link_length := link_length, number_of_links := number_of_links, thermodynamics := Polymers.Python.fjc.thermodynamics.FJC.init number_of_links link_length hinge_mass }

end Polymers.Python.fjc
