/- Generated by tools/py2lean.py from the py.rs files of /repo/src/physics/single_chain/ideal ; do not edit by hand. -/
import Verif.Model.Ideal
import Verif.Model.PythonBase

set_option linter.unusedVariables false

open Polymers

variable {α : Type} [Add α] [Sub α] [Mul α] [Div α] [Neg α] [OfScientific α] [NatCast α] [Elem α]

namespace Polymers.Python.ideal.thermodynamics.isometric

/-- `src/physics/single_chain/ideal/thermodynamics/isometric/py.rs` lines 20-33: struct `Ideal`. -/
structure Ideal (α : Type) where
  /-- field `hinge_mass` -/
  hinge_mass : α
  /-- field `link_length` -/
  link_length : α
  /-- field `number_of_links` -/
  number_of_links : Nat

/-- `src/physics/single_chain/ideal/thermodynamics/isometric/py.rs` lines 39-47. -/
def Ideal.init (number_of_links : Nat) (link_length : α) (hinge_mass : α) : Polymers.Python.ideal.thermodynamics.isometric.Ideal α :=
  { hinge_mass := hinge_mass, link_length := link_length, number_of_links := number_of_links }

/-- `src/physics/single_chain/ideal/thermodynamics/isometric/py.rs` lines 60-63. -/
def Ideal.force (self : Polymers.Python.ideal.thermodynamics.isometric.Ideal α) (end_to_end_length : NdArray α) (temperature : α) : NdArray α :=
  NdArray.mapv end_to_end_length (fun (end_to_end_length : α) => Polymers.ideal.thermodynamics.isometric.force self.number_of_links self.link_length end_to_end_length temperature)

/-- `src/physics/single_chain/ideal/thermodynamics/isometric/py.rs` lines 75-78. -/
def Ideal.nondimensional_force (self : Polymers.Python.ideal.thermodynamics.isometric.Ideal α) (nondimensional_end_to_end_length_per_link : NdArray α) : NdArray α :=
  NdArray.mapv nondimensional_end_to_end_length_per_link (fun (nondimensional_end_to_end_length_per_link : α) => Polymers.ideal.thermodynamics.isometric.nondimensional_force nondimensional_end_to_end_length_per_link)

/-- `src/physics/single_chain/ideal/thermodynamics/isometric/py.rs` lines 91-94. -/
def Ideal.helmholtz_free_energy (self : Polymers.Python.ideal.thermodynamics.isometric.Ideal α) (end_to_end_length : NdArray α) (temperature : α) : NdArray α :=
  NdArray.mapv end_to_end_length (fun (end_to_end_length : α) => Polymers.ideal.thermodynamics.isometric.helmholtz_free_energy self.number_of_links self.link_length self.hinge_mass end_to_end_length temperature)

/-- `src/physics/single_chain/ideal/thermodynamics/isometric/py.rs` lines 104-107. -/
def Ideal.helmholtz_free_energy_per_link (self : Polymers.Python.ideal.thermodynamics.isometric.Ideal α) (end_to_end_length : NdArray α) (temperature : α) : NdArray α :=
  NdArray.mapv end_to_end_length (fun (end_to_end_length : α) => Polymers.ideal.thermodynamics.isometric.helmholtz_free_energy_per_link self.number_of_links self.link_length self.hinge_mass end_to_end_length temperature)

/-- `src/physics/single_chain/ideal/thermodynamics/isometric/py.rs` lines 120-123. -/
def Ideal.relative_helmholtz_free_energy (self : Polymers.Python.ideal.thermodynamics.isometric.Ideal α) (end_to_end_length : NdArray α) (temperature : α) : NdArray α :=
  NdArray.mapv end_to_end_length (fun (end_to_end_length : α) => Polymers.ideal.thermodynamics.isometric.relative_helmholtz_free_energy self.number_of_links self.link_length end_to_end_length temperature)

/-- `src/physics/single_chain/ideal/thermodynamics/isometric/py.rs` lines 133-136. -/
def Ideal.relative_helmholtz_free_energy_per_link (self : Polymers.Python.ideal.thermodynamics.isometric.Ideal α) (end_to_end_length : NdArray α) (temperature : α) : NdArray α :=
  NdArray.mapv end_to_end_length (fun (end_to_end_length : α) => Polymers.ideal.thermodynamics.isometric.relative_helmholtz_free_energy_per_link self.number_of_links self.link_length end_to_end_length temperature)

/-- `src/physics/single_chain/ideal/thermodynamics/isometric/py.rs` lines 146-149. -/
def Ideal.nondimensional_helmholtz_free_energy (self : Polymers.Python.ideal.thermodynamics.isometric.Ideal α) (nondimensional_end_to_end_length_per_link : NdArray α) (temperature : α) : NdArray α :=
  NdArray.mapv nondimensional_end_to_end_length_per_link (fun (nondimensional_end_to_end_length_per_link : α) => Polymers.ideal.thermodynamics.isometric.nondimensional_helmholtz_free_energy self.number_of_links self.link_length self.hinge_mass nondimensional_end_to_end_length_per_link temperature)

/-- `src/physics/single_chain/ideal/thermodynamics/isometric/py.rs` lines 159-162. -/
def Ideal.nondimensional_helmholtz_free_energy_per_link (self : Polymers.Python.ideal.thermodynamics.isometric.Ideal α) (nondimensional_end_to_end_length_per_link : NdArray α) (temperature : α) : NdArray α :=
  NdArray.mapv nondimensional_end_to_end_length_per_link (fun (nondimensional_end_to_end_length_per_link : α) => Polymers.ideal.thermodynamics.isometric.nondimensional_helmholtz_free_energy_per_link self.link_length self.hinge_mass nondimensional_end_to_end_length_per_link temperature)

/-- `src/physics/single_chain/ideal/thermodynamics/isometric/py.rs` lines 174-177. -/
def Ideal.nondimensional_relative_helmholtz_free_energy (self : Polymers.Python.ideal.thermodynamics.isometric.Ideal α) (nondimensional_end_to_end_length_per_link : NdArray α) : NdArray α :=
  NdArray.mapv nondimensional_end_to_end_length_per_link (fun (nondimensional_end_to_end_length_per_link : α) => Polymers.ideal.thermodynamics.isometric.nondimensional_relative_helmholtz_free_energy self.number_of_links nondimensional_end_to_end_length_per_link)

/-- `src/physics/single_chain/ideal/thermodynamics/isometric/py.rs` lines 189-192. -/
def Ideal.nondimensional_relative_helmholtz_free_energy_per_link (self : Polymers.Python.ideal.thermodynamics.isometric.Ideal α) (nondimensional_end_to_end_length_per_link : NdArray α) : NdArray α :=
  NdArray.mapv nondimensional_end_to_end_length_per_link (fun (nondimensional_end_to_end_length_per_link : α) => Polymers.ideal.thermodynamics.isometric.nondimensional_relative_helmholtz_free_energy_per_link nondimensional_end_to_end_length_per_link)

/-- `src/physics/single_chain/ideal/thermodynamics/isometric/py.rs` lines 204-207. -/
def Ideal.equilibrium_distribution (self : Polymers.Python.ideal.thermodynamics.isometric.Ideal α) (end_to_end_length : NdArray α) : NdArray α :=
  NdArray.mapv end_to_end_length (fun (end_to_end_length : α) => Polymers.ideal.thermodynamics.isometric.equilibrium_distribution self.number_of_links self.link_length end_to_end_length)

/-- `src/physics/single_chain/ideal/thermodynamics/isometric/py.rs` lines 219-222. -/
def Ideal.nondimensional_equilibrium_distribution (self : Polymers.Python.ideal.thermodynamics.isometric.Ideal α) (nondimensional_end_to_end_length_per_link : NdArray α) : NdArray α :=
  NdArray.mapv nondimensional_end_to_end_length_per_link (fun (nondimensional_end_to_end_length_per_link : α) => Polymers.ideal.thermodynamics.isometric.nondimensional_equilibrium_distribution self.number_of_links nondimensional_end_to_end_length_per_link)

/-- `src/physics/single_chain/ideal/thermodynamics/isometric/py.rs` lines 234-237. -/
def Ideal.equilibrium_radial_distribution (self : Polymers.Python.ideal.thermodynamics.isometric.Ideal α) (end_to_end_length : NdArray α) : NdArray α :=
  NdArray.mapv end_to_end_length (fun (end_to_end_length : α) => Polymers.ideal.thermodynamics.isometric.equilibrium_radial_distribution self.number_of_links self.link_length end_to_end_length)

/-- `src/physics/single_chain/ideal/thermodynamics/isometric/py.rs` lines 249-252. -/
def Ideal.nondimensional_equilibrium_radial_distribution (self : Polymers.Python.ideal.thermodynamics.isometric.Ideal α) (nondimensional_end_to_end_length_per_link : NdArray α) : NdArray α :=
  NdArray.mapv nondimensional_end_to_end_length_per_link (fun (nondimensional_end_to_end_length_per_link : α) => Polymers.ideal.thermodynamics.isometric.nondimensional_equilibrium_radial_distribution self.number_of_links nondimensional_end_to_end_length_per_link)

end Polymers.Python.ideal.thermodynamics.isometric

namespace Polymers.Python.ideal.thermodynamics.isotensional

/-- `src/physics/single_chain/ideal/thermodynamics/isotensional/py.rs` lines 20-33: struct `Ideal`. -/
structure Ideal (α : Type) where
  /-- field `hinge_mass` -/
  hinge_mass : α
  /-- field `link_length` -/
  link_length : α
  /-- field `number_of_links` -/
  number_of_links : Nat

/-- `src/physics/single_chain/ideal/thermodynamics/isotensional/py.rs` lines 39-47. -/
def Ideal.init (number_of_links : Nat) (link_length : α) (hinge_mass : α) : Polymers.Python.ideal.thermodynamics.isotensional.Ideal α :=
  { hinge_mass := hinge_mass, link_length := link_length, number_of_links := number_of_links }

/-- `src/physics/single_chain/ideal/thermodynamics/isotensional/py.rs` lines 60-63. -/
def Ideal.end_to_end_length (self : Polymers.Python.ideal.thermodynamics.isotensional.Ideal α) (force : NdArray α) (temperature : α) : NdArray α :=
  NdArray.mapv force (fun (force : α) => Polymers.ideal.thermodynamics.isotensional.end_to_end_length self.number_of_links self.link_length force temperature)

/-- `src/physics/single_chain/ideal/thermodynamics/isotensional/py.rs` lines 73-76. -/
def Ideal.end_to_end_length_per_link (self : Polymers.Python.ideal.thermodynamics.isotensional.Ideal α) (force : NdArray α) (temperature : α) : NdArray α :=
  NdArray.mapv force (fun (force : α) => Polymers.ideal.thermodynamics.isotensional.end_to_end_length_per_link self.link_length force temperature)

/-- `src/physics/single_chain/ideal/thermodynamics/isotensional/py.rs` lines 85-88. -/
def Ideal.nondimensional_end_to_end_length (self : Polymers.Python.ideal.thermodynamics.isotensional.Ideal α) (nondimensional_force : NdArray α) : NdArray α :=
  NdArray.mapv nondimensional_force (fun (nondimensional_force : α) => Polymers.ideal.thermodynamics.isotensional.nondimensional_end_to_end_length self.number_of_links nondimensional_force)

/-- `src/physics/single_chain/ideal/thermodynamics/isotensional/py.rs` lines 100-103. -/
def Ideal.nondimensional_end_to_end_length_per_link (self : Polymers.Python.ideal.thermodynamics.isotensional.Ideal α) (nondimensional_force : NdArray α) : NdArray α :=
  NdArray.mapv nondimensional_force (fun (nondimensional_force : α) => Polymers.ideal.thermodynamics.isotensional.nondimensional_end_to_end_length_per_link nondimensional_force)

/-- `src/physics/single_chain/ideal/thermodynamics/isotensional/py.rs` lines 116-119. -/
def Ideal.gibbs_free_energy (self : Polymers.Python.ideal.thermodynamics.isotensional.Ideal α) (force : NdArray α) (temperature : α) : NdArray α :=
  NdArray.mapv force (fun (force : α) => Polymers.ideal.thermodynamics.isotensional.gibbs_free_energy self.number_of_links self.link_length self.hinge_mass force temperature)

/-- `src/physics/single_chain/ideal/thermodynamics/isotensional/py.rs` lines 129-132. -/
def Ideal.gibbs_free_energy_per_link (self : Polymers.Python.ideal.thermodynamics.isotensional.Ideal α) (force : NdArray α) (temperature : α) : NdArray α :=
  NdArray.mapv force (fun (force : α) => Polymers.ideal.thermodynamics.isotensional.gibbs_free_energy_per_link self.link_length self.hinge_mass force temperature)

/-- `src/physics/single_chain/ideal/thermodynamics/isotensional/py.rs` lines 145-148. -/
def Ideal.relative_gibbs_free_energy (self : Polymers.Python.ideal.thermodynamics.isotensional.Ideal α) (force : NdArray α) (temperature : α) : NdArray α :=
  NdArray.mapv force (fun (force : α) => Polymers.ideal.thermodynamics.isotensional.relative_gibbs_free_energy self.number_of_links self.link_length force temperature)

/-- `src/physics/single_chain/ideal/thermodynamics/isotensional/py.rs` lines 158-161. -/
def Ideal.relative_gibbs_free_energy_per_link (self : Polymers.Python.ideal.thermodynamics.isotensional.Ideal α) (force : NdArray α) (temperature : α) : NdArray α :=
  NdArray.mapv force (fun (force : α) => Polymers.ideal.thermodynamics.isotensional.relative_gibbs_free_energy_per_link self.link_length force temperature)

/-- `src/physics/single_chain/ideal/thermodynamics/isotensional/py.rs` lines 171-174. -/
def Ideal.nondimensional_gibbs_free_energy (self : Polymers.Python.ideal.thermodynamics.isotensional.Ideal α) (nondimensional_force : NdArray α) (temperature : α) : NdArray α :=
  NdArray.mapv nondimensional_force (fun (nondimensional_force : α) => Polymers.ideal.thermodynamics.isotensional.nondimensional_gibbs_free_energy self.number_of_links self.link_length self.hinge_mass nondimensional_force temperature)

/-- `src/physics/single_chain/ideal/thermodynamics/isotensional/py.rs` lines 184-187. -/
def Ideal.nondimensional_gibbs_free_energy_per_link (self : Polymers.Python.ideal.thermodynamics.isotensional.Ideal α) (nondimensional_force : NdArray α) (temperature : α) : NdArray α :=
  NdArray.mapv nondimensional_force (fun (nondimensional_force : α) => Polymers.ideal.thermodynamics.isotensional.nondimensional_gibbs_free_energy_per_link self.link_length self.hinge_mass nondimensional_force temperature)

/-- `src/physics/single_chain/ideal/thermodynamics/isotensional/py.rs` lines 196-199. -/
def Ideal.nondimensional_relative_gibbs_free_energy (self : Polymers.Python.ideal.thermodynamics.isotensional.Ideal α) (nondimensional_force : NdArray α) : NdArray α :=
  NdArray.mapv nondimensional_force (fun (nondimensional_force : α) => Polymers.ideal.thermodynamics.isotensional.nondimensional_relative_gibbs_free_energy self.number_of_links nondimensional_force)

/-- `src/physics/single_chain/ideal/thermodynamics/isotensional/py.rs` lines 211-214. -/
def Ideal.nondimensional_relative_gibbs_free_energy_per_link (self : Polymers.Python.ideal.thermodynamics.isotensional.Ideal α) (nondimensional_force : NdArray α) : NdArray α :=
  NdArray.mapv nondimensional_force (fun (nondimensional_force : α) => Polymers.ideal.thermodynamics.isotensional.nondimensional_relative_gibbs_free_energy_per_link nondimensional_force)

end Polymers.Python.ideal.thermodynamics.isotensional

namespace Polymers.Python.ideal.thermodynamics

/-- `src/physics/single_chain/ideal/thermodynamics/py.rs` lines 16-37: struct `Ideal`. -/
structure Ideal (α : Type) where
  /-- field `hinge_mass` -/
  hinge_mass : α
  /-- field `link_length` -/
  link_length : α
  /-- field `number_of_links` -/
  number_of_links : Nat
  /-- field `isometric` -/
  isometric : Polymers.Python.ideal.thermodynamics.isometric.Ideal α
  /-- field `isotensional` -/
  isotensional : Polymers.Python.ideal.thermodynamics.isotensional.Ideal α

/-- `src/physics/single_chain/ideal/thermodynamics/py.rs` lines 43-53. -/
def Ideal.init (number_of_links : Nat) (link_length : α) (hinge_mass : α) : Polymers.Python.ideal.thermodynamics.Ideal α :=
  { hinge_mass := hinge_mass, link_length := link_length, number_of_links := number_of_links, isometric := Polymers.Python.ideal.thermodynamics.isometric.Ideal.init number_of_links link_length hinge_mass, isotensional := Polymers.Python.ideal.thermodynamics.isotensional.Ideal.init number_of_links link_length hinge_mass }

end Polymers.Python.ideal.thermodynamics

namespace Polymers.Python.ideal

/-- `src/physics/single_chain/ideal/py.rs` lines 14-31: struct `Ideal`. -/
structure Ideal (α : Type) where
  /-- field `hinge_mass` -/
  hinge_mass : α
  /-- field `link_length` -/
  link_length : α
  /-- field `number_of_links` -/
  number_of_links : Nat
  /-- field `thermodynamics` -/
  thermodynamics : Polymers.Python.ideal.thermodynamics.Ideal α

/-- `src/physics/single_chain/ideal/py.rs` lines 37-46. -/
def Ideal.init (number_of_links : Nat) (link_length : α) (hinge_mass : α) : Polymers.Python.ideal.Ideal α :=
  { hinge_mass := hinge_mass, link_length := link_length, number_of_links := number_of_links, thermodynamics := Polymers.Python.ideal.thermodynamics.Ideal.init number_of_links link_length hinge_mass }

end Polymers.Python.ideal
