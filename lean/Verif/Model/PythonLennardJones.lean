/- Generated by tools/py2lean.py from the py.rs files of /repo/src/physics/single_chain/ufjc/lennard_jones ; do not edit by hand. -/
import Verif.Model.LennardJones
import Verif.Model.PythonBase

set_option linter.unusedVariables false

open Polymers

variable {α : Type} [Add α] [Sub α] [Mul α] [Div α] [Neg α] [OfScientific α] [NatCast α] [Elem α]

namespace Polymers.Python.ufjc.lennard_jones.thermodynamics.isometric.asymptotic.reduced.legendre

/-- `src/physics/single_chain/ufjc/lennard_jones/thermodynamics/isometric/asymptotic/reduced/legendre/py.rs` lines 21-38: struct `LENNARDJONESFJC`. -/
structure LENNARDJONESFJC (α : Type) where
  /-- field `hinge_mass` -/
  hinge_mass : α
  /-- field `link_length` -/
  link_length : α
  /-- field `number_of_links` -/
  number_of_links : Nat
  /-- field `link_stiffness` -/
  link_stiffness : α

/-- `src/physics/single_chain/ufjc/lennard_jones/thermodynamics/isometric/asymptotic/reduced/legendre/py.rs` lines 44-53. -/
def LENNARDJONESFJC.init (number_of_links : Nat) (link_length : α) (hinge_mass : α) (link_stiffness : α) : Polymers.Python.ufjc.lennard_jones.thermodynamics.isometric.asymptotic.reduced.legendre.LENNARDJONESFJC α :=
  { hinge_mass := hinge_mass, link_length := link_length, number_of_links := number_of_links, link_stiffness := link_stiffness }

/-- `src/physics/single_chain/ufjc/lennard_jones/thermodynamics/isometric/asymptotic/reduced/legendre/py.rs` lines 63-66. -/
def LENNARDJONESFJC.force (self : Polymers.Python.ufjc.lennard_jones.thermodynamics.isometric.asymptotic.reduced.legendre.LENNARDJONESFJC α) (end_to_end_length : NdArray α) (temperature : α) : NdArray α :=
  NdArray.mapv end_to_end_length (fun (end_to_end_length : α) => Polymers.ufjc.lennard_jones.thermodynamics.isometric.asymptotic.reduced.legendre.force self.number_of_links self.link_length self.link_stiffness end_to_end_length temperature)

/-- `src/physics/single_chain/ufjc/lennard_jones/thermodynamics/isometric/asymptotic/reduced/legendre/py.rs` lines 75-78. -/
def LENNARDJONESFJC.nondimensional_force (self : Polymers.Python.ufjc.lennard_jones.thermodynamics.isometric.asymptotic.reduced.legendre.LENNARDJONESFJC α) (nondimensional_end_to_end_length_per_link : NdArray α) (temperature : α) : NdArray α :=
  NdArray.mapv nondimensional_end_to_end_length_per_link (fun (nondimensional_end_to_end_length_per_link : α) => Polymers.ufjc.lennard_jones.thermodynamics.isometric.asymptotic.reduced.legendre.nondimensional_force (self.link_stiffness * Elem.powi self.link_length 2 / (Polymers.BOLTZMANN_CONSTANT : α) / temperature) nondimensional_end_to_end_length_per_link)

/-- `src/physics/single_chain/ufjc/lennard_jones/thermodynamics/isometric/asymptotic/reduced/legendre/py.rs` lines 93-96. -/
def LENNARDJONESFJC.helmholtz_free_energy (self : Polymers.Python.ufjc.lennard_jones.thermodynamics.isometric.asymptotic.reduced.legendre.LENNARDJONESFJC α) (end_to_end_length : NdArray α) (temperature : α) : NdArray α :=
  NdArray.mapv end_to_end_length (fun (end_to_end_length : α) => Polymers.ufjc.lennard_jones.thermodynamics.isometric.asymptotic.reduced.legendre.helmholtz_free_energy self.number_of_links self.link_length self.hinge_mass self.link_stiffness end_to_end_length temperature)

/-- `src/physics/single_chain/ufjc/lennard_jones/thermodynamics/isometric/asymptotic/reduced/legendre/py.rs` lines 106-109. -/
def LENNARDJONESFJC.helmholtz_free_energy_per_link (self : Polymers.Python.ufjc.lennard_jones.thermodynamics.isometric.asymptotic.reduced.legendre.LENNARDJONESFJC α) (end_to_end_length : NdArray α) (temperature : α) : NdArray α :=
  NdArray.mapv end_to_end_length (fun (end_to_end_length : α) => Polymers.ufjc.lennard_jones.thermodynamics.isometric.asymptotic.reduced.legendre.helmholtz_free_energy_per_link self.number_of_links self.link_length self.hinge_mass self.link_stiffness end_to_end_length temperature)

/-- `src/physics/single_chain/ufjc/lennard_jones/thermodynamics/isometric/asymptotic/reduced/legendre/py.rs` lines 119-122. -/
def LENNARDJONESFJC.relative_helmholtz_free_energy (self : Polymers.Python.ufjc.lennard_jones.thermodynamics.isometric.asymptotic.reduced.legendre.LENNARDJONESFJC α) (end_to_end_length : NdArray α) (temperature : α) : NdArray α :=
  NdArray.mapv end_to_end_length (fun (end_to_end_length : α) => Polymers.ufjc.lennard_jones.thermodynamics.isometric.asymptotic.reduced.legendre.relative_helmholtz_free_energy self.number_of_links self.link_length self.link_stiffness end_to_end_length temperature)

/-- `src/physics/single_chain/ufjc/lennard_jones/thermodynamics/isometric/asymptotic/reduced/legendre/py.rs` lines 132-135. -/
def LENNARDJONESFJC.relative_helmholtz_free_energy_per_link (self : Polymers.Python.ufjc.lennard_jones.thermodynamics.isometric.asymptotic.reduced.legendre.LENNARDJONESFJC α) (end_to_end_length : NdArray α) (temperature : α) : NdArray α :=
  NdArray.mapv end_to_end_length (fun (end_to_end_length : α) => Polymers.ufjc.lennard_jones.thermodynamics.isometric.asymptotic.reduced.legendre.relative_helmholtz_free_energy_per_link self.number_of_links self.link_length self.link_stiffness end_to_end_length temperature)

/-- `src/physics/single_chain/ufjc/lennard_jones/thermodynamics/isometric/asymptotic/reduced/legendre/py.rs` lines 145-148. -/
def LENNARDJONESFJC.nondimensional_helmholtz_free_energy (self : Polymers.Python.ufjc.lennard_jones.thermodynamics.isometric.asymptotic.reduced.legendre.LENNARDJONESFJC α) (nondimensional_end_to_end_length_per_link : NdArray α) (temperature : α) : NdArray α :=
  NdArray.mapv nondimensional_end_to_end_length_per_link (fun (nondimensional_end_to_end_length_per_link : α) => Polymers.ufjc.lennard_jones.thermodynamics.isometric.asymptotic.reduced.legendre.nondimensional_helmholtz_free_energy self.number_of_links self.link_length self.hinge_mass (self.link_stiffness * Elem.powi self.link_length 2 / (Polymers.BOLTZMANN_CONSTANT : α) / temperature) nondimensional_end_to_end_length_per_link temperature)

/-- `src/physics/single_chain/ufjc/lennard_jones/thermodynamics/isometric/asymptotic/reduced/legendre/py.rs` lines 158-161. -/
def LENNARDJONESFJC.nondimensional_helmholtz_free_energy_per_link (self : Polymers.Python.ufjc.lennard_jones.thermodynamics.isometric.asymptotic.reduced.legendre.LENNARDJONESFJC α) (nondimensional_end_to_end_length_per_link : NdArray α) (temperature : α) : NdArray α :=
  NdArray.mapv nondimensional_end_to_end_length_per_link (fun (nondimensional_end_to_end_length_per_link : α) => Polymers.ufjc.lennard_jones.thermodynamics.isometric.asymptotic.reduced.legendre.nondimensional_helmholtz_free_energy_per_link self.number_of_links self.link_length self.hinge_mass (self.link_stiffness * Elem.powi self.link_length 2 / (Polymers.BOLTZMANN_CONSTANT : α) / temperature) nondimensional_end_to_end_length_per_link temperature)

/-- `src/physics/single_chain/ufjc/lennard_jones/thermodynamics/isometric/asymptotic/reduced/legendre/py.rs` lines 170-173. -/
def LENNARDJONESFJC.nondimensional_relative_helmholtz_free_energy (self : Polymers.Python.ufjc.lennard_jones.thermodynamics.isometric.asymptotic.reduced.legendre.LENNARDJONESFJC α) (nondimensional_end_to_end_length_per_link : NdArray α) (temperature : α) : NdArray α :=
  NdArray.mapv nondimensional_end_to_end_length_per_link (fun (nondimensional_end_to_end_length_per_link : α) => Polymers.ufjc.lennard_jones.thermodynamics.isometric.asymptotic.reduced.legendre.nondimensional_relative_helmholtz_free_energy self.number_of_links (self.link_stiffness * Elem.powi self.link_length 2 / (Polymers.BOLTZMANN_CONSTANT : α) / temperature) nondimensional_end_to_end_length_per_link)

/-- `src/physics/single_chain/ufjc/lennard_jones/thermodynamics/isometric/asymptotic/reduced/legendre/py.rs` lines 182-185. -/
def LENNARDJONESFJC.nondimensional_relative_helmholtz_free_energy_per_link (self : Polymers.Python.ufjc.lennard_jones.thermodynamics.isometric.asymptotic.reduced.legendre.LENNARDJONESFJC α) (nondimensional_end_to_end_length_per_link : NdArray α) (temperature : α) : NdArray α :=
  NdArray.mapv nondimensional_end_to_end_length_per_link (fun (nondimensional_end_to_end_length_per_link : α) => Polymers.ufjc.lennard_jones.thermodynamics.isometric.asymptotic.reduced.legendre.nondimensional_relative_helmholtz_free_energy_per_link (self.link_stiffness * Elem.powi self.link_length 2 / (Polymers.BOLTZMANN_CONSTANT : α) / temperature) nondimensional_end_to_end_length_per_link)

end Polymers.Python.ufjc.lennard_jones.thermodynamics.isometric.asymptotic.reduced.legendre

namespace Polymers.Python.ufjc.lennard_jones.thermodynamics.isotensional.asymptotic.reduced.legendre

/-- `src/physics/single_chain/ufjc/lennard_jones/thermodynamics/isotensional/asymptotic/reduced/legendre/py.rs` lines 21-38: struct `LENNARDJONESFJC`. -/
structure LENNARDJONESFJC (α : Type) where
  /-- field `hinge_mass` -/
  hinge_mass : α
  /-- field `link_length` -/
  link_length : α
  /-- field `number_of_links` -/
  number_of_links : Nat
  /-- field `link_stiffness` -/
  link_stiffness : α

/-- `src/physics/single_chain/ufjc/lennard_jones/thermodynamics/isotensional/asymptotic/reduced/legendre/py.rs` lines 44-53. -/
def LENNARDJONESFJC.init (number_of_links : Nat) (link_length : α) (hinge_mass : α) (link_stiffness : α) : Polymers.Python.ufjc.lennard_jones.thermodynamics.isotensional.asymptotic.reduced.legendre.LENNARDJONESFJC α :=
  { hinge_mass := hinge_mass, link_length := link_length, number_of_links := number_of_links, link_stiffness := link_stiffness }

/-- `src/physics/single_chain/ufjc/lennard_jones/thermodynamics/isotensional/asymptotic/reduced/legendre/py.rs` lines 66-69. -/
def LENNARDJONESFJC.helmholtz_free_energy (self : Polymers.Python.ufjc.lennard_jones.thermodynamics.isotensional.asymptotic.reduced.legendre.LENNARDJONESFJC α) (force : NdArray α) (temperature : α) : NdArray α :=
  NdArray.mapv force (fun (force : α) => Polymers.ufjc.lennard_jones.thermodynamics.isotensional.asymptotic.reduced.legendre.helmholtz_free_energy self.number_of_links self.link_length self.hinge_mass self.link_stiffness force temperature)

/-- `src/physics/single_chain/ufjc/lennard_jones/thermodynamics/isotensional/asymptotic/reduced/legendre/py.rs` lines 79-82. -/
def LENNARDJONESFJC.helmholtz_free_energy_per_link (self : Polymers.Python.ufjc.lennard_jones.thermodynamics.isotensional.asymptotic.reduced.legendre.LENNARDJONESFJC α) (force : NdArray α) (temperature : α) : NdArray α :=
  NdArray.mapv force (fun (force : α) => Polymers.ufjc.lennard_jones.thermodynamics.isotensional.asymptotic.reduced.legendre.helmholtz_free_energy_per_link self.link_length self.hinge_mass self.link_stiffness force temperature)

/-- `src/physics/single_chain/ufjc/lennard_jones/thermodynamics/isotensional/asymptotic/reduced/legendre/py.rs` lines 92-95. -/
def LENNARDJONESFJC.relative_helmholtz_free_energy (self : Polymers.Python.ufjc.lennard_jones.thermodynamics.isotensional.asymptotic.reduced.legendre.LENNARDJONESFJC α) (force : NdArray α) (temperature : α) : NdArray α :=
  NdArray.mapv force (fun (force : α) => Polymers.ufjc.lennard_jones.thermodynamics.isotensional.asymptotic.reduced.legendre.relative_helmholtz_free_energy self.number_of_links self.link_length self.link_stiffness force temperature)

/-- `src/physics/single_chain/ufjc/lennard_jones/thermodynamics/isotensional/asymptotic/reduced/legendre/py.rs` lines 105-108. -/
def LENNARDJONESFJC.relative_helmholtz_free_energy_per_link (self : Polymers.Python.ufjc.lennard_jones.thermodynamics.isotensional.asymptotic.reduced.legendre.LENNARDJONESFJC α) (force : NdArray α) (temperature : α) : NdArray α :=
  NdArray.mapv force (fun (force : α) => Polymers.ufjc.lennard_jones.thermodynamics.isotensional.asymptotic.reduced.legendre.relative_helmholtz_free_energy_per_link self.link_length self.link_stiffness force temperature)

/-- `src/physics/single_chain/ufjc/lennard_jones/thermodynamics/isotensional/asymptotic/reduced/legendre/py.rs` lines 118-121. -/
def LENNARDJONESFJC.nondimensional_helmholtz_free_energy (self : Polymers.Python.ufjc.lennard_jones.thermodynamics.isotensional.asymptotic.reduced.legendre.LENNARDJONESFJC α) (nondimensional_force : NdArray α) (temperature : α) : NdArray α :=
  NdArray.mapv nondimensional_force (fun (nondimensional_force : α) => Polymers.ufjc.lennard_jones.thermodynamics.isotensional.asymptotic.reduced.legendre.nondimensional_helmholtz_free_energy self.number_of_links self.link_length self.hinge_mass (self.link_stiffness * Elem.powi self.link_length 2 / (Polymers.BOLTZMANN_CONSTANT : α) / temperature) nondimensional_force temperature)

/-- `src/physics/single_chain/ufjc/lennard_jones/thermodynamics/isotensional/asymptotic/reduced/legendre/py.rs` lines 131-134. -/
def LENNARDJONESFJC.nondimensional_helmholtz_free_energy_per_link (self : Polymers.Python.ufjc.lennard_jones.thermodynamics.isotensional.asymptotic.reduced.legendre.LENNARDJONESFJC α) (nondimensional_force : NdArray α) (temperature : α) : NdArray α :=
  NdArray.mapv nondimensional_force (fun (nondimensional_force : α) => Polymers.ufjc.lennard_jones.thermodynamics.isotensional.asymptotic.reduced.legendre.nondimensional_helmholtz_free_energy_per_link self.link_length self.hinge_mass (self.link_stiffness * Elem.powi self.link_length 2 / (Polymers.BOLTZMANN_CONSTANT : α) / temperature) nondimensional_force temperature)

/-- `src/physics/single_chain/ufjc/lennard_jones/thermodynamics/isotensional/asymptotic/reduced/legendre/py.rs` lines 144-147. -/
def LENNARDJONESFJC.nondimensional_relative_helmholtz_free_energy (self : Polymers.Python.ufjc.lennard_jones.thermodynamics.isotensional.asymptotic.reduced.legendre.LENNARDJONESFJC α) (nondimensional_force : NdArray α) (temperature : α) : NdArray α :=
  NdArray.mapv nondimensional_force (fun (nondimensional_force : α) => Polymers.ufjc.lennard_jones.thermodynamics.isotensional.asymptotic.reduced.legendre.nondimensional_relative_helmholtz_free_energy self.number_of_links (self.link_stiffness * Elem.powi self.link_length 2 / (Polymers.BOLTZMANN_CONSTANT : α) / temperature) nondimensional_force)

/-- `src/physics/single_chain/ufjc/lennard_jones/thermodynamics/isotensional/asymptotic/reduced/legendre/py.rs` lines 157-160. -/
def LENNARDJONESFJC.nondimensional_relative_helmholtz_free_energy_per_link (self : Polymers.Python.ufjc.lennard_jones.thermodynamics.isotensional.asymptotic.reduced.legendre.LENNARDJONESFJC α) (nondimensional_force : NdArray α) (temperature : α) : NdArray α :=
  NdArray.mapv nondimensional_force (fun (nondimensional_force : α) => Polymers.ufjc.lennard_jones.thermodynamics.isotensional.asymptotic.reduced.legendre.nondimensional_relative_helmholtz_free_energy_per_link (self.link_stiffness * Elem.powi self.link_length 2 / (Polymers.BOLTZMANN_CONSTANT : α) / temperature) nondimensional_force)

end Polymers.Python.ufjc.lennard_jones.thermodynamics.isotensional.asymptotic.reduced.legendre

namespace Polymers.Python.ufjc.lennard_jones.thermodynamics.isometric.asymptotic.legendre

/-- `src/physics/single_chain/ufjc/lennard_jones/thermodynamics/isometric/asymptotic/legendre/py.rs` lines 21-38: struct `LENNARDJONESFJC`. -/
structure LENNARDJONESFJC (α : Type) where
  /-- field `hinge_mass` -/
  hinge_mass : α
  /-- field `link_length` -/
  link_length : α
  /-- field `number_of_links` -/
  number_of_links : Nat
  /-- field `link_stiffness` -/
  link_stiffness : α

/-- `src/physics/single_chain/ufjc/lennard_jones/thermodynamics/isometric/asymptotic/legendre/py.rs` lines 44-53. -/
def LENNARDJONESFJC.init (number_of_links : Nat) (link_length : α) (hinge_mass : α) (link_stiffness : α) : Polymers.Python.ufjc.lennard_jones.thermodynamics.isometric.asymptotic.legendre.LENNARDJONESFJC α :=
  { hinge_mass := hinge_mass, link_length := link_length, number_of_links := number_of_links, link_stiffness := link_stiffness }

/-- `src/physics/single_chain/ufjc/lennard_jones/thermodynamics/isometric/asymptotic/legendre/py.rs` lines 63-66. -/
def LENNARDJONESFJC.force (self : Polymers.Python.ufjc.lennard_jones.thermodynamics.isometric.asymptotic.legendre.LENNARDJONESFJC α) (end_to_end_length : NdArray α) (temperature : α) : NdArray α :=
  NdArray.mapv end_to_end_length (fun (end_to_end_length : α) => Polymers.ufjc.lennard_jones.thermodynamics.isometric.asymptotic.legendre.force self.number_of_links self.link_length self.link_stiffness end_to_end_length temperature)

/-- `src/physics/single_chain/ufjc/lennard_jones/thermodynamics/isometric/asymptotic/legendre/py.rs` lines 75-78. -/
def LENNARDJONESFJC.nondimensional_force (self : Polymers.Python.ufjc.lennard_jones.thermodynamics.isometric.asymptotic.legendre.LENNARDJONESFJC α) (nondimensional_end_to_end_length_per_link : NdArray α) (temperature : α) : NdArray α :=
  NdArray.mapv nondimensional_end_to_end_length_per_link (fun (nondimensional_end_to_end_length_per_link : α) => Polymers.ufjc.lennard_jones.thermodynamics.isometric.asymptotic.legendre.nondimensional_force (self.link_stiffness * Elem.powi self.link_length 2 / (Polymers.BOLTZMANN_CONSTANT : α) / temperature) nondimensional_end_to_end_length_per_link)

/-- `src/physics/single_chain/ufjc/lennard_jones/thermodynamics/isometric/asymptotic/legendre/py.rs` lines 93-96. -/
def LENNARDJONESFJC.helmholtz_free_energy (self : Polymers.Python.ufjc.lennard_jones.thermodynamics.isometric.asymptotic.legendre.LENNARDJONESFJC α) (end_to_end_length : NdArray α) (temperature : α) : NdArray α :=
  NdArray.mapv end_to_end_length (fun (end_to_end_length : α) => Polymers.ufjc.lennard_jones.thermodynamics.isometric.asymptotic.legendre.helmholtz_free_energy self.number_of_links self.link_length self.hinge_mass self.link_stiffness end_to_end_length temperature)

/-- `src/physics/single_chain/ufjc/lennard_jones/thermodynamics/isometric/asymptotic/legendre/py.rs` lines 106-109. -/
def LENNARDJONESFJC.helmholtz_free_energy_per_link (self : Polymers.Python.ufjc.lennard_jones.thermodynamics.isometric.asymptotic.legendre.LENNARDJONESFJC α) (end_to_end_length : NdArray α) (temperature : α) : NdArray α :=
  NdArray.mapv end_to_end_length (fun (end_to_end_length : α) => Polymers.ufjc.lennard_jones.thermodynamics.isometric.asymptotic.legendre.helmholtz_free_energy_per_link self.number_of_links self.link_length self.hinge_mass self.link_stiffness end_to_end_length temperature)

/-- `src/physics/single_chain/ufjc/lennard_jones/thermodynamics/isometric/asymptotic/legendre/py.rs` lines 119-122. -/
def LENNARDJONESFJC.relative_helmholtz_free_energy (self : Polymers.Python.ufjc.lennard_jones.thermodynamics.isometric.asymptotic.legendre.LENNARDJONESFJC α) (end_to_end_length : NdArray α) (temperature : α) : NdArray α :=
  NdArray.mapv end_to_end_length (fun (end_to_end_length : α) => Polymers.ufjc.lennard_jones.thermodynamics.isometric.asymptotic.legendre.relative_helmholtz_free_energy self.number_of_links self.link_length self.link_stiffness end_to_end_length temperature)

/-- `src/physics/single_chain/ufjc/lennard_jones/thermodynamics/isometric/asymptotic/legendre/py.rs` lines 132-135. -/
def LENNARDJONESFJC.relative_helmholtz_free_energy_per_link (self : Polymers.Python.ufjc.lennard_jones.thermodynamics.isometric.asymptotic.legendre.LENNARDJONESFJC α) (end_to_end_length : NdArray α) (temperature : α) : NdArray α :=
  NdArray.mapv end_to_end_length (fun (end_to_end_length : α) => Polymers.ufjc.lennard_jones.thermodynamics.isometric.asymptotic.legendre.relative_helmholtz_free_energy_per_link self.number_of_links self.link_length self.link_stiffness end_to_end_length temperature)

/-- `src/physics/single_chain/ufjc/lennard_jones/thermodynamics/isometric/asymptotic/legendre/py.rs` lines 145-148. -/
def LENNARDJONESFJC.nondimensional_helmholtz_free_energy (self : Polymers.Python.ufjc.lennard_jones.thermodynamics.isometric.asymptotic.legendre.LENNARDJONESFJC α) (nondimensional_end_to_end_length_per_link : NdArray α) (temperature : α) : NdArray α :=
  NdArray.mapv nondimensional_end_to_end_length_per_link (fun (nondimensional_end_to_end_length_per_link : α) => Polymers.ufjc.lennard_jones.thermodynamics.isometric.asymptotic.legendre.nondimensional_helmholtz_free_energy self.number_of_links self.link_length self.hinge_mass (self.link_stiffness * Elem.powi self.link_length 2 / (Polymers.BOLTZMANN_CONSTANT : α) / temperature) nondimensional_end_to_end_length_per_link temperature)

/-- `src/physics/single_chain/ufjc/lennard_jones/thermodynamics/isometric/asymptotic/legendre/py.rs` lines 158-161. -/
def LENNARDJONESFJC.nondimensional_helmholtz_free_energy_per_link (self : Polymers.Python.ufjc.lennard_jones.thermodynamics.isometric.asymptotic.legendre.LENNARDJONESFJC α) (nondimensional_end_to_end_length_per_link : NdArray α) (temperature : α) : NdArray α :=
  NdArray.mapv nondimensional_end_to_end_length_per_link (fun (nondimensional_end_to_end_length_per_link : α) => Polymers.ufjc.lennard_jones.thermodynamics.isometric.asymptotic.legendre.nondimensional_helmholtz_free_energy_per_link self.number_of_links self.link_length self.hinge_mass (self.link_stiffness * Elem.powi self.link_length 2 / (Polymers.BOLTZMANN_CONSTANT : α) / temperature) nondimensional_end_to_end_length_per_link temperature)

/-- `src/physics/single_chain/ufjc/lennard_jones/thermodynamics/isometric/asymptotic/legendre/py.rs` lines 170-173. -/
def LENNARDJONESFJC.nondimensional_relative_helmholtz_free_energy (self : Polymers.Python.ufjc.lennard_jones.thermodynamics.isometric.asymptotic.legendre.LENNARDJONESFJC α) (nondimensional_end_to_end_length_per_link : NdArray α) (temperature : α) : NdArray α :=
  NdArray.mapv nondimensional_end_to_end_length_per_link (fun (nondimensional_end_to_end_length_per_link : α) => Polymers.ufjc.lennard_jones.thermodynamics.isometric.asymptotic.legendre.nondimensional_relative_helmholtz_free_energy self.number_of_links (self.link_stiffness * Elem.powi self.link_length 2 / (Polymers.BOLTZMANN_CONSTANT : α) / temperature) nondimensional_end_to_end_length_per_link)

/-- `src/physics/single_chain/ufjc/lennard_jones/thermodynamics/isometric/asymptotic/legendre/py.rs` lines 182-185. -/
def LENNARDJONESFJC.nondimensional_relative_helmholtz_free_energy_per_link (self : Polymers.Python.ufjc.lennard_jones.thermodynamics.isometric.asymptotic.legendre.LENNARDJONESFJC α) (nondimensional_end_to_end_length_per_link : NdArray α) (temperature : α) : NdArray α :=
  NdArray.mapv nondimensional_end_to_end_length_per_link (fun (nondimensional_end_to_end_length_per_link : α) => Polymers.ufjc.lennard_jones.thermodynamics.isometric.asymptotic.legendre.nondimensional_relative_helmholtz_free_energy_per_link (self.link_stiffness * Elem.powi self.link_length 2 / (Polymers.BOLTZMANN_CONSTANT : α) / temperature) nondimensional_end_to_end_length_per_link)

end Polymers.Python.ufjc.lennard_jones.thermodynamics.isometric.asymptotic.legendre

namespace Polymers.Python.ufjc.lennard_jones.thermodynamics.isometric.asymptotic.reduced

/-- `src/physics/single_chain/ufjc/lennard_jones/thermodynamics/isometric/asymptotic/reduced/py.rs` lines 15-36: struct `LENNARDJONESFJC`. -/
structure LENNARDJONESFJC (α : Type) where
  /-- field `hinge_mass` -/
  hinge_mass : α
  /-- field `link_length` -/
  link_length : α
  /-- field `number_of_links` -/
  number_of_links : Nat
  /-- field `link_stiffness` -/
  link_stiffness : α
  /-- field `legendre` -/
  legendre : Polymers.Python.ufjc.lennard_jones.thermodynamics.isometric.asymptotic.reduced.legendre.LENNARDJONESFJC α

/-- `src/physics/single_chain/ufjc/lennard_jones/thermodynamics/isometric/asymptotic/reduced/py.rs` lines 42-52. -/
def LENNARDJONESFJC.init (number_of_links : Nat) (link_length : α) (hinge_mass : α) (link_stiffness : α) : Polymers.Python.ufjc.lennard_jones.thermodynamics.isometric.asymptotic.reduced.LENNARDJONESFJC α :=
  { hinge_mass := hinge_mass, link_length := link_length, number_of_links := number_of_links, link_stiffness := link_stiffness, legendre := Polymers.Python.ufjc.lennard_jones.thermodynamics.isometric.asymptotic.reduced.legendre.LENNARDJONESFJC.init number_of_links link_length hinge_mass link_stiffness }

end Polymers.Python.ufjc.lennard_jones.thermodynamics.isometric.asymptotic.reduced

namespace Polymers.Python.ufjc.lennard_jones.thermodynamics.isotensional.asymptotic.legendre

/-- `src/physics/single_chain/ufjc/lennard_jones/thermodynamics/isotensional/asymptotic/legendre/py.rs` lines 21-38: struct `LENNARDJONESFJC`. -/
structure LENNARDJONESFJC (α : Type) where
  /-- field `hinge_mass` -/
  hinge_mass : α
  /-- field `link_length` -/
  link_length : α
  /-- field `number_of_links` -/
  number_of_links : Nat
  /-- field `link_stiffness` -/
  link_stiffness : α

/-- `src/physics/single_chain/ufjc/lennard_jones/thermodynamics/isotensional/asymptotic/legendre/py.rs` lines 44-53. -/
def LENNARDJONESFJC.init (number_of_links : Nat) (link_length : α) (hinge_mass : α) (link_stiffness : α) : Polymers.Python.ufjc.lennard_jones.thermodynamics.isotensional.asymptotic.legendre.LENNARDJONESFJC α :=
  { hinge_mass := hinge_mass, link_length := link_length, number_of_links := number_of_links, link_stiffness := link_stiffness }

/-- `src/physics/single_chain/ufjc/lennard_jones/thermodynamics/isotensional/asymptotic/legendre/py.rs` lines 66-69. -/
def LENNARDJONESFJC.helmholtz_free_energy (self : Polymers.Python.ufjc.lennard_jones.thermodynamics.isotensional.asymptotic.legendre.LENNARDJONESFJC α) (force : NdArray α) (temperature : α) : NdArray α :=
  NdArray.mapv force (fun (force : α) => Polymers.ufjc.lennard_jones.thermodynamics.isotensional.asymptotic.legendre.helmholtz_free_energy self.number_of_links self.link_length self.hinge_mass self.link_stiffness force temperature)

/-- `src/physics/single_chain/ufjc/lennard_jones/thermodynamics/isotensional/asymptotic/legendre/py.rs` lines 79-82. -/
def LENNARDJONESFJC.helmholtz_free_energy_per_link (self : Polymers.Python.ufjc.lennard_jones.thermodynamics.isotensional.asymptotic.legendre.LENNARDJONESFJC α) (force : NdArray α) (temperature : α) : NdArray α :=
  NdArray.mapv force (fun (force : α) => Polymers.ufjc.lennard_jones.thermodynamics.isotensional.asymptotic.legendre.helmholtz_free_energy_per_link self.link_length self.hinge_mass self.link_stiffness force temperature)

/-- `src/physics/single_chain/ufjc/lennard_jones/thermodynamics/isotensional/asymptotic/legendre/py.rs` lines 92-95. -/
def LENNARDJONESFJC.relative_helmholtz_free_energy (self : Polymers.Python.ufjc.lennard_jones.thermodynamics.isotensional.asymptotic.legendre.LENNARDJONESFJC α) (force : NdArray α) (temperature : α) : NdArray α :=
  NdArray.mapv force (fun (force : α) => Polymers.ufjc.lennard_jones.thermodynamics.isotensional.asymptotic.legendre.relative_helmholtz_free_energy self.number_of_links self.link_length self.link_stiffness force temperature)

/-- `src/physics/single_chain/ufjc/lennard_jones/thermodynamics/isotensional/asymptotic/legendre/py.rs` lines 105-108. -/
def LENNARDJONESFJC.relative_helmholtz_free_energy_per_link (self : Polymers.Python.ufjc.lennard_jones.thermodynamics.isotensional.asymptotic.legendre.LENNARDJONESFJC α) (force : NdArray α) (temperature : α) : NdArray α :=
  NdArray.mapv force (fun (force : α) => Polymers.ufjc.lennard_jones.thermodynamics.isotensional.asymptotic.legendre.relative_helmholtz_free_energy_per_link self.link_length self.link_stiffness force temperature)

/-- `src/physics/single_chain/ufjc/lennard_jones/thermodynamics/isotensional/asymptotic/legendre/py.rs` lines 118-121. -/
def LENNARDJONESFJC.nondimensional_helmholtz_free_energy (self : Polymers.Python.ufjc.lennard_jones.thermodynamics.isotensional.asymptotic.legendre.LENNARDJONESFJC α) (nondimensional_force : NdArray α) (temperature : α) : NdArray α :=
  NdArray.mapv nondimensional_force (fun (nondimensional_force : α) => Polymers.ufjc.lennard_jones.thermodynamics.isotensional.asymptotic.legendre.nondimensional_helmholtz_free_energy self.number_of_links self.link_length self.hinge_mass (self.link_stiffness * Elem.powi self.link_length 2 / (Polymers.BOLTZMANN_CONSTANT : α) / temperature) nondimensional_force temperature)

/-- `src/physics/single_chain/ufjc/lennard_jones/thermodynamics/isotensional/asymptotic/legendre/py.rs` lines 131-134. -/
def LENNARDJONESFJC.nondimensional_helmholtz_free_energy_per_link (self : Polymers.Python.ufjc.lennard_jones.thermodynamics.isotensional.asymptotic.legendre.LENNARDJONESFJC α) (nondimensional_force : NdArray α) (temperature : α) : NdArray α :=
  NdArray.mapv nondimensional_force (fun (nondimensional_force : α) => Polymers.ufjc.lennard_jones.thermodynamics.isotensional.asymptotic.legendre.nondimensional_helmholtz_free_energy_per_link self.link_length self.hinge_mass (self.link_stiffness * Elem.powi self.link_length 2 / (Polymers.BOLTZMANN_CONSTANT : α) / temperature) nondimensional_force temperature)

/-- `src/physics/single_chain/ufjc/lennard_jones/thermodynamics/isotensional/asymptotic/legendre/py.rs` lines 144-147. -/
def LENNARDJONESFJC.nondimensional_relative_helmholtz_free_energy (self : Polymers.Python.ufjc.lennard_jones.thermodynamics.isotensional.asymptotic.legendre.LENNARDJONESFJC α) (nondimensional_force : NdArray α) (temperature : α) : NdArray α :=
  NdArray.mapv nondimensional_force (fun (nondimensional_force : α) => Polymers.ufjc.lennard_jones.thermodynamics.isotensional.asymptotic.legendre.nondimensional_relative_helmholtz_free_energy self.number_of_links (self.link_stiffness * Elem.powi self.link_length 2 / (Polymers.BOLTZMANN_CONSTANT : α) / temperature) nondimensional_force)

/-- `src/physics/single_chain/ufjc/lennard_jones/thermodynamics/isotensional/asymptotic/legendre/py.rs` lines 157-160. -/
def LENNARDJONESFJC.nondimensional_relative_helmholtz_free_energy_per_link (self : Polymers.Python.ufjc.lennard_jones.thermodynamics.isotensional.asymptotic.legendre.LENNARDJONESFJC α) (nondimensional_force : NdArray α) (temperature : α) : NdArray α :=
  NdArray.mapv nondimensional_force (fun (nondimensional_force : α) => Polymers.ufjc.lennard_jones.thermodynamics.isotensional.asymptotic.legendre.nondimensional_relative_helmholtz_free_energy_per_link (self.link_stiffness * Elem.powi self.link_length 2 / (Polymers.BOLTZMANN_CONSTANT : α) / temperature) nondimensional_force)

end Polymers.Python.ufjc.lennard_jones.thermodynamics.isotensional.asymptotic.legendre

namespace Polymers.Python.ufjc.lennard_jones.thermodynamics.isotensional.asymptotic.reduced

/-- `src/physics/single_chain/ufjc/lennard_jones/thermodynamics/isotensional/asymptotic/reduced/py.rs` lines 22-43: struct `LENNARDJONESFJC`. -/
structure LENNARDJONESFJC (α : Type) where
  /-- field `hinge_mass` -/
  hinge_mass : α
  /-- field `link_length` -/
  link_length : α
  /-- field `number_of_links` -/
  number_of_links : Nat
  /-- field `link_stiffness` -/
  link_stiffness : α
  /-- field `legendre` -/
  legendre : Polymers.Python.ufjc.lennard_jones.thermodynamics.isotensional.asymptotic.reduced.legendre.LENNARDJONESFJC α

/-- `src/physics/single_chain/ufjc/lennard_jones/thermodynamics/isotensional/asymptotic/reduced/py.rs` lines 49-59. -/
def LENNARDJONESFJC.init (number_of_links : Nat) (link_length : α) (hinge_mass : α) (link_stiffness : α) : Polymers.Python.ufjc.lennard_jones.thermodynamics.isotensional.asymptotic.reduced.LENNARDJONESFJC α :=
  { hinge_mass := hinge_mass, link_length := link_length, number_of_links := number_of_links, link_stiffness := link_stiffness, legendre := Polymers.Python.ufjc.lennard_jones.thermodynamics.isotensional.asymptotic.reduced.legendre.LENNARDJONESFJC.init number_of_links link_length hinge_mass link_stiffness }

/-- `src/physics/single_chain/ufjc/lennard_jones/thermodynamics/isotensional/asymptotic/reduced/py.rs` lines 72-75. -/
def LENNARDJONESFJC.end_to_end_length (self : Polymers.Python.ufjc.lennard_jones.thermodynamics.isotensional.asymptotic.reduced.LENNARDJONESFJC α) (force : NdArray α) (temperature : α) : NdArray α :=
  NdArray.mapv force (fun (force : α) => Polymers.ufjc.lennard_jones.thermodynamics.isotensional.asymptotic.reduced.end_to_end_length self.number_of_links self.link_length self.link_stiffness force temperature)

/-- `src/physics/single_chain/ufjc/lennard_jones/thermodynamics/isotensional/asymptotic/reduced/py.rs` lines 85-88. -/
def LENNARDJONESFJC.end_to_end_length_per_link (self : Polymers.Python.ufjc.lennard_jones.thermodynamics.isotensional.asymptotic.reduced.LENNARDJONESFJC α) (force : NdArray α) (temperature : α) : NdArray α :=
  NdArray.mapv force (fun (force : α) => Polymers.ufjc.lennard_jones.thermodynamics.isotensional.asymptotic.reduced.end_to_end_length_per_link self.link_length self.link_stiffness force temperature)

/-- `src/physics/single_chain/ufjc/lennard_jones/thermodynamics/isotensional/asymptotic/reduced/py.rs` lines 98-101. -/
def LENNARDJONESFJC.nondimensional_end_to_end_length (self : Polymers.Python.ufjc.lennard_jones.thermodynamics.isotensional.asymptotic.reduced.LENNARDJONESFJC α) (nondimensional_force : NdArray α) (temperature : α) : NdArray α :=
  NdArray.mapv nondimensional_force (fun (nondimensional_force : α) => Polymers.ufjc.lennard_jones.thermodynamics.isotensional.asymptotic.reduced.nondimensional_end_to_end_length self.number_of_links (self.link_stiffness * Elem.powi self.link_length 2 / (Polymers.BOLTZMANN_CONSTANT : α) / temperature) nondimensional_force)

/-- `src/physics/single_chain/ufjc/lennard_jones/thermodynamics/isotensional/asymptotic/reduced/py.rs` lines 119-122. -/
def LENNARDJONESFJC.nondimensional_end_to_end_length_per_link (self : Polymers.Python.ufjc.lennard_jones.thermodynamics.isotensional.asymptotic.reduced.LENNARDJONESFJC α) (nondimensional_force : NdArray α) (temperature : α) : NdArray α :=
  NdArray.mapv nondimensional_force (fun (nondimensional_force : α) => Polymers.ufjc.lennard_jones.thermodynamics.isotensional.asymptotic.reduced.nondimensional_end_to_end_length_per_link (self.link_stiffness * Elem.powi self.link_length 2 / (Polymers.BOLTZMANN_CONSTANT : α) / temperature) nondimensional_force)

/-- `src/physics/single_chain/ufjc/lennard_jones/thermodynamics/isotensional/asymptotic/reduced/py.rs` lines 135-138. -/
def LENNARDJONESFJC.gibbs_free_energy (self : Polymers.Python.ufjc.lennard_jones.thermodynamics.isotensional.asymptotic.reduced.LENNARDJONESFJC α) (force : NdArray α) (temperature : α) : NdArray α :=
  NdArray.mapv force (fun (force : α) => Polymers.ufjc.lennard_jones.thermodynamics.isotensional.asymptotic.reduced.gibbs_free_energy self.number_of_links self.link_length self.hinge_mass self.link_stiffness force temperature)

/-- `src/physics/single_chain/ufjc/lennard_jones/thermodynamics/isotensional/asymptotic/reduced/py.rs` lines 148-151. -/
def LENNARDJONESFJC.gibbs_free_energy_per_link (self : Polymers.Python.ufjc.lennard_jones.thermodynamics.isotensional.asymptotic.reduced.LENNARDJONESFJC α) (force : NdArray α) (temperature : α) : NdArray α :=
  NdArray.mapv force (fun (force : α) => Polymers.ufjc.lennard_jones.thermodynamics.isotensional.asymptotic.reduced.gibbs_free_energy_per_link self.link_length self.hinge_mass self.link_stiffness force temperature)

/-- `src/physics/single_chain/ufjc/lennard_jones/thermodynamics/isotensional/asymptotic/reduced/py.rs` lines 161-164. -/
def LENNARDJONESFJC.relative_gibbs_free_energy (self : Polymers.Python.ufjc.lennard_jones.thermodynamics.isotensional.asymptotic.reduced.LENNARDJONESFJC α) (force : NdArray α) (temperature : α) : NdArray α :=
  NdArray.mapv force (fun (force : α) => Polymers.ufjc.lennard_jones.thermodynamics.isotensional.asymptotic.reduced.relative_gibbs_free_energy self.number_of_links self.link_length self.link_stiffness force temperature)

/-- `src/physics/single_chain/ufjc/lennard_jones/thermodynamics/isotensional/asymptotic/reduced/py.rs` lines 174-177. -/
def LENNARDJONESFJC.relative_gibbs_free_energy_per_link (self : Polymers.Python.ufjc.lennard_jones.thermodynamics.isotensional.asymptotic.reduced.LENNARDJONESFJC α) (force : NdArray α) (temperature : α) : NdArray α :=
  NdArray.mapv force (fun (force : α) => Polymers.ufjc.lennard_jones.thermodynamics.isotensional.asymptotic.reduced.relative_gibbs_free_energy_per_link self.link_length self.link_stiffness force temperature)

/-- `src/physics/single_chain/ufjc/lennard_jones/thermodynamics/isotensional/asymptotic/reduced/py.rs` lines 187-190. -/
def LENNARDJONESFJC.nondimensional_gibbs_free_energy (self : Polymers.Python.ufjc.lennard_jones.thermodynamics.isotensional.asymptotic.reduced.LENNARDJONESFJC α) (nondimensional_force : NdArray α) (temperature : α) : NdArray α :=
  NdArray.mapv nondimensional_force (fun (nondimensional_force : α) => Polymers.ufjc.lennard_jones.thermodynamics.isotensional.asymptotic.reduced.nondimensional_gibbs_free_energy self.number_of_links self.link_length self.hinge_mass (self.link_stiffness * Elem.powi self.link_length 2 / (Polymers.BOLTZMANN_CONSTANT : α) / temperature) nondimensional_force temperature)

/-- `src/physics/single_chain/ufjc/lennard_jones/thermodynamics/isotensional/asymptotic/reduced/py.rs` lines 200-203. -/
def LENNARDJONESFJC.nondimensional_gibbs_free_energy_per_link (self : Polymers.Python.ufjc.lennard_jones.thermodynamics.isotensional.asymptotic.reduced.LENNARDJONESFJC α) (nondimensional_force : NdArray α) (temperature : α) : NdArray α :=
  NdArray.mapv nondimensional_force (fun (nondimensional_force : α) => Polymers.ufjc.lennard_jones.thermodynamics.isotensional.asymptotic.reduced.nondimensional_gibbs_free_energy_per_link self.link_length self.hinge_mass (self.link_stiffness * Elem.powi self.link_length 2 / (Polymers.BOLTZMANN_CONSTANT : α) / temperature) nondimensional_force temperature)

/-- `src/physics/single_chain/ufjc/lennard_jones/thermodynamics/isotensional/asymptotic/reduced/py.rs` lines 213-216. -/
def LENNARDJONESFJC.nondimensional_relative_gibbs_free_energy (self : Polymers.Python.ufjc.lennard_jones.thermodynamics.isotensional.asymptotic.reduced.LENNARDJONESFJC α) (nondimensional_force : NdArray α) (temperature : α) : NdArray α :=
  NdArray.mapv nondimensional_force (fun (nondimensional_force : α) => Polymers.ufjc.lennard_jones.thermodynamics.isotensional.asymptotic.reduced.nondimensional_relative_gibbs_free_energy self.number_of_links (self.link_stiffness * Elem.powi self.link_length 2 / (Polymers.BOLTZMANN_CONSTANT : α) / temperature) nondimensional_force)

/-- `src/physics/single_chain/ufjc/lennard_jones/thermodynamics/isotensional/asymptotic/reduced/py.rs` lines 238-241. -/
def LENNARDJONESFJC.nondimensional_relative_gibbs_free_energy_per_link (self : Polymers.Python.ufjc.lennard_jones.thermodynamics.isotensional.asymptotic.reduced.LENNARDJONESFJC α) (nondimensional_force : NdArray α) (temperature : α) : NdArray α :=
  NdArray.mapv nondimensional_force (fun (nondimensional_force : α) => Polymers.ufjc.lennard_jones.thermodynamics.isotensional.asymptotic.reduced.nondimensional_relative_gibbs_free_energy_per_link (self.link_stiffness * Elem.powi self.link_length 2 / (Polymers.BOLTZMANN_CONSTANT : α) / temperature) nondimensional_force)

end Polymers.Python.ufjc.lennard_jones.thermodynamics.isotensional.asymptotic.reduced

namespace Polymers.Python.ufjc.lennard_jones.thermodynamics.isometric.asymptotic

/-- `src/physics/single_chain/ufjc/lennard_jones/thermodynamics/isometric/asymptotic/py.rs` lines 16-41: struct `LENNARDJONESFJC`. -/
structure LENNARDJONESFJC (α : Type) where
  /-- field `hinge_mass` -/
  hinge_mass : α
  /-- field `link_length` -/
  link_length : α
  /-- field `number_of_links` -/
  number_of_links : Nat
  /-- field `link_stiffness` -/
  link_stiffness : α
  /-- field `reduced` -/
  reduced : Polymers.Python.ufjc.lennard_jones.thermodynamics.isometric.asymptotic.reduced.LENNARDJONESFJC α
  /-- field `legendre` -/
  legendre : Polymers.Python.ufjc.lennard_jones.thermodynamics.isometric.asymptotic.legendre.LENNARDJONESFJC α

/-- `src/physics/single_chain/ufjc/lennard_jones/thermodynamics/isometric/asymptotic/py.rs` lines 47-58. -/
def LENNARDJONESFJC.init (number_of_links : Nat) (link_length : α) (hinge_mass : α) (link_stiffness : α) : Polymers.Python.ufjc.lennard_jones.thermodynamics.isometric.asymptotic.LENNARDJONESFJC α :=
  { hinge_mass := hinge_mass, link_length := link_length, number_of_links := number_of_links, link_stiffness := link_stiffness, reduced := Polymers.Python.ufjc.lennard_jones.thermodynamics.isometric.asymptotic.reduced.LENNARDJONESFJC.init number_of_links link_length hinge_mass link_stiffness, legendre := Polymers.Python.ufjc.lennard_jones.thermodynamics.isometric.asymptotic.legendre.LENNARDJONESFJC.init number_of_links link_length hinge_mass link_stiffness }

end Polymers.Python.ufjc.lennard_jones.thermodynamics.isometric.asymptotic

namespace Polymers.Python.ufjc.lennard_jones.thermodynamics.isotensional.asymptotic

/-- `src/physics/single_chain/ufjc/lennard_jones/thermodynamics/isotensional/asymptotic/py.rs` lines 23-48: struct `LENNARDJONESFJC`. -/
structure LENNARDJONESFJC (α : Type) where
  /-- field `hinge_mass` -/
  hinge_mass : α
  /-- field `link_length` -/
  link_length : α
  /-- field `number_of_links` -/
  number_of_links : Nat
  /-- field `link_stiffness` -/
  link_stiffness : α
  /-- field `reduced` -/
  reduced : Polymers.Python.ufjc.lennard_jones.thermodynamics.isotensional.asymptotic.reduced.LENNARDJONESFJC α
  /-- field `legendre` -/
  legendre : Polymers.Python.ufjc.lennard_jones.thermodynamics.isotensional.asymptotic.legendre.LENNARDJONESFJC α

/-- `src/physics/single_chain/ufjc/lennard_jones/thermodynamics/isotensional/asymptotic/py.rs` lines 54-65. -/
def LENNARDJONESFJC.init (number_of_links : Nat) (link_length : α) (hinge_mass : α) (link_stiffness : α) : Polymers.Python.ufjc.lennard_jones.thermodynamics.isotensional.asymptotic.LENNARDJONESFJC α :=
  { hinge_mass := hinge_mass, link_length := link_length, number_of_links := number_of_links, link_stiffness := link_stiffness, reduced := Polymers.Python.ufjc.lennard_jones.thermodynamics.isotensional.asymptotic.reduced.LENNARDJONESFJC.init number_of_links link_length hinge_mass link_stiffness, legendre := Polymers.Python.ufjc.lennard_jones.thermodynamics.isotensional.asymptotic.legendre.LENNARDJONESFJC.init number_of_links link_length hinge_mass link_stiffness }

/-- `src/physics/single_chain/ufjc/lennard_jones/thermodynamics/isotensional/asymptotic/py.rs` lines 78-81. -/
def LENNARDJONESFJC.end_to_end_length (self : Polymers.Python.ufjc.lennard_jones.thermodynamics.isotensional.asymptotic.LENNARDJONESFJC α) (force : NdArray α) (temperature : α) : NdArray α :=
  NdArray.mapv force (fun (force : α) => Polymers.ufjc.lennard_jones.thermodynamics.isotensional.asymptotic.end_to_end_length self.number_of_links self.link_length self.link_stiffness force temperature)

/-- `src/physics/single_chain/ufjc/lennard_jones/thermodynamics/isotensional/asymptotic/py.rs` lines 91-94. -/
def LENNARDJONESFJC.end_to_end_length_per_link (self : Polymers.Python.ufjc.lennard_jones.thermodynamics.isotensional.asymptotic.LENNARDJONESFJC α) (force : NdArray α) (temperature : α) : NdArray α :=
  NdArray.mapv force (fun (force : α) => Polymers.ufjc.lennard_jones.thermodynamics.isotensional.asymptotic.end_to_end_length_per_link self.link_length self.link_stiffness force temperature)

/-- `src/physics/single_chain/ufjc/lennard_jones/thermodynamics/isotensional/asymptotic/py.rs` lines 104-107. -/
def LENNARDJONESFJC.nondimensional_end_to_end_length (self : Polymers.Python.ufjc.lennard_jones.thermodynamics.isotensional.asymptotic.LENNARDJONESFJC α) (nondimensional_force : NdArray α) (temperature : α) : NdArray α :=
  NdArray.mapv nondimensional_force (fun (nondimensional_force : α) => Polymers.ufjc.lennard_jones.thermodynamics.isotensional.asymptotic.nondimensional_end_to_end_length self.number_of_links (self.link_stiffness * Elem.powi self.link_length 2 / (Polymers.BOLTZMANN_CONSTANT : α) / temperature) nondimensional_force)

/-- `src/physics/single_chain/ufjc/lennard_jones/thermodynamics/isotensional/asymptotic/py.rs` lines 125-128. -/
def LENNARDJONESFJC.nondimensional_end_to_end_length_per_link (self : Polymers.Python.ufjc.lennard_jones.thermodynamics.isotensional.asymptotic.LENNARDJONESFJC α) (nondimensional_force : NdArray α) (temperature : α) : NdArray α :=
  NdArray.mapv nondimensional_force (fun (nondimensional_force : α) => Polymers.ufjc.lennard_jones.thermodynamics.isotensional.asymptotic.nondimensional_end_to_end_length_per_link (self.link_stiffness * Elem.powi self.link_length 2 / (Polymers.BOLTZMANN_CONSTANT : α) / temperature) nondimensional_force)

/-- `src/physics/single_chain/ufjc/lennard_jones/thermodynamics/isotensional/asymptotic/py.rs` lines 141-144. -/
def LENNARDJONESFJC.gibbs_free_energy (self : Polymers.Python.ufjc.lennard_jones.thermodynamics.isotensional.asymptotic.LENNARDJONESFJC α) (force : NdArray α) (temperature : α) : NdArray α :=
  NdArray.mapv force (fun (force : α) => Polymers.ufjc.lennard_jones.thermodynamics.isotensional.asymptotic.gibbs_free_energy self.number_of_links self.link_length self.hinge_mass self.link_stiffness force temperature)

/-- `src/physics/single_chain/ufjc/lennard_jones/thermodynamics/isotensional/asymptotic/py.rs` lines 154-157. -/
def LENNARDJONESFJC.gibbs_free_energy_per_link (self : Polymers.Python.ufjc.lennard_jones.thermodynamics.isotensional.asymptotic.LENNARDJONESFJC α) (force : NdArray α) (temperature : α) : NdArray α :=
  NdArray.mapv force (fun (force : α) => Polymers.ufjc.lennard_jones.thermodynamics.isotensional.asymptotic.gibbs_free_energy_per_link self.link_length self.hinge_mass self.link_stiffness force temperature)

/-- `src/physics/single_chain/ufjc/lennard_jones/thermodynamics/isotensional/asymptotic/py.rs` lines 167-170. -/
def LENNARDJONESFJC.relative_gibbs_free_energy (self : Polymers.Python.ufjc.lennard_jones.thermodynamics.isotensional.asymptotic.LENNARDJONESFJC α) (force : NdArray α) (temperature : α) : NdArray α :=
  NdArray.mapv force (fun (force : α) => Polymers.ufjc.lennard_jones.thermodynamics.isotensional.asymptotic.relative_gibbs_free_energy self.number_of_links self.link_length self.link_stiffness force temperature)

/-- `src/physics/single_chain/ufjc/lennard_jones/thermodynamics/isotensional/asymptotic/py.rs` lines 180-183. -/
def LENNARDJONESFJC.relative_gibbs_free_energy_per_link (self : Polymers.Python.ufjc.lennard_jones.thermodynamics.isotensional.asymptotic.LENNARDJONESFJC α) (force : NdArray α) (temperature : α) : NdArray α :=
  NdArray.mapv force (fun (force : α) => Polymers.ufjc.lennard_jones.thermodynamics.isotensional.asymptotic.relative_gibbs_free_energy_per_link self.link_length self.link_stiffness force temperature)

/-- `src/physics/single_chain/ufjc/lennard_jones/thermodynamics/isotensional/asymptotic/py.rs` lines 193-196. -/
def LENNARDJONESFJC.nondimensional_gibbs_free_energy (self : Polymers.Python.ufjc.lennard_jones.thermodynamics.isotensional.asymptotic.LENNARDJONESFJC α) (nondimensional_force : NdArray α) (temperature : α) : NdArray α :=
  NdArray.mapv nondimensional_force (fun (nondimensional_force : α) => Polymers.ufjc.lennard_jones.thermodynamics.isotensional.asymptotic.nondimensional_gibbs_free_energy self.number_of_links self.link_length self.hinge_mass (self.link_stiffness * Elem.powi self.link_length 2 / (Polymers.BOLTZMANN_CONSTANT : α) / temperature) nondimensional_force temperature)

/-- `src/physics/single_chain/ufjc/lennard_jones/thermodynamics/isotensional/asymptotic/py.rs` lines 206-209. -/
def LENNARDJONESFJC.nondimensional_gibbs_free_energy_per_link (self : Polymers.Python.ufjc.lennard_jones.thermodynamics.isotensional.asymptotic.LENNARDJONESFJC α) (nondimensional_force : NdArray α) (temperature : α) : NdArray α :=
  NdArray.mapv nondimensional_force (fun (nondimensional_force : α) => Polymers.ufjc.lennard_jones.thermodynamics.isotensional.asymptotic.nondimensional_gibbs_free_energy_per_link self.link_length self.hinge_mass (self.link_stiffness * Elem.powi self.link_length 2 / (Polymers.BOLTZMANN_CONSTANT : α) / temperature) nondimensional_force temperature)

/-- `src/physics/single_chain/ufjc/lennard_jones/thermodynamics/isotensional/asymptotic/py.rs` lines 219-222. -/
def LENNARDJONESFJC.nondimensional_relative_gibbs_free_energy (self : Polymers.Python.ufjc.lennard_jones.thermodynamics.isotensional.asymptotic.LENNARDJONESFJC α) (nondimensional_force : NdArray α) (temperature : α) : NdArray α :=
  NdArray.mapv nondimensional_force (fun (nondimensional_force : α) => Polymers.ufjc.lennard_jones.thermodynamics.isotensional.asymptotic.nondimensional_relative_gibbs_free_energy self.number_of_links (self.link_stiffness * Elem.powi self.link_length 2 / (Polymers.BOLTZMANN_CONSTANT : α) / temperature) nondimensional_force)

/-- `src/physics/single_chain/ufjc/lennard_jones/thermodynamics/isotensional/asymptotic/py.rs` lines 245-248. -/
def LENNARDJONESFJC.nondimensional_relative_gibbs_free_energy_per_link (self : Polymers.Python.ufjc.lennard_jones.thermodynamics.isotensional.asymptotic.LENNARDJONESFJC α) (nondimensional_force : NdArray α) (temperature : α) : NdArray α :=
  NdArray.mapv nondimensional_force (fun (nondimensional_force : α) => Polymers.ufjc.lennard_jones.thermodynamics.isotensional.asymptotic.nondimensional_relative_gibbs_free_energy_per_link (self.link_stiffness * Elem.powi self.link_length 2 / (Polymers.BOLTZMANN_CONSTANT : α) / temperature) nondimensional_force)

end Polymers.Python.ufjc.lennard_jones.thermodynamics.isotensional.asymptotic

namespace Polymers.Python.ufjc.lennard_jones.thermodynamics.isotensional.legendre

/-- `src/physics/single_chain/ufjc/lennard_jones/thermodynamics/isotensional/legendre/py.rs` lines 21-38: struct `LENNARDJONESFJC`. -/
structure LENNARDJONESFJC (α : Type) where
  /-- field `hinge_mass` -/
  hinge_mass : α
  /-- field `link_length` -/
  link_length : α
  /-- field `number_of_links` -/
  number_of_links : Nat
  /-- field `link_stiffness` -/
  link_stiffness : α

/-- `src/physics/single_chain/ufjc/lennard_jones/thermodynamics/isotensional/legendre/py.rs` lines 44-53. -/
def LENNARDJONESFJC.init (number_of_links : Nat) (link_length : α) (hinge_mass : α) (link_stiffness : α) : Polymers.Python.ufjc.lennard_jones.thermodynamics.isotensional.legendre.LENNARDJONESFJC α :=
  { hinge_mass := hinge_mass, link_length := link_length, number_of_links := number_of_links, link_stiffness := link_stiffness }

/-- `src/physics/single_chain/ufjc/lennard_jones/thermodynamics/isotensional/legendre/py.rs` lines 66-69. -/
def LENNARDJONESFJC.helmholtz_free_energy (self : Polymers.Python.ufjc.lennard_jones.thermodynamics.isotensional.legendre.LENNARDJONESFJC α) (force : NdArray α) (temperature : α) : NdArray α :=
  NdArray.mapv force (fun (force : α) => Polymers.ufjc.lennard_jones.thermodynamics.isotensional.legendre.helmholtz_free_energy self.number_of_links self.link_length self.hinge_mass self.link_stiffness force temperature)

/-- `src/physics/single_chain/ufjc/lennard_jones/thermodynamics/isotensional/legendre/py.rs` lines 79-82. -/
def LENNARDJONESFJC.helmholtz_free_energy_per_link (self : Polymers.Python.ufjc.lennard_jones.thermodynamics.isotensional.legendre.LENNARDJONESFJC α) (force : NdArray α) (temperature : α) : NdArray α :=
  NdArray.mapv force (fun (force : α) => Polymers.ufjc.lennard_jones.thermodynamics.isotensional.legendre.helmholtz_free_energy_per_link self.link_length self.hinge_mass self.link_stiffness force temperature)

/-- `src/physics/single_chain/ufjc/lennard_jones/thermodynamics/isotensional/legendre/py.rs` lines 92-95. -/
def LENNARDJONESFJC.relative_helmholtz_free_energy (self : Polymers.Python.ufjc.lennard_jones.thermodynamics.isotensional.legendre.LENNARDJONESFJC α) (force : NdArray α) (temperature : α) : NdArray α :=
  NdArray.mapv force (fun (force : α) => Polymers.ufjc.lennard_jones.thermodynamics.isotensional.legendre.relative_helmholtz_free_energy self.number_of_links self.link_length self.link_stiffness force temperature)

/-- `src/physics/single_chain/ufjc/lennard_jones/thermodynamics/isotensional/legendre/py.rs` lines 105-108. -/
def LENNARDJONESFJC.relative_helmholtz_free_energy_per_link (self : Polymers.Python.ufjc.lennard_jones.thermodynamics.isotensional.legendre.LENNARDJONESFJC α) (force : NdArray α) (temperature : α) : NdArray α :=
  NdArray.mapv force (fun (force : α) => Polymers.ufjc.lennard_jones.thermodynamics.isotensional.legendre.relative_helmholtz_free_energy_per_link self.link_length self.link_stiffness force temperature)

/-- `src/physics/single_chain/ufjc/lennard_jones/thermodynamics/isotensional/legendre/py.rs` lines 118-121. -/
def LENNARDJONESFJC.nondimensional_helmholtz_free_energy (self : Polymers.Python.ufjc.lennard_jones.thermodynamics.isotensional.legendre.LENNARDJONESFJC α) (nondimensional_force : NdArray α) (temperature : α) : NdArray α :=
  NdArray.mapv nondimensional_force (fun (nondimensional_force : α) => Polymers.ufjc.lennard_jones.thermodynamics.isotensional.legendre.nondimensional_helmholtz_free_energy self.number_of_links self.link_length self.hinge_mass (self.link_stiffness * Elem.powi self.link_length 2 / (Polymers.BOLTZMANN_CONSTANT : α) / temperature) nondimensional_force temperature)

/-- `src/physics/single_chain/ufjc/lennard_jones/thermodynamics/isotensional/legendre/py.rs` lines 131-134. -/
def LENNARDJONESFJC.nondimensional_helmholtz_free_energy_per_link (self : Polymers.Python.ufjc.lennard_jones.thermodynamics.isotensional.legendre.LENNARDJONESFJC α) (nondimensional_force : NdArray α) (temperature : α) : NdArray α :=
  NdArray.mapv nondimensional_force (fun (nondimensional_force : α) => Polymers.ufjc.lennard_jones.thermodynamics.isotensional.legendre.nondimensional_helmholtz_free_energy_per_link self.link_length self.hinge_mass (self.link_stiffness * Elem.powi self.link_length 2 / (Polymers.BOLTZMANN_CONSTANT : α) / temperature) nondimensional_force temperature)

/-- `src/physics/single_chain/ufjc/lennard_jones/thermodynamics/isotensional/legendre/py.rs` lines 144-147. -/
def LENNARDJONESFJC.nondimensional_relative_helmholtz_free_energy (self : Polymers.Python.ufjc.lennard_jones.thermodynamics.isotensional.legendre.LENNARDJONESFJC α) (nondimensional_force : NdArray α) (temperature : α) : NdArray α :=
  NdArray.mapv nondimensional_force (fun (nondimensional_force : α) => Polymers.ufjc.lennard_jones.thermodynamics.isotensional.legendre.nondimensional_relative_helmholtz_free_energy self.number_of_links (self.link_stiffness * Elem.powi self.link_length 2 / (Polymers.BOLTZMANN_CONSTANT : α) / temperature) nondimensional_force)

/-- `src/physics/single_chain/ufjc/lennard_jones/thermodynamics/isotensional/legendre/py.rs` lines 157-160. -/
def LENNARDJONESFJC.nondimensional_relative_helmholtz_free_energy_per_link (self : Polymers.Python.ufjc.lennard_jones.thermodynamics.isotensional.legendre.LENNARDJONESFJC α) (nondimensional_force : NdArray α) (temperature : α) : NdArray α :=
  NdArray.mapv nondimensional_force (fun (nondimensional_force : α) => Polymers.ufjc.lennard_jones.thermodynamics.isotensional.legendre.nondimensional_relative_helmholtz_free_energy_per_link (self.link_stiffness * Elem.powi self.link_length 2 / (Polymers.BOLTZMANN_CONSTANT : α) / temperature) nondimensional_force)

end Polymers.Python.ufjc.lennard_jones.thermodynamics.isotensional.legendre

namespace Polymers.Python.ufjc.lennard_jones.thermodynamics.isometric

/-- `src/physics/single_chain/ufjc/lennard_jones/thermodynamics/isometric/py.rs` lines 15-36: struct `LENNARDJONESFJC`. -/
structure LENNARDJONESFJC (α : Type) where
  /-- field `hinge_mass` -/
  hinge_mass : α
  /-- field `link_length` -/
  link_length : α
  /-- field `number_of_links` -/
  number_of_links : Nat
  /-- field `link_stiffness` -/
  link_stiffness : α
  /-- field `asymptotic` -/
  asymptotic : Polymers.Python.ufjc.lennard_jones.thermodynamics.isometric.asymptotic.LENNARDJONESFJC α

/-- `src/physics/single_chain/ufjc/lennard_jones/thermodynamics/isometric/py.rs` lines 42-52. -/
def LENNARDJONESFJC.init (number_of_links : Nat) (link_length : α) (hinge_mass : α) (link_stiffness : α) : Polymers.Python.ufjc.lennard_jones.thermodynamics.isometric.LENNARDJONESFJC α :=
  { hinge_mass := hinge_mass, link_length := link_length, number_of_links := number_of_links, link_stiffness := link_stiffness, asymptotic := Polymers.Python.ufjc.lennard_jones.thermodynamics.isometric.asymptotic.LENNARDJONESFJC.init number_of_links link_length hinge_mass link_stiffness }

end Polymers.Python.ufjc.lennard_jones.thermodynamics.isometric

namespace Polymers.Python.ufjc.lennard_jones.thermodynamics.isotensional

/-- `src/physics/single_chain/ufjc/lennard_jones/thermodynamics/isotensional/py.rs` lines 23-48: struct `LENNARDJONESFJC`. -/
structure LENNARDJONESFJC (α : Type) where
  /-- field `hinge_mass` -/
  hinge_mass : α
  /-- field `link_length` -/
  link_length : α
  /-- field `number_of_links` -/
  number_of_links : Nat
  /-- field `link_stiffness` -/
  link_stiffness : α
  /-- field `asymptotic` -/
  asymptotic : Polymers.Python.ufjc.lennard_jones.thermodynamics.isotensional.asymptotic.LENNARDJONESFJC α
  /-- field `legendre` -/
  legendre : Polymers.Python.ufjc.lennard_jones.thermodynamics.isotensional.legendre.LENNARDJONESFJC α

/-- `src/physics/single_chain/ufjc/lennard_jones/thermodynamics/isotensional/py.rs` lines 54-65. -/
def LENNARDJONESFJC.init (number_of_links : Nat) (link_length : α) (hinge_mass : α) (link_stiffness : α) : Polymers.Python.ufjc.lennard_jones.thermodynamics.isotensional.LENNARDJONESFJC α :=
  { hinge_mass := hinge_mass, link_length := link_length, number_of_links := number_of_links, link_stiffness := link_stiffness, asymptotic := Polymers.Python.ufjc.lennard_jones.thermodynamics.isotensional.asymptotic.LENNARDJONESFJC.init number_of_links link_length hinge_mass link_stiffness, legendre := Polymers.Python.ufjc.lennard_jones.thermodynamics.isotensional.legendre.LENNARDJONESFJC.init number_of_links link_length hinge_mass link_stiffness }

/-- `src/physics/single_chain/ufjc/lennard_jones/thermodynamics/isotensional/py.rs` lines 78-81. -/
def LENNARDJONESFJC.end_to_end_length (self : Polymers.Python.ufjc.lennard_jones.thermodynamics.isotensional.LENNARDJONESFJC α) (force : NdArray α) (temperature : α) : NdArray α :=
  NdArray.mapv force (fun (force : α) => Polymers.ufjc.lennard_jones.thermodynamics.isotensional.end_to_end_length self.number_of_links self.link_length self.link_stiffness force temperature)

/-- `src/physics/single_chain/ufjc/lennard_jones/thermodynamics/isotensional/py.rs` lines 91-94. -/
def LENNARDJONESFJC.end_to_end_length_per_link (self : Polymers.Python.ufjc.lennard_jones.thermodynamics.isotensional.LENNARDJONESFJC α) (force : NdArray α) (temperature : α) : NdArray α :=
  NdArray.mapv force (fun (force : α) => Polymers.ufjc.lennard_jones.thermodynamics.isotensional.end_to_end_length_per_link self.link_length self.link_stiffness force temperature)

/-- `src/physics/single_chain/ufjc/lennard_jones/thermodynamics/isotensional/py.rs` lines 104-107. -/
def LENNARDJONESFJC.nondimensional_end_to_end_length (self : Polymers.Python.ufjc.lennard_jones.thermodynamics.isotensional.LENNARDJONESFJC α) (nondimensional_force : NdArray α) (temperature : α) : NdArray α :=
  NdArray.mapv nondimensional_force (fun (nondimensional_force : α) => Polymers.ufjc.lennard_jones.thermodynamics.isotensional.nondimensional_end_to_end_length self.number_of_links (self.link_stiffness * Elem.powi self.link_length 2 / (Polymers.BOLTZMANN_CONSTANT : α) / temperature) nondimensional_force)

/-- `src/physics/single_chain/ufjc/lennard_jones/thermodynamics/isotensional/py.rs` lines 120-123. -/
def LENNARDJONESFJC.nondimensional_end_to_end_length_per_link (self : Polymers.Python.ufjc.lennard_jones.thermodynamics.isotensional.LENNARDJONESFJC α) (nondimensional_force : NdArray α) (temperature : α) : NdArray α :=
  NdArray.mapv nondimensional_force (fun (nondimensional_force : α) => Polymers.ufjc.lennard_jones.thermodynamics.isotensional.nondimensional_end_to_end_length_per_link (self.link_stiffness * Elem.powi self.link_length 2 / (Polymers.BOLTZMANN_CONSTANT : α) / temperature) nondimensional_force)

/-- `src/physics/single_chain/ufjc/lennard_jones/thermodynamics/isotensional/py.rs` lines 136-139. -/
def LENNARDJONESFJC.gibbs_free_energy (self : Polymers.Python.ufjc.lennard_jones.thermodynamics.isotensional.LENNARDJONESFJC α) (force : NdArray α) (temperature : α) : NdArray α :=
  NdArray.mapv force (fun (force : α) => Polymers.ufjc.lennard_jones.thermodynamics.isotensional.gibbs_free_energy self.number_of_links self.link_length self.hinge_mass self.link_stiffness force temperature)

/-- `src/physics/single_chain/ufjc/lennard_jones/thermodynamics/isotensional/py.rs` lines 149-152. -/
def LENNARDJONESFJC.gibbs_free_energy_per_link (self : Polymers.Python.ufjc.lennard_jones.thermodynamics.isotensional.LENNARDJONESFJC α) (force : NdArray α) (temperature : α) : NdArray α :=
  NdArray.mapv force (fun (force : α) => Polymers.ufjc.lennard_jones.thermodynamics.isotensional.gibbs_free_energy_per_link self.link_length self.hinge_mass self.link_stiffness force temperature)

/-- `src/physics/single_chain/ufjc/lennard_jones/thermodynamics/isotensional/py.rs` lines 162-165. -/
def LENNARDJONESFJC.relative_gibbs_free_energy (self : Polymers.Python.ufjc.lennard_jones.thermodynamics.isotensional.LENNARDJONESFJC α) (force : NdArray α) (temperature : α) : NdArray α :=
  NdArray.mapv force (fun (force : α) => Polymers.ufjc.lennard_jones.thermodynamics.isotensional.relative_gibbs_free_energy self.number_of_links self.link_length self.link_stiffness force temperature)

/-- `src/physics/single_chain/ufjc/lennard_jones/thermodynamics/isotensional/py.rs` lines 175-178. -/
def LENNARDJONESFJC.relative_gibbs_free_energy_per_link (self : Polymers.Python.ufjc.lennard_jones.thermodynamics.isotensional.LENNARDJONESFJC α) (force : NdArray α) (temperature : α) : NdArray α :=
  NdArray.mapv force (fun (force : α) => Polymers.ufjc.lennard_jones.thermodynamics.isotensional.relative_gibbs_free_energy_per_link self.link_length self.link_stiffness force temperature)

/-- `src/physics/single_chain/ufjc/lennard_jones/thermodynamics/isotensional/py.rs` lines 188-191. -/
def LENNARDJONESFJC.nondimensional_gibbs_free_energy (self : Polymers.Python.ufjc.lennard_jones.thermodynamics.isotensional.LENNARDJONESFJC α) (nondimensional_force : NdArray α) (temperature : α) : NdArray α :=
  NdArray.mapv nondimensional_force (fun (nondimensional_force : α) => Polymers.ufjc.lennard_jones.thermodynamics.isotensional.nondimensional_gibbs_free_energy self.number_of_links self.link_length self.hinge_mass (self.link_stiffness * Elem.powi self.link_length 2 / (Polymers.BOLTZMANN_CONSTANT : α) / temperature) nondimensional_force temperature)

/-- `src/physics/single_chain/ufjc/lennard_jones/thermodynamics/isotensional/py.rs` lines 201-204. -/
def LENNARDJONESFJC.nondimensional_gibbs_free_energy_per_link (self : Polymers.Python.ufjc.lennard_jones.thermodynamics.isotensional.LENNARDJONESFJC α) (nondimensional_force : NdArray α) (temperature : α) : NdArray α :=
  NdArray.mapv nondimensional_force (fun (nondimensional_force : α) => Polymers.ufjc.lennard_jones.thermodynamics.isotensional.nondimensional_gibbs_free_energy_per_link self.link_length self.hinge_mass (self.link_stiffness * Elem.powi self.link_length 2 / (Polymers.BOLTZMANN_CONSTANT : α) / temperature) nondimensional_force temperature)

/-- `src/physics/single_chain/ufjc/lennard_jones/thermodynamics/isotensional/py.rs` lines 214-217. -/
def LENNARDJONESFJC.nondimensional_relative_gibbs_free_energy (self : Polymers.Python.ufjc.lennard_jones.thermodynamics.isotensional.LENNARDJONESFJC α) (nondimensional_force : NdArray α) (temperature : α) : NdArray α :=
  NdArray.mapv nondimensional_force (fun (nondimensional_force : α) => Polymers.ufjc.lennard_jones.thermodynamics.isotensional.nondimensional_relative_gibbs_free_energy self.number_of_links (self.link_stiffness * Elem.powi self.link_length 2 / (Polymers.BOLTZMANN_CONSTANT : α) / temperature) nondimensional_force)

/-- `src/physics/single_chain/ufjc/lennard_jones/thermodynamics/isotensional/py.rs` lines 240-243. -/
def LENNARDJONESFJC.nondimensional_relative_gibbs_free_energy_per_link (self : Polymers.Python.ufjc.lennard_jones.thermodynamics.isotensional.LENNARDJONESFJC α) (nondimensional_force : NdArray α) (temperature : α) : NdArray α :=
  NdArray.mapv nondimensional_force (fun (nondimensional_force : α) => Polymers.ufjc.lennard_jones.thermodynamics.isotensional.nondimensional_relative_gibbs_free_energy_per_link (self.link_stiffness * Elem.powi self.link_length 2 / (Polymers.BOLTZMANN_CONSTANT : α) / temperature) nondimensional_force)

end Polymers.Python.ufjc.lennard_jones.thermodynamics.isotensional

namespace Polymers.Python.ufjc.lennard_jones.thermodynamics

/-- `src/physics/single_chain/ufjc/lennard_jones/thermodynamics/py.rs` lines 16-41: struct `LENNARDJONESFJC`. -/
structure LENNARDJONESFJC (α : Type) where
  /-- field `hinge_mass` -/
  hinge_mass : α
  /-- field `link_length` -/
  link_length : α
  /-- field `number_of_links` -/
  number_of_links : Nat
  /-- field `link_stiffness` -/
  link_stiffness : α
  /-- field `isometric` -/
  isometric : Polymers.Python.ufjc.lennard_jones.thermodynamics.isometric.LENNARDJONESFJC α
  /-- field `isotensional` -/
  isotensional : Polymers.Python.ufjc.lennard_jones.thermodynamics.isotensional.LENNARDJONESFJC α

/-- `src/physics/single_chain/ufjc/lennard_jones/thermodynamics/py.rs` lines 47-58. -/
def LENNARDJONESFJC.init (number_of_links : Nat) (link_length : α) (hinge_mass : α) (link_stiffness : α) : Polymers.Python.ufjc.lennard_jones.thermodynamics.LENNARDJONESFJC α :=
  { hinge_mass := hinge_mass, link_length := link_length, number_of_links := number_of_links, link_stiffness := link_stiffness, isometric := Polymers.Python.ufjc.lennard_jones.thermodynamics.isometric.LENNARDJONESFJC.init number_of_links link_length hinge_mass link_stiffness, isotensional := Polymers.Python.ufjc.lennard_jones.thermodynamics.isotensional.LENNARDJONESFJC.init number_of_links link_length hinge_mass link_stiffness }

end Polymers.Python.ufjc.lennard_jones.thermodynamics

namespace Polymers.Python.ufjc.lennard_jones

/-- `src/physics/single_chain/ufjc/lennard_jones/py.rs` lines 14-35: struct `LENNARDJONESFJC`. -/
structure LENNARDJONESFJC (α : Type) where
  /-- field `hinge_mass` -/
  hinge_mass : α
  /-- field `link_length` -/
  link_length : α
  /-- field `number_of_links` -/
  number_of_links : Nat
  /-- field `link_stiffness` -/
  link_stiffness : α
  /-- field `thermodynamics` -/
  thermodynamics : Polymers.Python.ufjc.lennard_jones.thermodynamics.LENNARDJONESFJC α

/-- `src/physics/single_chain/ufjc/lennard_jones/py.rs` lines 41-51. -/
def LENNARDJONESFJC.init (number_of_links : Nat) (link_length : α) (hinge_mass : α) (link_stiffness : α) : Polymers.Python.ufjc.lennard_jones.LENNARDJONESFJC α :=
  { hinge_mass := hinge_mass, link_length := link_length, number_of_links := number_of_links, link_stiffness := link_stiffness, thermodynamics := Polymers.Python.ufjc.lennard_jones.thermodynamics.LENNARDJONESFJC.init number_of_links link_length hinge_mass link_stiffness }

end Polymers.Python.ufjc.lennard_jones
