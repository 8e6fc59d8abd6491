/- Generated by tools/py2lean.py from the py.rs files of /repo/src/physics/single_chain/efjc ; do not edit by hand. -/
import Verif.Model.Efjc
import Verif.Model.PythonBase

set_option linter.unusedVariables false

open Polymers

variable {α : Type} [Add α] [Sub α] [Mul α] [Div α] [Neg α] [OfScientific α] [NatCast α] [Elem α]

namespace Polymers.Python.efjc.thermodynamics.isometric.asymptotic.alternative.legendre

/-- `src/physics/single_chain/efjc/thermodynamics/isometric/asymptotic/alternative/legendre/py.rs` lines 21-38: struct `EFJC`. -/
structure EFJC (α : Type) where
  /-- field `hinge_mass` -/
  hinge_mass : α
  /-- field `link_length` -/
  link_length : α
  /-- field `number_of_links` -/
  number_of_links : Nat
  /-- field `link_stiffness` -/
  link_stiffness : α

/-- `src/physics/single_chain/efjc/thermodynamics/isometric/asymptotic/alternative/legendre/py.rs` lines 44-53. -/
def EFJC.init (number_of_links : Nat) (link_length : α) (hinge_mass : α) (link_stiffness : α) : Polymers.Python.efjc.thermodynamics.isometric.asymptotic.alternative.legendre.EFJC α :=
  { hinge_mass := hinge_mass, link_length := link_length, number_of_links := number_of_links, link_stiffness := link_stiffness }

/-- `src/physics/single_chain/efjc/thermodynamics/isometric/asymptotic/alternative/legendre/py.rs` lines 63-66. -/
def EFJC.force (self : Polymers.Python.efjc.thermodynamics.isometric.asymptotic.alternative.legendre.EFJC α) (end_to_end_length : NdArray α) (temperature : α) : NdArray α :=
  NdArray.mapv end_to_end_length (fun (end_to_end_length : α) => Polymers.efjc.thermodynamics.isometric.asymptotic.alternative.legendre.force self.number_of_links self.link_length self.link_stiffness end_to_end_length temperature)

/-- `src/physics/single_chain/efjc/thermodynamics/isometric/asymptotic/alternative/legendre/py.rs` lines 75-78. -/
def EFJC.nondimensional_force (self : Polymers.Python.efjc.thermodynamics.isometric.asymptotic.alternative.legendre.EFJC α) (nondimensional_end_to_end_length_per_link : NdArray α) (temperature : α) : NdArray α :=
  NdArray.mapv nondimensional_end_to_end_length_per_link (fun (nondimensional_end_to_end_length_per_link : α) => Polymers.efjc.thermodynamics.isometric.asymptotic.alternative.legendre.nondimensional_force (self.link_stiffness * Elem.powi self.link_length 2 / (Polymers.BOLTZMANN_CONSTANT : α) / temperature) nondimensional_end_to_end_length_per_link)

/-- `src/physics/single_chain/efjc/thermodynamics/isometric/asymptotic/alternative/legendre/py.rs` lines 93-96. -/
def EFJC.helmholtz_free_energy (self : Polymers.Python.efjc.thermodynamics.isometric.asymptotic.alternative.legendre.EFJC α) (end_to_end_length : NdArray α) (temperature : α) : NdArray α :=
  NdArray.mapv end_to_end_length (fun (end_to_end_length : α) => Polymers.efjc.thermodynamics.isometric.asymptotic.alternative.legendre.helmholtz_free_energy self.number_of_links self.link_length self.hinge_mass self.link_stiffness end_to_end_length temperature)

/-- `src/physics/single_chain/efjc/thermodynamics/isometric/asymptotic/alternative/legendre/py.rs` lines 106-109. -/
def EFJC.helmholtz_free_energy_per_link (self : Polymers.Python.efjc.thermodynamics.isometric.asymptotic.alternative.legendre.EFJC α) (end_to_end_length : NdArray α) (temperature : α) : NdArray α :=
  NdArray.mapv end_to_end_length (fun (end_to_end_length : α) => Polymers.efjc.thermodynamics.isometric.asymptotic.alternative.legendre.helmholtz_free_energy_per_link self.number_of_links self.link_length self.hinge_mass self.link_stiffness end_to_end_length temperature)

/-- `src/physics/single_chain/efjc/thermodynamics/isometric/asymptotic/alternative/legendre/py.rs` lines 119-122. -/
def EFJC.relative_helmholtz_free_energy (self : Polymers.Python.efjc.thermodynamics.isometric.asymptotic.alternative.legendre.EFJC α) (end_to_end_length : NdArray α) (temperature : α) : NdArray α :=
  NdArray.mapv end_to_end_length (fun (end_to_end_length : α) => Polymers.efjc.thermodynamics.isometric.asymptotic.alternative.legendre.relative_helmholtz_free_energy self.number_of_links self.link_length self.link_stiffness end_to_end_length temperature)

/-- `src/physics/single_chain/efjc/thermodynamics/isometric/asymptotic/alternative/legendre/py.rs` lines 132-135. -/
def EFJC.relative_helmholtz_free_energy_per_link (self : Polymers.Python.efjc.thermodynamics.isometric.asymptotic.alternative.legendre.EFJC α) (end_to_end_length : NdArray α) (temperature : α) : NdArray α :=
  NdArray.mapv end_to_end_length (fun (end_to_end_length : α) => Polymers.efjc.thermodynamics.isometric.asymptotic.alternative.legendre.relative_helmholtz_free_energy_per_link self.number_of_links self.link_length self.link_stiffness end_to_end_length temperature)

/-- `src/physics/single_chain/efjc/thermodynamics/isometric/asymptotic/alternative/legendre/py.rs` lines 145-148. -/
def EFJC.nondimensional_helmholtz_free_energy (self : Polymers.Python.efjc.thermodynamics.isometric.asymptotic.alternative.legendre.EFJC α) (nondimensional_end_to_end_length_per_link : NdArray α) (temperature : α) : NdArray α :=
  NdArray.mapv nondimensional_end_to_end_length_per_link (fun (nondimensional_end_to_end_length_per_link : α) => Polymers.efjc.thermodynamics.isometric.asymptotic.alternative.legendre.nondimensional_helmholtz_free_energy self.number_of_links self.link_length self.hinge_mass (self.link_stiffness * Elem.powi self.link_length 2 / (Polymers.BOLTZMANN_CONSTANT : α) / temperature) nondimensional_end_to_end_length_per_link temperature)

/-- `src/physics/single_chain/efjc/thermodynamics/isometric/asymptotic/alternative/legendre/py.rs` lines 158-161. -/
def EFJC.nondimensional_helmholtz_free_energy_per_link (self : Polymers.Python.efjc.thermodynamics.isometric.asymptotic.alternative.legendre.EFJC α) (nondimensional_end_to_end_length_per_link : NdArray α) (temperature : α) : NdArray α :=
  NdArray.mapv nondimensional_end_to_end_length_per_link (fun (nondimensional_end_to_end_length_per_link : α) => Polymers.efjc.thermodynamics.isometric.asymptotic.alternative.legendre.nondimensional_helmholtz_free_energy_per_link self.number_of_links self.link_length self.hinge_mass (self.link_stiffness * Elem.powi self.link_length 2 / (Polymers.BOLTZMANN_CONSTANT : α) / temperature) nondimensional_end_to_end_length_per_link temperature)

/-- `src/physics/single_chain/efjc/thermodynamics/isometric/asymptotic/alternative/legendre/py.rs` lines 170-173. -/
def EFJC.nondimensional_relative_helmholtz_free_energy (self : Polymers.Python.efjc.thermodynamics.isometric.asymptotic.alternative.legendre.EFJC α) (nondimensional_end_to_end_length_per_link : NdArray α) (temperature : α) : NdArray α :=
  NdArray.mapv nondimensional_end_to_end_length_per_link (fun (nondimensional_end_to_end_length_per_link : α) => Polymers.efjc.thermodynamics.isometric.asymptotic.alternative.legendre.nondimensional_relative_helmholtz_free_energy self.number_of_links (self.link_stiffness * Elem.powi self.link_length 2 / (Polymers.BOLTZMANN_CONSTANT : α) / temperature) nondimensional_end_to_end_length_per_link)

/-- `src/physics/single_chain/efjc/thermodynamics/isometric/asymptotic/alternative/legendre/py.rs` lines 182-185. -/
def EFJC.nondimensional_relative_helmholtz_free_energy_per_link (self : Polymers.Python.efjc.thermodynamics.isometric.asymptotic.alternative.legendre.EFJC α) (nondimensional_end_to_end_length_per_link : NdArray α) (temperature : α) : NdArray α :=
  NdArray.mapv nondimensional_end_to_end_length_per_link (fun (nondimensional_end_to_end_length_per_link : α) => Polymers.efjc.thermodynamics.isometric.asymptotic.alternative.legendre.nondimensional_relative_helmholtz_free_energy_per_link (self.link_stiffness * Elem.powi self.link_length 2 / (Polymers.BOLTZMANN_CONSTANT : α) / temperature) nondimensional_end_to_end_length_per_link)

end Polymers.Python.efjc.thermodynamics.isometric.asymptotic.alternative.legendre

namespace Polymers.Python.efjc.thermodynamics.isometric.asymptotic.reduced.legendre

/-- `src/physics/single_chain/efjc/thermodynamics/isometric/asymptotic/reduced/legendre/py.rs` lines 21-38: struct `EFJC`. -/
structure EFJC (α : Type) where
  /-- field `hinge_mass` -/
  hinge_mass : α
  /-- field `link_length` -/
  link_length : α
  /-- field `number_of_links` -/
  number_of_links : Nat
  /-- field `link_stiffness` -/
  link_stiffness : α

/-- `src/physics/single_chain/efjc/thermodynamics/isometric/asymptotic/reduced/legendre/py.rs` lines 44-53. -/
def EFJC.init (number_of_links : Nat) (link_length : α) (hinge_mass : α) (link_stiffness : α) : Polymers.Python.efjc.thermodynamics.isometric.asymptotic.reduced.legendre.EFJC α :=
  { hinge_mass := hinge_mass, link_length := link_length, number_of_links := number_of_links, link_stiffness := link_stiffness }

/-- `src/physics/single_chain/efjc/thermodynamics/isometric/asymptotic/reduced/legendre/py.rs` lines 63-66. -/
def EFJC.force (self : Polymers.Python.efjc.thermodynamics.isometric.asymptotic.reduced.legendre.EFJC α) (end_to_end_length : NdArray α) (temperature : α) : NdArray α :=
  NdArray.mapv end_to_end_length (fun (end_to_end_length : α) => Polymers.efjc.thermodynamics.isometric.asymptotic.reduced.legendre.force self.number_of_links self.link_length self.link_stiffness end_to_end_length temperature)

/-- `src/physics/single_chain/efjc/thermodynamics/isometric/asymptotic/reduced/legendre/py.rs` lines 75-78. -/
def EFJC.nondimensional_force (self : Polymers.Python.efjc.thermodynamics.isometric.asymptotic.reduced.legendre.EFJC α) (nondimensional_end_to_end_length_per_link : NdArray α) (temperature : α) : NdArray α :=
  NdArray.mapv nondimensional_end_to_end_length_per_link (fun (nondimensional_end_to_end_length_per_link : α) => Polymers.efjc.thermodynamics.isometric.asymptotic.reduced.legendre.nondimensional_force (self.link_stiffness * Elem.powi self.link_length 2 / (Polymers.BOLTZMANN_CONSTANT : α) / temperature) nondimensional_end_to_end_length_per_link)

/-- `src/physics/single_chain/efjc/thermodynamics/isometric/asymptotic/reduced/legendre/py.rs` lines 93-96. -/
def EFJC.helmholtz_free_energy (self : Polymers.Python.efjc.thermodynamics.isometric.asymptotic.reduced.legendre.EFJC α) (end_to_end_length : NdArray α) (temperature : α) : NdArray α :=
  NdArray.mapv end_to_end_length (fun (end_to_end_length : α) => Polymers.efjc.thermodynamics.isometric.asymptotic.reduced.legendre.helmholtz_free_energy self.number_of_links self.link_length self.hinge_mass self.link_stiffness end_to_end_length temperature)

/-- `src/physics/single_chain/efjc/thermodynamics/isometric/asymptotic/reduced/legendre/py.rs` lines 106-109. -/
def EFJC.helmholtz_free_energy_per_link (self : Polymers.Python.efjc.thermodynamics.isometric.asymptotic.reduced.legendre.EFJC α) (end_to_end_length : NdArray α) (temperature : α) : NdArray α :=
  NdArray.mapv end_to_end_length (fun (end_to_end_length : α) => Polymers.efjc.thermodynamics.isometric.asymptotic.reduced.legendre.helmholtz_free_energy_per_link self.number_of_links self.link_length self.hinge_mass self.link_stiffness end_to_end_length temperature)

/-- `src/physics/single_chain/efjc/thermodynamics/isometric/asymptotic/reduced/legendre/py.rs` lines 119-122. -/
def EFJC.relative_helmholtz_free_energy (self : Polymers.Python.efjc.thermodynamics.isometric.asymptotic.reduced.legendre.EFJC α) (end_to_end_length : NdArray α) (temperature : α) : NdArray α :=
  NdArray.mapv end_to_end_length (fun (end_to_end_length : α) => Polymers.efjc.thermodynamics.isometric.asymptotic.reduced.legendre.relative_helmholtz_free_energy self.number_of_links self.link_length self.link_stiffness end_to_end_length temperature)

/-- `src/physics/single_chain/efjc/thermodynamics/isometric/asymptotic/reduced/legendre/py.rs` lines 132-135. -/
def EFJC.relative_helmholtz_free_energy_per_link (self : Polymers.Python.efjc.thermodynamics.isometric.asymptotic.reduced.legendre.EFJC α) (end_to_end_length : NdArray α) (temperature : α) : NdArray α :=
  NdArray.mapv end_to_end_length (fun (end_to_end_length : α) => Polymers.efjc.thermodynamics.isometric.asymptotic.reduced.legendre.relative_helmholtz_free_energy_per_link self.number_of_links self.link_length self.link_stiffness end_to_end_length temperature)

/-- `src/physics/single_chain/efjc/thermodynamics/isometric/asymptotic/reduced/legendre/py.rs` lines 145-148. -/
def EFJC.nondimensional_helmholtz_free_energy (self : Polymers.Python.efjc.thermodynamics.isometric.asymptotic.reduced.legendre.EFJC α) (nondimensional_end_to_end_length_per_link : NdArray α) (temperature : α) : NdArray α :=
  NdArray.mapv nondimensional_end_to_end_length_per_link (fun (nondimensional_end_to_end_length_per_link : α) => Polymers.efjc.thermodynamics.isometric.asymptotic.reduced.legendre.nondimensional_helmholtz_free_energy self.number_of_links self.link_length self.hinge_mass (self.link_stiffness * Elem.powi self.link_length 2 / (Polymers.BOLTZMANN_CONSTANT : α) / temperature) nondimensional_end_to_end_length_per_link temperature)

/-- `src/physics/single_chain/efjc/thermodynamics/isometric/asymptotic/reduced/legendre/py.rs` lines 158-161. -/
def EFJC.nondimensional_helmholtz_free_energy_per_link (self : Polymers.Python.efjc.thermodynamics.isometric.asymptotic.reduced.legendre.EFJC α) (nondimensional_end_to_end_length_per_link : NdArray α) (temperature : α) : NdArray α :=
  NdArray.mapv nondimensional_end_to_end_length_per_link (fun (nondimensional_end_to_end_length_per_link : α) => Polymers.efjc.thermodynamics.isometric.asymptotic.reduced.legendre.nondimensional_helmholtz_free_energy_per_link self.number_of_links self.link_length self.hinge_mass (self.link_stiffness * Elem.powi self.link_length 2 / (Polymers.BOLTZMANN_CONSTANT : α) / temperature) nondimensional_end_to_end_length_per_link temperature)

/-- `src/physics/single_chain/efjc/thermodynamics/isometric/asymptotic/reduced/legendre/py.rs` lines 170-173. -/
def EFJC.nondimensional_relative_helmholtz_free_energy (self : Polymers.Python.efjc.thermodynamics.isometric.asymptotic.reduced.legendre.EFJC α) (nondimensional_end_to_end_length_per_link : NdArray α) (temperature : α) : NdArray α :=
  NdArray.mapv nondimensional_end_to_end_length_per_link (fun (nondimensional_end_to_end_length_per_link : α) => Polymers.efjc.thermodynamics.isometric.asymptotic.reduced.legendre.nondimensional_relative_helmholtz_free_energy self.number_of_links (self.link_stiffness * Elem.powi self.link_length 2 / (Polymers.BOLTZMANN_CONSTANT : α) / temperature) nondimensional_end_to_end_length_per_link)

/-- `src/physics/single_chain/efjc/thermodynamics/isometric/asymptotic/reduced/legendre/py.rs` lines 182-185. -/
def EFJC.nondimensional_relative_helmholtz_free_energy_per_link (self : Polymers.Python.efjc.thermodynamics.isometric.asymptotic.reduced.legendre.EFJC α) (nondimensional_end_to_end_length_per_link : NdArray α) (temperature : α) : NdArray α :=
  NdArray.mapv nondimensional_end_to_end_length_per_link (fun (nondimensional_end_to_end_length_per_link : α) => Polymers.efjc.thermodynamics.isometric.asymptotic.reduced.legendre.nondimensional_relative_helmholtz_free_energy_per_link (self.link_stiffness * Elem.powi self.link_length 2 / (Polymers.BOLTZMANN_CONSTANT : α) / temperature) nondimensional_end_to_end_length_per_link)

end Polymers.Python.efjc.thermodynamics.isometric.asymptotic.reduced.legendre

namespace Polymers.Python.efjc.thermodynamics.isotensional.asymptotic.alternative.legendre

/-- `src/physics/single_chain/efjc/thermodynamics/isotensional/asymptotic/alternative/legendre/py.rs` lines 21-38: struct `EFJC`. -/
structure EFJC (α : Type) where
  /-- field `hinge_mass` -/
  hinge_mass : α
  /-- field `link_length` -/
  link_length : α
  /-- field `number_of_links` -/
  number_of_links : Nat
  /-- field `link_stiffness` -/
  link_stiffness : α

/-- `src/physics/single_chain/efjc/thermodynamics/isotensional/asymptotic/alternative/legendre/py.rs` lines 44-53. -/
def EFJC.init (number_of_links : Nat) (link_length : α) (hinge_mass : α) (link_stiffness : α) : Polymers.Python.efjc.thermodynamics.isotensional.asymptotic.alternative.legendre.EFJC α :=
  { hinge_mass := hinge_mass, link_length := link_length, number_of_links := number_of_links, link_stiffness := link_stiffness }

/-- `src/physics/single_chain/efjc/thermodynamics/isotensional/asymptotic/alternative/legendre/py.rs` lines 66-69. -/
def EFJC.helmholtz_free_energy (self : Polymers.Python.efjc.thermodynamics.isotensional.asymptotic.alternative.legendre.EFJC α) (force : NdArray α) (temperature : α) : NdArray α :=
  NdArray.mapv force (fun (force : α) => Polymers.efjc.thermodynamics.isotensional.asymptotic.alternative.legendre.helmholtz_free_energy self.number_of_links self.link_length self.hinge_mass self.link_stiffness force temperature)

/-- `src/physics/single_chain/efjc/thermodynamics/isotensional/asymptotic/alternative/legendre/py.rs` lines 79-82. -/
def EFJC.helmholtz_free_energy_per_link (self : Polymers.Python.efjc.thermodynamics.isotensional.asymptotic.alternative.legendre.EFJC α) (force : NdArray α) (temperature : α) : NdArray α :=
  NdArray.mapv force (fun (force : α) => Polymers.efjc.thermodynamics.isotensional.asymptotic.alternative.legendre.helmholtz_free_energy_per_link self.link_length self.hinge_mass self.link_stiffness force temperature)

/-- `src/physics/single_chain/efjc/thermodynamics/isotensional/asymptotic/alternative/legendre/py.rs` lines 92-95. -/
def EFJC.relative_helmholtz_free_energy (self : Polymers.Python.efjc.thermodynamics.isotensional.asymptotic.alternative.legendre.EFJC α) (force : NdArray α) (temperature : α) : NdArray α :=
  NdArray.mapv force (fun (force : α) => Polymers.efjc.thermodynamics.isotensional.asymptotic.alternative.legendre.relative_helmholtz_free_energy self.number_of_links self.link_length self.link_stiffness force temperature)

/-- `src/physics/single_chain/efjc/thermodynamics/isotensional/asymptotic/alternative/legendre/py.rs` lines 105-108. -/
def EFJC.relative_helmholtz_free_energy_per_link (self : Polymers.Python.efjc.thermodynamics.isotensional.asymptotic.alternative.legendre.EFJC α) (force : NdArray α) (temperature : α) : NdArray α :=
  NdArray.mapv force (fun (force : α) => Polymers.efjc.thermodynamics.isotensional.asymptotic.alternative.legendre.relative_helmholtz_free_energy_per_link self.link_length self.link_stiffness force temperature)

/-- `src/physics/single_chain/efjc/thermodynamics/isotensional/asymptotic/alternative/legendre/py.rs` lines 118-121. -/
def EFJC.nondimensional_helmholtz_free_energy (self : Polymers.Python.efjc.thermodynamics.isotensional.asymptotic.alternative.legendre.EFJC α) (nondimensional_force : NdArray α) (temperature : α) : NdArray α :=
  NdArray.mapv nondimensional_force (fun (nondimensional_force : α) => Polymers.efjc.thermodynamics.isotensional.asymptotic.alternative.legendre.nondimensional_helmholtz_free_energy self.number_of_links self.link_length self.hinge_mass (self.link_stiffness * Elem.powi self.link_length 2 / (Polymers.BOLTZMANN_CONSTANT : α) / temperature) nondimensional_force temperature)

/-- `src/physics/single_chain/efjc/thermodynamics/isotensional/asymptotic/alternative/legendre/py.rs` lines 131-134. -/
def EFJC.nondimensional_helmholtz_free_energy_per_link (self : Polymers.Python.efjc.thermodynamics.isotensional.asymptotic.alternative.legendre.EFJC α) (nondimensional_force : NdArray α) (temperature : α) : NdArray α :=
  NdArray.mapv nondimensional_force (fun (nondimensional_force : α) => Polymers.efjc.thermodynamics.isotensional.asymptotic.alternative.legendre.nondimensional_helmholtz_free_energy_per_link self.link_length self.hinge_mass (self.link_stiffness * Elem.powi self.link_length 2 / (Polymers.BOLTZMANN_CONSTANT : α) / temperature) nondimensional_force temperature)

/-- `src/physics/single_chain/efjc/thermodynamics/isotensional/asymptotic/alternative/legendre/py.rs` lines 144-147. -/
def EFJC.nondimensional_relative_helmholtz_free_energy (self : Polymers.Python.efjc.thermodynamics.isotensional.asymptotic.alternative.legendre.EFJC α) (nondimensional_force : NdArray α) (temperature : α) : NdArray α :=
  NdArray.mapv nondimensional_force (fun (nondimensional_force : α) => Polymers.efjc.thermodynamics.isotensional.asymptotic.alternative.legendre.nondimensional_relative_helmholtz_free_energy self.number_of_links (self.link_stiffness * Elem.powi self.link_length 2 / (Polymers.BOLTZMANN_CONSTANT : α) / temperature) nondimensional_force)

/-- `src/physics/single_chain/efjc/thermodynamics/isotensional/asymptotic/alternative/legendre/py.rs` lines 157-160. -/
def EFJC.nondimensional_relative_helmholtz_free_energy_per_link (self : Polymers.Python.efjc.thermodynamics.isotensional.asymptotic.alternative.legendre.EFJC α) (nondimensional_force : NdArray α) (temperature : α) : NdArray α :=
  NdArray.mapv nondimensional_force (fun (nondimensional_force : α) => Polymers.efjc.thermodynamics.isotensional.asymptotic.alternative.legendre.nondimensional_relative_helmholtz_free_energy_per_link (self.link_stiffness * Elem.powi self.link_length 2 / (Polymers.BOLTZMANN_CONSTANT : α) / temperature) nondimensional_force)

end Polymers.Python.efjc.thermodynamics.isotensional.asymptotic.alternative.legendre

namespace Polymers.Python.efjc.thermodynamics.isotensional.asymptotic.reduced.legendre

/-- `src/physics/single_chain/efjc/thermodynamics/isotensional/asymptotic/reduced/legendre/py.rs` lines 21-38: struct `EFJC`. -/
structure EFJC (α : Type) where
  /-- field `hinge_mass` -/
  hinge_mass : α
  /-- field `link_length` -/
  link_length : α
  /-- field `number_of_links` -/
  number_of_links : Nat
  /-- field `link_stiffness` -/
  link_stiffness : α

/-- `src/physics/single_chain/efjc/thermodynamics/isotensional/asymptotic/reduced/legendre/py.rs` lines 44-53. -/
def EFJC.init (number_of_links : Nat) (link_length : α) (hinge_mass : α) (link_stiffness : α) : Polymers.Python.efjc.thermodynamics.isotensional.asymptotic.reduced.legendre.EFJC α :=
  { hinge_mass := hinge_mass, link_length := link_length, number_of_links := number_of_links, link_stiffness := link_stiffness }

/-- `src/physics/single_chain/efjc/thermodynamics/isotensional/asymptotic/reduced/legendre/py.rs` lines 66-69. -/
def EFJC.helmholtz_free_energy (self : Polymers.Python.efjc.thermodynamics.isotensional.asymptotic.reduced.legendre.EFJC α) (force : NdArray α) (temperature : α) : NdArray α :=
  NdArray.mapv force (fun (force : α) => Polymers.efjc.thermodynamics.isotensional.asymptotic.reduced.legendre.helmholtz_free_energy self.number_of_links self.link_length self.hinge_mass self.link_stiffness force temperature)

/-- `src/physics/single_chain/efjc/thermodynamics/isotensional/asymptotic/reduced/legendre/py.rs` lines 79-82. -/
def EFJC.helmholtz_free_energy_per_link (self : Polymers.Python.efjc.thermodynamics.isotensional.asymptotic.reduced.legendre.EFJC α) (force : NdArray α) (temperature : α) : NdArray α :=
  NdArray.mapv force (fun (force : α) => Polymers.efjc.thermodynamics.isotensional.asymptotic.reduced.legendre.helmholtz_free_energy_per_link self.link_length self.hinge_mass self.link_stiffness force temperature)

/-- `src/physics/single_chain/efjc/thermodynamics/isotensional/asymptotic/reduced/legendre/py.rs` lines 92-95. -/
def EFJC.relative_helmholtz_free_energy (self : Polymers.Python.efjc.thermodynamics.isotensional.asymptotic.reduced.legendre.EFJC α) (force : NdArray α) (temperature : α) : NdArray α :=
  NdArray.mapv force (fun (force : α) => Polymers.efjc.thermodynamics.isotensional.asymptotic.reduced.legendre.relative_helmholtz_free_energy self.number_of_links self.link_length self.link_stiffness force temperature)

/-- `src/physics/single_chain/efjc/thermodynamics/isotensional/asymptotic/reduced/legendre/py.rs` lines 105-108. -/
def EFJC.relative_helmholtz_free_energy_per_link (self : Polymers.Python.efjc.thermodynamics.isotensional.asymptotic.reduced.legendre.EFJC α) (force : NdArray α) (temperature : α) : NdArray α :=
  NdArray.mapv force (fun (force : α) => Polymers.efjc.thermodynamics.isotensional.asymptotic.reduced.legendre.relative_helmholtz_free_energy_per_link self.link_length self.link_stiffness force temperature)

/-- `src/physics/single_chain/efjc/thermodynamics/isotensional/asymptotic/reduced/legendre/py.rs` lines 118-121. -/
def EFJC.nondimensional_helmholtz_free_energy (self : Polymers.Python.efjc.thermodynamics.isotensional.asymptotic.reduced.legendre.EFJC α) (nondimensional_force : NdArray α) (temperature : α) : NdArray α :=
  NdArray.mapv nondimensional_force (fun (nondimensional_force : α) => Polymers.efjc.thermodynamics.isotensional.asymptotic.reduced.legendre.nondimensional_helmholtz_free_energy self.number_of_links self.link_length self.hinge_mass (self.link_stiffness * Elem.powi self.link_length 2 / (Polymers.BOLTZMANN_CONSTANT : α) / temperature) nondimensional_force temperature)

/-- `src/physics/single_chain/efjc/thermodynamics/isotensional/asymptotic/reduced/legendre/py.rs` lines 131-134. -/
def EFJC.nondimensional_helmholtz_free_energy_per_link (self : Polymers.Python.efjc.thermodynamics.isotensional.asymptotic.reduced.legendre.EFJC α) (nondimensional_force : NdArray α) (temperature : α) : NdArray α :=
  NdArray.mapv nondimensional_force (fun (nondimensional_force : α) => Polymers.efjc.thermodynamics.isotensional.asymptotic.reduced.legendre.nondimensional_helmholtz_free_energy_per_link self.link_length self.hinge_mass (self.link_stiffness * Elem.powi self.link_length 2 / (Polymers.BOLTZMANN_CONSTANT : α) / temperature) nondimensional_force temperature)

/-- `src/physics/single_chain/efjc/thermodynamics/isotensional/asymptotic/reduced/legendre/py.rs` lines 144-147. -/
def EFJC.nondimensional_relative_helmholtz_free_energy (self : Polymers.Python.efjc.thermodynamics.isotensional.asymptotic.reduced.legendre.EFJC α) (nondimensional_force : NdArray α) (temperature : α) : NdArray α :=
  NdArray.mapv nondimensional_force (fun (nondimensional_force : α) => Polymers.efjc.thermodynamics.isotensional.asymptotic.reduced.legendre.nondimensional_relative_helmholtz_free_energy self.number_of_links (self.link_stiffness * Elem.powi self.link_length 2 / (Polymers.BOLTZMANN_CONSTANT : α) / temperature) nondimensional_force)

/-- `src/physics/single_chain/efjc/thermodynamics/isotensional/asymptotic/reduced/legendre/py.rs` lines 157-160. -/
def EFJC.nondimensional_relative_helmholtz_free_energy_per_link (self : Polymers.Python.efjc.thermodynamics.isotensional.asymptotic.reduced.legendre.EFJC α) (nondimensional_force : NdArray α) (temperature : α) : NdArray α :=
  NdArray.mapv nondimensional_force (fun (nondimensional_force : α) => Polymers.efjc.thermodynamics.isotensional.asymptotic.reduced.legendre.nondimensional_relative_helmholtz_free_energy_per_link (self.link_stiffness * Elem.powi self.link_length 2 / (Polymers.BOLTZMANN_CONSTANT : α) / temperature) nondimensional_force)

end Polymers.Python.efjc.thermodynamics.isotensional.asymptotic.reduced.legendre

namespace Polymers.Python.efjc.thermodynamics.isometric.asymptotic.alternative

/-- `src/physics/single_chain/efjc/thermodynamics/isometric/asymptotic/alternative/py.rs` lines 15-36: struct `EFJC`. -/
structure EFJC (α : Type) where
  /-- field `hinge_mass` -/
  hinge_mass : α
  /-- field `link_length` -/
  link_length : α
  /-- field `number_of_links` -/
  number_of_links : Nat
  /-- field `link_stiffness` -/
  link_stiffness : α
  /-- field `legendre` -/
  legendre : Polymers.Python.efjc.thermodynamics.isometric.asymptotic.alternative.legendre.EFJC α

/-- `src/physics/single_chain/efjc/thermodynamics/isometric/asymptotic/alternative/py.rs` lines 42-52. -/
def EFJC.init (number_of_links : Nat) (link_length : α) (hinge_mass : α) (link_stiffness : α) : Polymers.Python.efjc.thermodynamics.isometric.asymptotic.alternative.EFJC α :=
  { hinge_mass := hinge_mass, link_length := link_length, number_of_links := number_of_links, link_stiffness := link_stiffness, legendre := Polymers.Python.efjc.thermodynamics.isometric.asymptotic.alternative.legendre.EFJC.init number_of_links link_length hinge_mass link_stiffness }

end Polymers.Python.efjc.thermodynamics.isometric.asymptotic.alternative

namespace Polymers.Python.efjc.thermodynamics.isometric.asymptotic.legendre

/-- `src/physics/single_chain/efjc/thermodynamics/isometric/asymptotic/legendre/py.rs` lines 21-38: struct `EFJC`. -/
structure EFJC (α : Type) where
  /-- field `hinge_mass` -/
  hinge_mass : α
  /-- field `link_length` -/
  link_length : α
  /-- field `number_of_links` -/
  number_of_links : Nat
  /-- field `link_stiffness` -/
  link_stiffness : α

/-- `src/physics/single_chain/efjc/thermodynamics/isometric/asymptotic/legendre/py.rs` lines 44-53. -/
def EFJC.init (number_of_links : Nat) (link_length : α) (hinge_mass : α) (link_stiffness : α) : Polymers.Python.efjc.thermodynamics.isometric.asymptotic.legendre.EFJC α :=
  { hinge_mass := hinge_mass, link_length := link_length, number_of_links := number_of_links, link_stiffness := link_stiffness }

/-- `src/physics/single_chain/efjc/thermodynamics/isometric/asymptotic/legendre/py.rs` lines 63-66. -/
def EFJC.force (self : Polymers.Python.efjc.thermodynamics.isometric.asymptotic.legendre.EFJC α) (end_to_end_length : NdArray α) (temperature : α) : NdArray α :=
  NdArray.mapv end_to_end_length (fun (end_to_end_length : α) => Polymers.efjc.thermodynamics.isometric.asymptotic.legendre.force self.number_of_links self.link_length self.link_stiffness end_to_end_length temperature)

/-- `src/physics/single_chain/efjc/thermodynamics/isometric/asymptotic/legendre/py.rs` lines 75-78. -/
def EFJC.nondimensional_force (self : Polymers.Python.efjc.thermodynamics.isometric.asymptotic.legendre.EFJC α) (nondimensional_end_to_end_length_per_link : NdArray α) (temperature : α) : NdArray α :=
  NdArray.mapv nondimensional_end_to_end_length_per_link (fun (nondimensional_end_to_end_length_per_link : α) => Polymers.efjc.thermodynamics.isometric.asymptotic.legendre.nondimensional_force (self.link_stiffness * Elem.powi self.link_length 2 / (Polymers.BOLTZMANN_CONSTANT : α) / temperature) nondimensional_end_to_end_length_per_link)

/-- `src/physics/single_chain/efjc/thermodynamics/isometric/asymptotic/legendre/py.rs` lines 93-96. -/
def EFJC.helmholtz_free_energy (self : Polymers.Python.efjc.thermodynamics.isometric.asymptotic.legendre.EFJC α) (end_to_end_length : NdArray α) (temperature : α) : NdArray α :=
  NdArray.mapv end_to_end_length (fun (end_to_end_length : α) => Polymers.efjc.thermodynamics.isometric.asymptotic.legendre.helmholtz_free_energy self.number_of_links self.link_length self.hinge_mass self.link_stiffness end_to_end_length temperature)

/-- `src/physics/single_chain/efjc/thermodynamics/isometric/asymptotic/legendre/py.rs` lines 106-109. -/
def EFJC.helmholtz_free_energy_per_link (self : Polymers.Python.efjc.thermodynamics.isometric.asymptotic.legendre.EFJC α) (end_to_end_length : NdArray α) (temperature : α) : NdArray α :=
  NdArray.mapv end_to_end_length (fun (end_to_end_length : α) => Polymers.efjc.thermodynamics.isometric.asymptotic.legendre.helmholtz_free_energy_per_link self.number_of_links self.link_length self.hinge_mass self.link_stiffness end_to_end_length temperature)

/-- `src/physics/single_chain/efjc/thermodynamics/isometric/asymptotic/legendre/py.rs` lines 119-122. -/
def EFJC.relative_helmholtz_free_energy (self : Polymers.Python.efjc.thermodynamics.isometric.asymptotic.legendre.EFJC α) (end_to_end_length : NdArray α) (temperature : α) : NdArray α :=
  NdArray.mapv end_to_end_length (fun (end_to_end_length : α) => Polymers.efjc.thermodynamics.isometric.asymptotic.legendre.relative_helmholtz_free_energy self.number_of_links self.link_length self.link_stiffness end_to_end_length temperature)

/-- `src/physics/single_chain/efjc/thermodynamics/isometric/asymptotic/legendre/py.rs` lines 132-135. -/
def EFJC.relative_helmholtz_free_energy_per_link (self : Polymers.Python.efjc.thermodynamics.isometric.asymptotic.legendre.EFJC α) (end_to_end_length : NdArray α) (temperature : α) : NdArray α :=
  NdArray.mapv end_to_end_length (fun (end_to_end_length : α) => Polymers.efjc.thermodynamics.isometric.asymptotic.legendre.relative_helmholtz_free_energy_per_link self.number_of_links self.link_length self.link_stiffness end_to_end_length temperature)

/-- `src/physics/single_chain/efjc/thermodynamics/isometric/asymptotic/legendre/py.rs` lines 145-148. -/
def EFJC.nondimensional_helmholtz_free_energy (self : Polymers.Python.efjc.thermodynamics.isometric.asymptotic.legendre.EFJC α) (nondimensional_end_to_end_length_per_link : NdArray α) (temperature : α) : NdArray α :=
  NdArray.mapv nondimensional_end_to_end_length_per_link (fun (nondimensional_end_to_end_length_per_link : α) => Polymers.efjc.thermodynamics.isometric.asymptotic.legendre.nondimensional_helmholtz_free_energy self.number_of_links self.link_length self.hinge_mass (self.link_stiffness * Elem.powi self.link_length 2 / (Polymers.BOLTZMANN_CONSTANT : α) / temperature) nondimensional_end_to_end_length_per_link temperature)

/-- `src/physics/single_chain/efjc/thermodynamics/isometric/asymptotic/legendre/py.rs` lines 158-161. -/
def EFJC.nondimensional_helmholtz_free_energy_per_link (self : Polymers.Python.efjc.thermodynamics.isometric.asymptotic.legendre.EFJC α) (nondimensional_end_to_end_length_per_link : NdArray α) (temperature : α) : NdArray α :=
  NdArray.mapv nondimensional_end_to_end_length_per_link (fun (nondimensional_end_to_end_length_per_link : α) => Polymers.efjc.thermodynamics.isometric.asymptotic.legendre.nondimensional_helmholtz_free_energy_per_link self.number_of_links self.link_length self.hinge_mass (self.link_stiffness * Elem.powi self.link_length 2 / (Polymers.BOLTZMANN_CONSTANT : α) / temperature) nondimensional_end_to_end_length_per_link temperature)

/-- `src/physics/single_chain/efjc/thermodynamics/isometric/asymptotic/legendre/py.rs` lines 170-173. -/
def EFJC.nondimensional_relative_helmholtz_free_energy (self : Polymers.Python.efjc.thermodynamics.isometric.asymptotic.legendre.EFJC α) (nondimensional_end_to_end_length_per_link : NdArray α) (temperature : α) : NdArray α :=
  NdArray.mapv nondimensional_end_to_end_length_per_link (fun (nondimensional_end_to_end_length_per_link : α) => Polymers.efjc.thermodynamics.isometric.asymptotic.legendre.nondimensional_relative_helmholtz_free_energy self.number_of_links (self.link_stiffness * Elem.powi self.link_length 2 / (Polymers.BOLTZMANN_CONSTANT : α) / temperature) nondimensional_end_to_end_length_per_link)

/-- `src/physics/single_chain/efjc/thermodynamics/isometric/asymptotic/legendre/py.rs` lines 182-185. -/
def EFJC.nondimensional_relative_helmholtz_free_energy_per_link (self : Polymers.Python.efjc.thermodynamics.isometric.asymptotic.legendre.EFJC α) (nondimensional_end_to_end_length_per_link : NdArray α) (temperature : α) : NdArray α :=
  NdArray.mapv nondimensional_end_to_end_length_per_link (fun (nondimensional_end_to_end_length_per_link : α) => Polymers.efjc.thermodynamics.isometric.asymptotic.legendre.nondimensional_relative_helmholtz_free_energy_per_link (self.link_stiffness * Elem.powi self.link_length 2 / (Polymers.BOLTZMANN_CONSTANT : α) / temperature) nondimensional_end_to_end_length_per_link)

end Polymers.Python.efjc.thermodynamics.isometric.asymptotic.legendre

namespace Polymers.Python.efjc.thermodynamics.isometric.asymptotic.reduced

/-- `src/physics/single_chain/efjc/thermodynamics/isometric/asymptotic/reduced/py.rs` lines 15-36: struct `EFJC`. -/
structure EFJC (α : Type) where
  /-- field `hinge_mass` -/
  hinge_mass : α
  /-- field `link_length` -/
  link_length : α
  /-- field `number_of_links` -/
  number_of_links : Nat
  /-- field `link_stiffness` -/
  link_stiffness : α
  /-- field `legendre` -/
  legendre : Polymers.Python.efjc.thermodynamics.isometric.asymptotic.reduced.legendre.EFJC α

/-- `src/physics/single_chain/efjc/thermodynamics/isometric/asymptotic/reduced/py.rs` lines 42-52. -/
def EFJC.init (number_of_links : Nat) (link_length : α) (hinge_mass : α) (link_stiffness : α) : Polymers.Python.efjc.thermodynamics.isometric.asymptotic.reduced.EFJC α :=
  { hinge_mass := hinge_mass, link_length := link_length, number_of_links := number_of_links, link_stiffness := link_stiffness, legendre := Polymers.Python.efjc.thermodynamics.isometric.asymptotic.reduced.legendre.EFJC.init number_of_links link_length hinge_mass link_stiffness }

end Polymers.Python.efjc.thermodynamics.isometric.asymptotic.reduced

namespace Polymers.Python.efjc.thermodynamics.isotensional.asymptotic.alternative

/-- `src/physics/single_chain/efjc/thermodynamics/isotensional/asymptotic/alternative/py.rs` lines 22-43: struct `EFJC`. -/
structure EFJC (α : Type) where
  /-- field `hinge_mass` -/
  hinge_mass : α
  /-- field `link_length` -/
  link_length : α
  /-- field `number_of_links` -/
  number_of_links : Nat
  /-- field `link_stiffness` -/
  link_stiffness : α
  /-- field `legendre` -/
  legendre : Polymers.Python.efjc.thermodynamics.isotensional.asymptotic.alternative.legendre.EFJC α

/-- `src/physics/single_chain/efjc/thermodynamics/isotensional/asymptotic/alternative/py.rs` lines 49-59. -/
def EFJC.init (number_of_links : Nat) (link_length : α) (hinge_mass : α) (link_stiffness : α) : Polymers.Python.efjc.thermodynamics.isotensional.asymptotic.alternative.EFJC α :=
  { hinge_mass := hinge_mass, link_length := link_length, number_of_links := number_of_links, link_stiffness := link_stiffness, legendre := Polymers.Python.efjc.thermodynamics.isotensional.asymptotic.alternative.legendre.EFJC.init number_of_links link_length hinge_mass link_stiffness }

/-- `src/physics/single_chain/efjc/thermodynamics/isotensional/asymptotic/alternative/py.rs` lines 72-75. -/
def EFJC.end_to_end_length (self : Polymers.Python.efjc.thermodynamics.isotensional.asymptotic.alternative.EFJC α) (force : NdArray α) (temperature : α) : NdArray α :=
  NdArray.mapv force (fun (force : α) => Polymers.efjc.thermodynamics.isotensional.asymptotic.alternative.end_to_end_length self.number_of_links self.link_length self.link_stiffness force temperature)

/-- `src/physics/single_chain/efjc/thermodynamics/isotensional/asymptotic/alternative/py.rs` lines 85-88. -/
def EFJC.end_to_end_length_per_link (self : Polymers.Python.efjc.thermodynamics.isotensional.asymptotic.alternative.EFJC α) (force : NdArray α) (temperature : α) : NdArray α :=
  NdArray.mapv force (fun (force : α) => Polymers.efjc.thermodynamics.isotensional.asymptotic.alternative.end_to_end_length_per_link self.link_length self.link_stiffness force temperature)

/-- `src/physics/single_chain/efjc/thermodynamics/isotensional/asymptotic/alternative/py.rs` lines 98-101. -/
def EFJC.nondimensional_end_to_end_length (self : Polymers.Python.efjc.thermodynamics.isotensional.asymptotic.alternative.EFJC α) (nondimensional_force : NdArray α) (temperature : α) : NdArray α :=
  NdArray.mapv nondimensional_force (fun (nondimensional_force : α) => Polymers.efjc.thermodynamics.isotensional.asymptotic.alternative.nondimensional_end_to_end_length self.number_of_links (self.link_stiffness * Elem.powi self.link_length 2 / (Polymers.BOLTZMANN_CONSTANT : α) / temperature) nondimensional_force)

/-- `src/physics/single_chain/efjc/thermodynamics/isotensional/asymptotic/alternative/py.rs` lines 116-119. -/
def EFJC.nondimensional_end_to_end_length_per_link (self : Polymers.Python.efjc.thermodynamics.isotensional.asymptotic.alternative.EFJC α) (nondimensional_force : NdArray α) (temperature : α) : NdArray α :=
  NdArray.mapv nondimensional_force (fun (nondimensional_force : α) => Polymers.efjc.thermodynamics.isotensional.asymptotic.alternative.nondimensional_end_to_end_length_per_link (self.link_stiffness * Elem.powi self.link_length 2 / (Polymers.BOLTZMANN_CONSTANT : α) / temperature) nondimensional_force)

/-- `src/physics/single_chain/efjc/thermodynamics/isotensional/asymptotic/alternative/py.rs` lines 132-135. -/
def EFJC.gibbs_free_energy (self : Polymers.Python.efjc.thermodynamics.isotensional.asymptotic.alternative.EFJC α) (force : NdArray α) (temperature : α) : NdArray α :=
  NdArray.mapv force (fun (force : α) => Polymers.efjc.thermodynamics.isotensional.asymptotic.alternative.gibbs_free_energy self.number_of_links self.link_length self.hinge_mass self.link_stiffness force temperature)

/-- `src/physics/single_chain/efjc/thermodynamics/isotensional/asymptotic/alternative/py.rs` lines 145-148. -/
def EFJC.gibbs_free_energy_per_link (self : Polymers.Python.efjc.thermodynamics.isotensional.asymptotic.alternative.EFJC α) (force : NdArray α) (temperature : α) : NdArray α :=
  NdArray.mapv force (fun (force : α) => Polymers.efjc.thermodynamics.isotensional.asymptotic.alternative.gibbs_free_energy_per_link self.link_length self.hinge_mass self.link_stiffness force temperature)

/-- `src/physics/single_chain/efjc/thermodynamics/isotensional/asymptotic/alternative/py.rs` lines 158-161. -/
def EFJC.relative_gibbs_free_energy (self : Polymers.Python.efjc.thermodynamics.isotensional.asymptotic.alternative.EFJC α) (force : NdArray α) (temperature : α) : NdArray α :=
  NdArray.mapv force (fun (force : α) => Polymers.efjc.thermodynamics.isotensional.asymptotic.alternative.relative_gibbs_free_energy self.number_of_links self.link_length self.link_stiffness force temperature)

/-- `src/physics/single_chain/efjc/thermodynamics/isotensional/asymptotic/alternative/py.rs` lines 171-174. -/
def EFJC.relative_gibbs_free_energy_per_link (self : Polymers.Python.efjc.thermodynamics.isotensional.asymptotic.alternative.EFJC α) (force : NdArray α) (temperature : α) : NdArray α :=
  NdArray.mapv force (fun (force : α) => Polymers.efjc.thermodynamics.isotensional.asymptotic.alternative.relative_gibbs_free_energy_per_link self.link_length self.link_stiffness force temperature)

/-- `src/physics/single_chain/efjc/thermodynamics/isotensional/asymptotic/alternative/py.rs` lines 184-187. -/
def EFJC.nondimensional_gibbs_free_energy (self : Polymers.Python.efjc.thermodynamics.isotensional.asymptotic.alternative.EFJC α) (nondimensional_force : NdArray α) (temperature : α) : NdArray α :=
  NdArray.mapv nondimensional_force (fun (nondimensional_force : α) => Polymers.efjc.thermodynamics.isotensional.asymptotic.alternative.nondimensional_gibbs_free_energy self.number_of_links self.link_length self.hinge_mass (self.link_stiffness * Elem.powi self.link_length 2 / (Polymers.BOLTZMANN_CONSTANT : α) / temperature) nondimensional_force temperature)

/-- `src/physics/single_chain/efjc/thermodynamics/isotensional/asymptotic/alternative/py.rs` lines 197-200. -/
def EFJC.nondimensional_gibbs_free_energy_per_link (self : Polymers.Python.efjc.thermodynamics.isotensional.asymptotic.alternative.EFJC α) (nondimensional_force : NdArray α) (temperature : α) : NdArray α :=
  NdArray.mapv nondimensional_force (fun (nondimensional_force : α) => Polymers.efjc.thermodynamics.isotensional.asymptotic.alternative.nondimensional_gibbs_free_energy_per_link self.link_length self.hinge_mass (self.link_stiffness * Elem.powi self.link_length 2 / (Polymers.BOLTZMANN_CONSTANT : α) / temperature) nondimensional_force temperature)

/-- `src/physics/single_chain/efjc/thermodynamics/isotensional/asymptotic/alternative/py.rs` lines 210-213. -/
def EFJC.nondimensional_relative_gibbs_free_energy (self : Polymers.Python.efjc.thermodynamics.isotensional.asymptotic.alternative.EFJC α) (nondimensional_force : NdArray α) (temperature : α) : NdArray α :=
  NdArray.mapv nondimensional_force (fun (nondimensional_force : α) => Polymers.efjc.thermodynamics.isotensional.asymptotic.alternative.nondimensional_relative_gibbs_free_energy self.number_of_links (self.link_stiffness * Elem.powi self.link_length 2 / (Polymers.BOLTZMANN_CONSTANT : α) / temperature) nondimensional_force)

/-- `src/physics/single_chain/efjc/thermodynamics/isotensional/asymptotic/alternative/py.rs` lines 226-229. -/
def EFJC.nondimensional_relative_gibbs_free_energy_per_link (self : Polymers.Python.efjc.thermodynamics.isotensional.asymptotic.alternative.EFJC α) (nondimensional_force : NdArray α) (temperature : α) : NdArray α :=
  NdArray.mapv nondimensional_force (fun (nondimensional_force : α) => Polymers.efjc.thermodynamics.isotensional.asymptotic.alternative.nondimensional_relative_gibbs_free_energy_per_link (self.link_stiffness * Elem.powi self.link_length 2 / (Polymers.BOLTZMANN_CONSTANT : α) / temperature) nondimensional_force)

end Polymers.Python.efjc.thermodynamics.isotensional.asymptotic.alternative

namespace Polymers.Python.efjc.thermodynamics.isotensional.asymptotic.legendre

/-- `src/physics/single_chain/efjc/thermodynamics/isotensional/asymptotic/legendre/py.rs` lines 21-38: struct `EFJC`. -/
structure EFJC (α : Type) where
  /-- field `hinge_mass` -/
  hinge_mass : α
  /-- field `link_length` -/
  link_length : α
  /-- field `number_of_links` -/
  number_of_links : Nat
  /-- field `link_stiffness` -/
  link_stiffness : α

/-- `src/physics/single_chain/efjc/thermodynamics/isotensional/asymptotic/legendre/py.rs` lines 44-53. -/
def EFJC.init (number_of_links : Nat) (link_length : α) (hinge_mass : α) (link_stiffness : α) : Polymers.Python.efjc.thermodynamics.isotensional.asymptotic.legendre.EFJC α :=
  { hinge_mass := hinge_mass, link_length := link_length, number_of_links := number_of_links, link_stiffness := link_stiffness }

/-- `src/physics/single_chain/efjc/thermodynamics/isotensional/asymptotic/legendre/py.rs` lines 66-69. -/
def EFJC.helmholtz_free_energy (self : Polymers.Python.efjc.thermodynamics.isotensional.asymptotic.legendre.EFJC α) (force : NdArray α) (temperature : α) : NdArray α :=
  NdArray.mapv force (fun (force : α) => Polymers.efjc.thermodynamics.isotensional.asymptotic.legendre.helmholtz_free_energy self.number_of_links self.link_length self.hinge_mass self.link_stiffness force temperature)

/-- `src/physics/single_chain/efjc/thermodynamics/isotensional/asymptotic/legendre/py.rs` lines 79-82. -/
def EFJC.helmholtz_free_energy_per_link (self : Polymers.Python.efjc.thermodynamics.isotensional.asymptotic.legendre.EFJC α) (force : NdArray α) (temperature : α) : NdArray α :=
  NdArray.mapv force (fun (force : α) => Polymers.efjc.thermodynamics.isotensional.asymptotic.legendre.helmholtz_free_energy_per_link self.link_length self.hinge_mass self.link_stiffness force temperature)

/-- `src/physics/single_chain/efjc/thermodynamics/isotensional/asymptotic/legendre/py.rs` lines 92-95. -/
def EFJC.relative_helmholtz_free_energy (self : Polymers.Python.efjc.thermodynamics.isotensional.asymptotic.legendre.EFJC α) (force : NdArray α) (temperature : α) : NdArray α :=
  NdArray.mapv force (fun (force : α) => Polymers.efjc.thermodynamics.isotensional.asymptotic.legendre.relative_helmholtz_free_energy self.number_of_links self.link_length self.link_stiffness force temperature)

/-- `src/physics/single_chain/efjc/thermodynamics/isotensional/asymptotic/legendre/py.rs` lines 105-108. -/
def EFJC.relative_helmholtz_free_energy_per_link (self : Polymers.Python.efjc.thermodynamics.isotensional.asymptotic.legendre.EFJC α) (force : NdArray α) (temperature : α) : NdArray α :=
  NdArray.mapv force (fun (force : α) => Polymers.efjc.thermodynamics.isotensional.asymptotic.legendre.relative_helmholtz_free_energy_per_link self.link_length self.link_stiffness force temperature)

/-- `src/physics/single_chain/efjc/thermodynamics/isotensional/asymptotic/legendre/py.rs` lines 118-121. -/
def EFJC.nondimensional_helmholtz_free_energy (self : Polymers.Python.efjc.thermodynamics.isotensional.asymptotic.legendre.EFJC α) (nondimensional_force : NdArray α) (temperature : α) : NdArray α :=
  NdArray.mapv nondimensional_force (fun (nondimensional_force : α) => Polymers.efjc.thermodynamics.isotensional.asymptotic.legendre.nondimensional_helmholtz_free_energy self.number_of_links self.link_length self.hinge_mass (self.link_stiffness * Elem.powi self.link_length 2 / (Polymers.BOLTZMANN_CONSTANT : α) / temperature) nondimensional_force temperature)

/-- `src/physics/single_chain/efjc/thermodynamics/isotensional/asymptotic/legendre/py.rs` lines 131-134. -/
def EFJC.nondimensional_helmholtz_free_energy_per_link (self : Polymers.Python.efjc.thermodynamics.isotensional.asymptotic.legendre.EFJC α) (nondimensional_force : NdArray α) (temperature : α) : NdArray α :=
  NdArray.mapv nondimensional_force (fun (nondimensional_force : α) => Polymers.efjc.thermodynamics.isotensional.asymptotic.legendre.nondimensional_helmholtz_free_energy_per_link self.link_length self.hinge_mass (self.link_stiffness * Elem.powi self.link_length 2 / (Polymers.BOLTZMANN_CONSTANT : α) / temperature) nondimensional_force temperature)

/-- `src/physics/single_chain/efjc/thermodynamics/isotensional/asymptotic/legendre/py.rs` lines 144-147. -/
def EFJC.nondimensional_relative_helmholtz_free_energy (self : Polymers.Python.efjc.thermodynamics.isotensional.asymptotic.legendre.EFJC α) (nondimensional_force : NdArray α) (temperature : α) : NdArray α :=
  NdArray.mapv nondimensional_force (fun (nondimensional_force : α) => Polymers.efjc.thermodynamics.isotensional.asymptotic.legendre.nondimensional_relative_helmholtz_free_energy self.number_of_links (self.link_stiffness * Elem.powi self.link_length 2 / (Polymers.BOLTZMANN_CONSTANT : α) / temperature) nondimensional_force)

/-- `src/physics/single_chain/efjc/thermodynamics/isotensional/asymptotic/legendre/py.rs` lines 157-160. -/
def EFJC.nondimensional_relative_helmholtz_free_energy_per_link (self : Polymers.Python.efjc.thermodynamics.isotensional.asymptotic.legendre.EFJC α) (nondimensional_force : NdArray α) (temperature : α) : NdArray α :=
  NdArray.mapv nondimensional_force (fun (nondimensional_force : α) => Polymers.efjc.thermodynamics.isotensional.asymptotic.legendre.nondimensional_relative_helmholtz_free_energy_per_link (self.link_stiffness * Elem.powi self.link_length 2 / (Polymers.BOLTZMANN_CONSTANT : α) / temperature) nondimensional_force)

end Polymers.Python.efjc.thermodynamics.isotensional.asymptotic.legendre

namespace Polymers.Python.efjc.thermodynamics.isotensional.asymptotic.reduced

/-- `src/physics/single_chain/efjc/thermodynamics/isotensional/asymptotic/reduced/py.rs` lines 22-43: struct `EFJC`. -/
structure EFJC (α : Type) where
  /-- field `hinge_mass` -/
  hinge_mass : α
  /-- field `link_length` -/
  link_length : α
  /-- field `number_of_links` -/
  number_of_links : Nat
  /-- field `link_stiffness` -/
  link_stiffness : α
  /-- field `legendre` -/
  legendre : Polymers.Python.efjc.thermodynamics.isotensional.asymptotic.reduced.legendre.EFJC α

/-- `src/physics/single_chain/efjc/thermodynamics/isotensional/asymptotic/reduced/py.rs` lines 49-59. -/
def EFJC.init (number_of_links : Nat) (link_length : α) (hinge_mass : α) (link_stiffness : α) : Polymers.Python.efjc.thermodynamics.isotensional.asymptotic.reduced.EFJC α :=
  { hinge_mass := hinge_mass, link_length := link_length, number_of_links := number_of_links, link_stiffness := link_stiffness, legendre := Polymers.Python.efjc.thermodynamics.isotensional.asymptotic.reduced.legendre.EFJC.init number_of_links link_length hinge_mass link_stiffness }

/-- `src/physics/single_chain/efjc/thermodynamics/isotensional/asymptotic/reduced/py.rs` lines 72-75. -/
def EFJC.end_to_end_length (self : Polymers.Python.efjc.thermodynamics.isotensional.asymptotic.reduced.EFJC α) (force : NdArray α) (temperature : α) : NdArray α :=
  NdArray.mapv force (fun (force : α) => Polymers.efjc.thermodynamics.isotensional.asymptotic.reduced.end_to_end_length self.number_of_links self.link_length self.link_stiffness force temperature)

/-- `src/physics/single_chain/efjc/thermodynamics/isotensional/asymptotic/reduced/py.rs` lines 85-88. -/
def EFJC.end_to_end_length_per_link (self : Polymers.Python.efjc.thermodynamics.isotensional.asymptotic.reduced.EFJC α) (force : NdArray α) (temperature : α) : NdArray α :=
  NdArray.mapv force (fun (force : α) => Polymers.efjc.thermodynamics.isotensional.asymptotic.reduced.end_to_end_length_per_link self.link_length self.link_stiffness force temperature)

/-- `src/physics/single_chain/efjc/thermodynamics/isotensional/asymptotic/reduced/py.rs` lines 98-101. -/
def EFJC.nondimensional_end_to_end_length (self : Polymers.Python.efjc.thermodynamics.isotensional.asymptotic.reduced.EFJC α) (nondimensional_force : NdArray α) (temperature : α) : NdArray α :=
  NdArray.mapv nondimensional_force (fun (nondimensional_force : α) => Polymers.efjc.thermodynamics.isotensional.asymptotic.reduced.nondimensional_end_to_end_length self.number_of_links (self.link_stiffness * Elem.powi self.link_length 2 / (Polymers.BOLTZMANN_CONSTANT : α) / temperature) nondimensional_force)

/-- `src/physics/single_chain/efjc/thermodynamics/isotensional/asymptotic/reduced/py.rs` lines 116-119. -/
def EFJC.nondimensional_end_to_end_length_per_link (self : Polymers.Python.efjc.thermodynamics.isotensional.asymptotic.reduced.EFJC α) (nondimensional_force : NdArray α) (temperature : α) : NdArray α :=
  NdArray.mapv nondimensional_force (fun (nondimensional_force : α) => Polymers.efjc.thermodynamics.isotensional.asymptotic.reduced.nondimensional_end_to_end_length_per_link (self.link_stiffness * Elem.powi self.link_length 2 / (Polymers.BOLTZMANN_CONSTANT : α) / temperature) nondimensional_force)

/-- `src/physics/single_chain/efjc/thermodynamics/isotensional/asymptotic/reduced/py.rs` lines 132-135. -/
def EFJC.gibbs_free_energy (self : Polymers.Python.efjc.thermodynamics.isotensional.asymptotic.reduced.EFJC α) (force : NdArray α) (temperature : α) : NdArray α :=
  NdArray.mapv force (fun (force : α) => Polymers.efjc.thermodynamics.isotensional.asymptotic.reduced.gibbs_free_energy self.number_of_links self.link_length self.hinge_mass self.link_stiffness force temperature)

/-- `src/physics/single_chain/efjc/thermodynamics/isotensional/asymptotic/reduced/py.rs` lines 145-148. -/
def EFJC.gibbs_free_energy_per_link (self : Polymers.Python.efjc.thermodynamics.isotensional.asymptotic.reduced.EFJC α) (force : NdArray α) (temperature : α) : NdArray α :=
  NdArray.mapv force (fun (force : α) => Polymers.efjc.thermodynamics.isotensional.asymptotic.reduced.gibbs_free_energy_per_link self.link_length self.hinge_mass self.link_stiffness force temperature)

/-- `src/physics/single_chain/efjc/thermodynamics/isotensional/asymptotic/reduced/py.rs` lines 158-161. -/
def EFJC.relative_gibbs_free_energy (self : Polymers.Python.efjc.thermodynamics.isotensional.asymptotic.reduced.EFJC α) (force : NdArray α) (temperature : α) : NdArray α :=
  NdArray.mapv force (fun (force : α) => Polymers.efjc.thermodynamics.isotensional.asymptotic.reduced.relative_gibbs_free_energy self.number_of_links self.link_length self.link_stiffness force temperature)

/-- `src/physics/single_chain/efjc/thermodynamics/isotensional/asymptotic/reduced/py.rs` lines 171-174. -/
def EFJC.relative_gibbs_free_energy_per_link (self : Polymers.Python.efjc.thermodynamics.isotensional.asymptotic.reduced.EFJC α) (force : NdArray α) (temperature : α) : NdArray α :=
  NdArray.mapv force (fun (force : α) => Polymers.efjc.thermodynamics.isotensional.asymptotic.reduced.relative_gibbs_free_energy_per_link self.link_length self.link_stiffness force temperature)

/-- `src/physics/single_chain/efjc/thermodynamics/isotensional/asymptotic/reduced/py.rs` lines 184-187. -/
def EFJC.nondimensional_gibbs_free_energy (self : Polymers.Python.efjc.thermodynamics.isotensional.asymptotic.reduced.EFJC α) (nondimensional_force : NdArray α) (temperature : α) : NdArray α :=
  NdArray.mapv nondimensional_force (fun (nondimensional_force : α) => Polymers.efjc.thermodynamics.isotensional.asymptotic.reduced.nondimensional_gibbs_free_energy self.number_of_links self.link_length self.hinge_mass (self.link_stiffness * Elem.powi self.link_length 2 / (Polymers.BOLTZMANN_CONSTANT : α) / temperature) nondimensional_force temperature)

/-- `src/physics/single_chain/efjc/thermodynamics/isotensional/asymptotic/reduced/py.rs` lines 197-200. -/
def EFJC.nondimensional_gibbs_free_energy_per_link (self : Polymers.Python.efjc.thermodynamics.isotensional.asymptotic.reduced.EFJC α) (nondimensional_force : NdArray α) (temperature : α) : NdArray α :=
  NdArray.mapv nondimensional_force (fun (nondimensional_force : α) => Polymers.efjc.thermodynamics.isotensional.asymptotic.reduced.nondimensional_gibbs_free_energy_per_link self.link_length self.hinge_mass (self.link_stiffness * Elem.powi self.link_length 2 / (Polymers.BOLTZMANN_CONSTANT : α) / temperature) nondimensional_force temperature)

/-- `src/physics/single_chain/efjc/thermodynamics/isotensional/asymptotic/reduced/py.rs` lines 210-213. -/
def EFJC.nondimensional_relative_gibbs_free_energy (self : Polymers.Python.efjc.thermodynamics.isotensional.asymptotic.reduced.EFJC α) (nondimensional_force : NdArray α) (temperature : α) : NdArray α :=
  NdArray.mapv nondimensional_force (fun (nondimensional_force : α) => Polymers.efjc.thermodynamics.isotensional.asymptotic.reduced.nondimensional_relative_gibbs_free_energy self.number_of_links (self.link_stiffness * Elem.powi self.link_length 2 / (Polymers.BOLTZMANN_CONSTANT : α) / temperature) nondimensional_force)

/-- `src/physics/single_chain/efjc/thermodynamics/isotensional/asymptotic/reduced/py.rs` lines 226-229. -/
def EFJC.nondimensional_relative_gibbs_free_energy_per_link (self : Polymers.Python.efjc.thermodynamics.isotensional.asymptotic.reduced.EFJC α) (nondimensional_force : NdArray α) (temperature : α) : NdArray α :=
  NdArray.mapv nondimensional_force (fun (nondimensional_force : α) => Polymers.efjc.thermodynamics.isotensional.asymptotic.reduced.nondimensional_relative_gibbs_free_energy_per_link (self.link_stiffness * Elem.powi self.link_length 2 / (Polymers.BOLTZMANN_CONSTANT : α) / temperature) nondimensional_force)

end Polymers.Python.efjc.thermodynamics.isotensional.asymptotic.reduced

namespace Polymers.Python.efjc.thermodynamics.isometric.asymptotic

/-- `src/physics/single_chain/efjc/thermodynamics/isometric/asymptotic/py.rs` lines 17-46: struct `EFJC`. -/
structure EFJC (α : Type) where
  /-- field `hinge_mass` -/
  hinge_mass : α
  /-- field `link_length` -/
  link_length : α
  /-- field `number_of_links` -/
  number_of_links : Nat
  /-- field `link_stiffness` -/
  link_stiffness : α
  /-- field `alternative` -/
  alternative : Polymers.Python.efjc.thermodynamics.isometric.asymptotic.alternative.EFJC α
  /-- field `reduced` -/
  reduced : Polymers.Python.efjc.thermodynamics.isometric.asymptotic.reduced.EFJC α
  /-- field `legendre` -/
  legendre : Polymers.Python.efjc.thermodynamics.isometric.asymptotic.legendre.EFJC α

/-- `src/physics/single_chain/efjc/thermodynamics/isometric/asymptotic/py.rs` lines 52-64. -/
def EFJC.init (number_of_links : Nat) (link_length : α) (hinge_mass : α) (link_stiffness : α) : Polymers.Python.efjc.thermodynamics.isometric.asymptotic.EFJC α :=
  { hinge_mass := hinge_mass, link_length := link_length, number_of_links := number_of_links, link_stiffness := link_stiffness, alternative := Polymers.Python.efjc.thermodynamics.isometric.asymptotic.alternative.EFJC.init number_of_links link_length hinge_mass link_stiffness, reduced := Polymers.Python.efjc.thermodynamics.isometric.asymptotic.reduced.EFJC.init number_of_links link_length hinge_mass link_stiffness, legendre := Polymers.Python.efjc.thermodynamics.isometric.asymptotic.legendre.EFJC.init number_of_links link_length hinge_mass link_stiffness }

end Polymers.Python.efjc.thermodynamics.isometric.asymptotic

namespace Polymers.Python.efjc.thermodynamics.isotensional.asymptotic

/-- `src/physics/single_chain/efjc/thermodynamics/isotensional/asymptotic/py.rs` lines 24-53: struct `EFJC`. -/
structure EFJC (α : Type) where
  /-- field `hinge_mass` -/
  hinge_mass : α
  /-- field `link_length` -/
  link_length : α
  /-- field `number_of_links` -/
  number_of_links : Nat
  /-- field `link_stiffness` -/
  link_stiffness : α
  /-- field `alternative` -/
  alternative : Polymers.Python.efjc.thermodynamics.isotensional.asymptotic.alternative.EFJC α
  /-- field `reduced` -/
  reduced : Polymers.Python.efjc.thermodynamics.isotensional.asymptotic.reduced.EFJC α
  /-- field `legendre` -/
  legendre : Polymers.Python.efjc.thermodynamics.isotensional.asymptotic.legendre.EFJC α

/-- `src/physics/single_chain/efjc/thermodynamics/isotensional/asymptotic/py.rs` lines 59-71. -/
def EFJC.init (number_of_links : Nat) (link_length : α) (hinge_mass : α) (link_stiffness : α) : Polymers.Python.efjc.thermodynamics.isotensional.asymptotic.EFJC α :=
  { hinge_mass := hinge_mass, link_length := link_length, number_of_links := number_of_links, link_stiffness := link_stiffness, alternative := Polymers.Python.efjc.thermodynamics.isotensional.asymptotic.alternative.EFJC.init number_of_links link_length hinge_mass link_stiffness, reduced := Polymers.Python.efjc.thermodynamics.isotensional.asymptotic.reduced.EFJC.init number_of_links link_length hinge_mass link_stiffness, legendre := Polymers.Python.efjc.thermodynamics.isotensional.asymptotic.legendre.EFJC.init number_of_links link_length hinge_mass link_stiffness }

/-- `src/physics/single_chain/efjc/thermodynamics/isotensional/asymptotic/py.rs` lines 84-87. -/
def EFJC.end_to_end_length (self : Polymers.Python.efjc.thermodynamics.isotensional.asymptotic.EFJC α) (force : NdArray α) (temperature : α) : NdArray α :=
  NdArray.mapv force (fun (force : α) => Polymers.efjc.thermodynamics.isotensional.asymptotic.end_to_end_length self.number_of_links self.link_length self.link_stiffness force temperature)

/-- `src/physics/single_chain/efjc/thermodynamics/isotensional/asymptotic/py.rs` lines 97-100. -/
def EFJC.end_to_end_length_per_link (self : Polymers.Python.efjc.thermodynamics.isotensional.asymptotic.EFJC α) (force : NdArray α) (temperature : α) : NdArray α :=
  NdArray.mapv force (fun (force : α) => Polymers.efjc.thermodynamics.isotensional.asymptotic.end_to_end_length_per_link self.link_length self.link_stiffness force temperature)

/-- `src/physics/single_chain/efjc/thermodynamics/isotensional/asymptotic/py.rs` lines 110-113. -/
def EFJC.nondimensional_end_to_end_length (self : Polymers.Python.efjc.thermodynamics.isotensional.asymptotic.EFJC α) (nondimensional_force : NdArray α) (temperature : α) : NdArray α :=
  NdArray.mapv nondimensional_force (fun (nondimensional_force : α) => Polymers.efjc.thermodynamics.isotensional.asymptotic.nondimensional_end_to_end_length self.number_of_links (self.link_stiffness * Elem.powi self.link_length 2 / (Polymers.BOLTZMANN_CONSTANT : α) / temperature) nondimensional_force)

/-- `src/physics/single_chain/efjc/thermodynamics/isotensional/asymptotic/py.rs` lines 128-131. -/
def EFJC.nondimensional_end_to_end_length_per_link (self : Polymers.Python.efjc.thermodynamics.isotensional.asymptotic.EFJC α) (nondimensional_force : NdArray α) (temperature : α) : NdArray α :=
  NdArray.mapv nondimensional_force (fun (nondimensional_force : α) => Polymers.efjc.thermodynamics.isotensional.asymptotic.nondimensional_end_to_end_length_per_link (self.link_stiffness * Elem.powi self.link_length 2 / (Polymers.BOLTZMANN_CONSTANT : α) / temperature) nondimensional_force)

/-- `src/physics/single_chain/efjc/thermodynamics/isotensional/asymptotic/py.rs` lines 144-147. -/
def EFJC.gibbs_free_energy (self : Polymers.Python.efjc.thermodynamics.isotensional.asymptotic.EFJC α) (force : NdArray α) (temperature : α) : NdArray α :=
  NdArray.mapv force (fun (force : α) => Polymers.efjc.thermodynamics.isotensional.asymptotic.gibbs_free_energy self.number_of_links self.link_length self.hinge_mass self.link_stiffness force temperature)

/-- `src/physics/single_chain/efjc/thermodynamics/isotensional/asymptotic/py.rs` lines 157-160. -/
def EFJC.gibbs_free_energy_per_link (self : Polymers.Python.efjc.thermodynamics.isotensional.asymptotic.EFJC α) (force : NdArray α) (temperature : α) : NdArray α :=
  NdArray.mapv force (fun (force : α) => Polymers.efjc.thermodynamics.isotensional.asymptotic.gibbs_free_energy_per_link self.link_length self.hinge_mass self.link_stiffness force temperature)

/-- `src/physics/single_chain/efjc/thermodynamics/isotensional/asymptotic/py.rs` lines 170-173. -/
def EFJC.relative_gibbs_free_energy (self : Polymers.Python.efjc.thermodynamics.isotensional.asymptotic.EFJC α) (force : NdArray α) (temperature : α) : NdArray α :=
  NdArray.mapv force (fun (force : α) => Polymers.efjc.thermodynamics.isotensional.asymptotic.relative_gibbs_free_energy self.number_of_links self.link_length self.link_stiffness force temperature)

/-- `src/physics/single_chain/efjc/thermodynamics/isotensional/asymptotic/py.rs` lines 183-186. -/
def EFJC.relative_gibbs_free_energy_per_link (self : Polymers.Python.efjc.thermodynamics.isotensional.asymptotic.EFJC α) (force : NdArray α) (temperature : α) : NdArray α :=
  NdArray.mapv force (fun (force : α) => Polymers.efjc.thermodynamics.isotensional.asymptotic.relative_gibbs_free_energy_per_link self.link_length self.link_stiffness force temperature)

/-- `src/physics/single_chain/efjc/thermodynamics/isotensional/asymptotic/py.rs` lines 196-199. -/
def EFJC.nondimensional_gibbs_free_energy (self : Polymers.Python.efjc.thermodynamics.isotensional.asymptotic.EFJC α) (nondimensional_force : NdArray α) (temperature : α) : NdArray α :=
  NdArray.mapv nondimensional_force (fun (nondimensional_force : α) => Polymers.efjc.thermodynamics.isotensional.asymptotic.nondimensional_gibbs_free_energy self.number_of_links self.link_length self.hinge_mass (self.link_stiffness * Elem.powi self.link_length 2 / (Polymers.BOLTZMANN_CONSTANT : α) / temperature) nondimensional_force temperature)

/-- `src/physics/single_chain/efjc/thermodynamics/isotensional/asymptotic/py.rs` lines 209-212. -/
def EFJC.nondimensional_gibbs_free_energy_per_link (self : Polymers.Python.efjc.thermodynamics.isotensional.asymptotic.EFJC α) (nondimensional_force : NdArray α) (temperature : α) : NdArray α :=
  NdArray.mapv nondimensional_force (fun (nondimensional_force : α) => Polymers.efjc.thermodynamics.isotensional.asymptotic.nondimensional_gibbs_free_energy_per_link self.link_length self.hinge_mass (self.link_stiffness * Elem.powi self.link_length 2 / (Polymers.BOLTZMANN_CONSTANT : α) / temperature) nondimensional_force temperature)

/-- `src/physics/single_chain/efjc/thermodynamics/isotensional/asymptotic/py.rs` lines 222-225. -/
def EFJC.nondimensional_relative_gibbs_free_energy (self : Polymers.Python.efjc.thermodynamics.isotensional.asymptotic.EFJC α) (nondimensional_force : NdArray α) (temperature : α) : NdArray α :=
  NdArray.mapv nondimensional_force (fun (nondimensional_force : α) => Polymers.efjc.thermodynamics.isotensional.asymptotic.nondimensional_relative_gibbs_free_energy self.number_of_links (self.link_stiffness * Elem.powi self.link_length 2 / (Polymers.BOLTZMANN_CONSTANT : α) / temperature) nondimensional_force)

/-- `src/physics/single_chain/efjc/thermodynamics/isotensional/asymptotic/py.rs` lines 238-241. -/
def EFJC.nondimensional_relative_gibbs_free_energy_per_link (self : Polymers.Python.efjc.thermodynamics.isotensional.asymptotic.EFJC α) (nondimensional_force : NdArray α) (temperature : α) : NdArray α :=
  NdArray.mapv nondimensional_force (fun (nondimensional_force : α) => Polymers.efjc.thermodynamics.isotensional.asymptotic.nondimensional_relative_gibbs_free_energy_per_link (self.link_stiffness * Elem.powi self.link_length 2 / (Polymers.BOLTZMANN_CONSTANT : α) / temperature) nondimensional_force)

end Polymers.Python.efjc.thermodynamics.isotensional.asymptotic

namespace Polymers.Python.efjc.thermodynamics.isotensional.legendre

/-- `src/physics/single_chain/efjc/thermodynamics/isotensional/legendre/py.rs` lines 21-38: struct `EFJC`. -/
structure EFJC (α : Type) where
  /-- field `hinge_mass` -/
  hinge_mass : α
  /-- field `link_length` -/
  link_length : α
  /-- field `number_of_links` -/
  number_of_links : Nat
  /-- field `link_stiffness` -/
  link_stiffness : α

/-- `src/physics/single_chain/efjc/thermodynamics/isotensional/legendre/py.rs` lines 44-53. -/
def EFJC.init (number_of_links : Nat) (link_length : α) (hinge_mass : α) (link_stiffness : α) : Polymers.Python.efjc.thermodynamics.isotensional.legendre.EFJC α :=
  { hinge_mass := hinge_mass, link_length := link_length, number_of_links := number_of_links, link_stiffness := link_stiffness }

/-- `src/physics/single_chain/efjc/thermodynamics/isotensional/legendre/py.rs` lines 66-69. -/
def EFJC.helmholtz_free_energy (self : Polymers.Python.efjc.thermodynamics.isotensional.legendre.EFJC α) (force : NdArray α) (temperature : α) : NdArray α :=
  NdArray.mapv force (fun (force : α) => Polymers.efjc.thermodynamics.isotensional.legendre.helmholtz_free_energy self.number_of_links self.link_length self.hinge_mass self.link_stiffness force temperature)

/-- `src/physics/single_chain/efjc/thermodynamics/isotensional/legendre/py.rs` lines 79-82. -/
def EFJC.helmholtz_free_energy_per_link (self : Polymers.Python.efjc.thermodynamics.isotensional.legendre.EFJC α) (force : NdArray α) (temperature : α) : NdArray α :=
  NdArray.mapv force (fun (force : α) => Polymers.efjc.thermodynamics.isotensional.legendre.helmholtz_free_energy_per_link self.link_length self.hinge_mass self.link_stiffness force temperature)

/-- `src/physics/single_chain/efjc/thermodynamics/isotensional/legendre/py.rs` lines 92-95. -/
def EFJC.relative_helmholtz_free_energy (self : Polymers.Python.efjc.thermodynamics.isotensional.legendre.EFJC α) (force : NdArray α) (temperature : α) : NdArray α :=
  NdArray.mapv force (fun (force : α) => Polymers.efjc.thermodynamics.isotensional.legendre.relative_helmholtz_free_energy self.number_of_links self.link_length self.link_stiffness force temperature)

/-- `src/physics/single_chain/efjc/thermodynamics/isotensional/legendre/py.rs` lines 105-108. -/
def EFJC.relative_helmholtz_free_energy_per_link (self : Polymers.Python.efjc.thermodynamics.isotensional.legendre.EFJC α) (force : NdArray α) (temperature : α) : NdArray α :=
  NdArray.mapv force (fun (force : α) => Polymers.efjc.thermodynamics.isotensional.legendre.relative_helmholtz_free_energy_per_link self.link_length self.link_stiffness force temperature)

/-- `src/physics/single_chain/efjc/thermodynamics/isotensional/legendre/py.rs` lines 118-121. -/
def EFJC.nondimensional_helmholtz_free_energy (self : Polymers.Python.efjc.thermodynamics.isotensional.legendre.EFJC α) (nondimensional_force : NdArray α) (temperature : α) : NdArray α :=
  NdArray.mapv nondimensional_force (fun (nondimensional_force : α) => Polymers.efjc.thermodynamics.isotensional.legendre.nondimensional_helmholtz_free_energy self.number_of_links self.link_length self.hinge_mass (self.link_stiffness * Elem.powi self.link_length 2 / (Polymers.BOLTZMANN_CONSTANT : α) / temperature) nondimensional_force temperature)

/-- `src/physics/single_chain/efjc/thermodynamics/isotensional/legendre/py.rs` lines 131-134. -/
def EFJC.nondimensional_helmholtz_free_energy_per_link (self : Polymers.Python.efjc.thermodynamics.isotensional.legendre.EFJC α) (nondimensional_force : NdArray α) (temperature : α) : NdArray α :=
  NdArray.mapv nondimensional_force (fun (nondimensional_force : α) => Polymers.efjc.thermodynamics.isotensional.legendre.nondimensional_helmholtz_free_energy_per_link self.link_length self.hinge_mass (self.link_stiffness * Elem.powi self.link_length 2 / (Polymers.BOLTZMANN_CONSTANT : α) / temperature) nondimensional_force temperature)

/-- `src/physics/single_chain/efjc/thermodynamics/isotensional/legendre/py.rs` lines 144-147. -/
def EFJC.nondimensional_relative_helmholtz_free_energy (self : Polymers.Python.efjc.thermodynamics.isotensional.legendre.EFJC α) (nondimensional_force : NdArray α) (temperature : α) : NdArray α :=
  NdArray.mapv nondimensional_force (fun (nondimensional_force : α) => Polymers.efjc.thermodynamics.isotensional.legendre.nondimensional_relative_helmholtz_free_energy self.number_of_links (self.link_stiffness * Elem.powi self.link_length 2 / (Polymers.BOLTZMANN_CONSTANT : α) / temperature) nondimensional_force)

/-- `src/physics/single_chain/efjc/thermodynamics/isotensional/legendre/py.rs` lines 157-160. -/
def EFJC.nondimensional_relative_helmholtz_free_energy_per_link (self : Polymers.Python.efjc.thermodynamics.isotensional.legendre.EFJC α) (nondimensional_force : NdArray α) (temperature : α) : NdArray α :=
  NdArray.mapv nondimensional_force (fun (nondimensional_force : α) => Polymers.efjc.thermodynamics.isotensional.legendre.nondimensional_relative_helmholtz_free_energy_per_link (self.link_stiffness * Elem.powi self.link_length 2 / (Polymers.BOLTZMANN_CONSTANT : α) / temperature) nondimensional_force)

end Polymers.Python.efjc.thermodynamics.isotensional.legendre

namespace Polymers.Python.efjc.thermodynamics.isometric

/-- `src/physics/single_chain/efjc/thermodynamics/isometric/py.rs` lines 15-36: struct `EFJC`. -/
structure EFJC (α : Type) where
  /-- field `hinge_mass` -/
  hinge_mass : α
  /-- field `link_length` -/
  link_length : α
  /-- field `number_of_links` -/
  number_of_links : Nat
  /-- field `link_stiffness` -/
  link_stiffness : α
  /-- field `asymptotic` -/
  asymptotic : Polymers.Python.efjc.thermodynamics.isometric.asymptotic.EFJC α

/-- `src/physics/single_chain/efjc/thermodynamics/isometric/py.rs` lines 42-52. -/
def EFJC.init (number_of_links : Nat) (link_length : α) (hinge_mass : α) (link_stiffness : α) : Polymers.Python.efjc.thermodynamics.isometric.EFJC α :=
  { hinge_mass := hinge_mass, link_length := link_length, number_of_links := number_of_links, link_stiffness := link_stiffness, asymptotic := Polymers.Python.efjc.thermodynamics.isometric.asymptotic.EFJC.init number_of_links link_length hinge_mass link_stiffness }

end Polymers.Python.efjc.thermodynamics.isometric

namespace Polymers.Python.efjc.thermodynamics.isotensional

/-- `src/physics/single_chain/efjc/thermodynamics/isotensional/py.rs` lines 23-48: struct `EFJC`. -/
structure EFJC (α : Type) where
  /-- field `hinge_mass` -/
  hinge_mass : α
  /-- field `link_length` -/
  link_length : α
  /-- field `number_of_links` -/
  number_of_links : Nat
  /-- field `link_stiffness` -/
  link_stiffness : α
  /-- field `asymptotic` -/
  asymptotic : Polymers.Python.efjc.thermodynamics.isotensional.asymptotic.EFJC α
  /-- field `legendre` -/
  legendre : Polymers.Python.efjc.thermodynamics.isotensional.legendre.EFJC α

/-- `src/physics/single_chain/efjc/thermodynamics/isotensional/py.rs` lines 54-65. -/
def EFJC.init (number_of_links : Nat) (link_length : α) (hinge_mass : α) (link_stiffness : α) : Polymers.Python.efjc.thermodynamics.isotensional.EFJC α :=
  { hinge_mass := hinge_mass, link_length := link_length, number_of_links := number_of_links, link_stiffness := link_stiffness, asymptotic := Polymers.Python.efjc.thermodynamics.isotensional.asymptotic.EFJC.init number_of_links link_length hinge_mass link_stiffness, legendre := Polymers.Python.efjc.thermodynamics.isotensional.legendre.EFJC.init number_of_links link_length hinge_mass link_stiffness }

/-- `src/physics/single_chain/efjc/thermodynamics/isotensional/py.rs` lines 78-81. -/
def EFJC.end_to_end_length (self : Polymers.Python.efjc.thermodynamics.isotensional.EFJC α) (force : NdArray α) (temperature : α) : NdArray α :=
  NdArray.mapv force (fun (force : α) => Polymers.efjc.thermodynamics.isotensional.end_to_end_length self.number_of_links self.link_length self.link_stiffness force temperature)

/-- `src/physics/single_chain/efjc/thermodynamics/isotensional/py.rs` lines 91-94. -/
def EFJC.end_to_end_length_per_link (self : Polymers.Python.efjc.thermodynamics.isotensional.EFJC α) (force : NdArray α) (temperature : α) : NdArray α :=
  NdArray.mapv force (fun (force : α) => Polymers.efjc.thermodynamics.isotensional.end_to_end_length_per_link self.link_length self.link_stiffness force temperature)

/-- `src/physics/single_chain/efjc/thermodynamics/isotensional/py.rs` lines 104-107. -/
def EFJC.nondimensional_end_to_end_length (self : Polymers.Python.efjc.thermodynamics.isotensional.EFJC α) (nondimensional_force : NdArray α) (temperature : α) : NdArray α :=
  NdArray.mapv nondimensional_force (fun (nondimensional_force : α) => Polymers.efjc.thermodynamics.isotensional.nondimensional_end_to_end_length self.number_of_links (self.link_stiffness * Elem.powi self.link_length 2 / (Polymers.BOLTZMANN_CONSTANT : α) / temperature) nondimensional_force)

/-- `src/physics/single_chain/efjc/thermodynamics/isotensional/py.rs` lines 125-128. -/
def EFJC.nondimensional_end_to_end_length_per_link (self : Polymers.Python.efjc.thermodynamics.isotensional.EFJC α) (nondimensional_force : NdArray α) (temperature : α) : NdArray α :=
  NdArray.mapv nondimensional_force (fun (nondimensional_force : α) => Polymers.efjc.thermodynamics.isotensional.nondimensional_end_to_end_length_per_link (self.link_stiffness * Elem.powi self.link_length 2 / (Polymers.BOLTZMANN_CONSTANT : α) / temperature) nondimensional_force)

/-- `src/physics/single_chain/efjc/thermodynamics/isotensional/py.rs` lines 141-144. -/
def EFJC.gibbs_free_energy (self : Polymers.Python.efjc.thermodynamics.isotensional.EFJC α) (force : NdArray α) (temperature : α) : NdArray α :=
  NdArray.mapv force (fun (force : α) => Polymers.efjc.thermodynamics.isotensional.gibbs_free_energy self.number_of_links self.link_length self.hinge_mass self.link_stiffness force temperature)

/-- `src/physics/single_chain/efjc/thermodynamics/isotensional/py.rs` lines 154-157. -/
def EFJC.gibbs_free_energy_per_link (self : Polymers.Python.efjc.thermodynamics.isotensional.EFJC α) (force : NdArray α) (temperature : α) : NdArray α :=
  NdArray.mapv force (fun (force : α) => Polymers.efjc.thermodynamics.isotensional.gibbs_free_energy_per_link self.link_length self.hinge_mass self.link_stiffness force temperature)

/-- `src/physics/single_chain/efjc/thermodynamics/isotensional/py.rs` lines 167-170. -/
def EFJC.relative_gibbs_free_energy (self : Polymers.Python.efjc.thermodynamics.isotensional.EFJC α) (force : NdArray α) (temperature : α) : NdArray α :=
  NdArray.mapv force (fun (force : α) => Polymers.efjc.thermodynamics.isotensional.relative_gibbs_free_energy self.number_of_links self.link_length self.link_stiffness force temperature)

/-- `src/physics/single_chain/efjc/thermodynamics/isotensional/py.rs` lines 180-183. -/
def EFJC.relative_gibbs_free_energy_per_link (self : Polymers.Python.efjc.thermodynamics.isotensional.EFJC α) (force : NdArray α) (temperature : α) : NdArray α :=
  NdArray.mapv force (fun (force : α) => Polymers.efjc.thermodynamics.isotensional.relative_gibbs_free_energy_per_link self.link_length self.link_stiffness force temperature)

/-- `src/physics/single_chain/efjc/thermodynamics/isotensional/py.rs` lines 193-196. -/
def EFJC.nondimensional_gibbs_free_energy (self : Polymers.Python.efjc.thermodynamics.isotensional.EFJC α) (nondimensional_force : NdArray α) (temperature : α) : NdArray α :=
  NdArray.mapv nondimensional_force (fun (nondimensional_force : α) => Polymers.efjc.thermodynamics.isotensional.nondimensional_gibbs_free_energy self.number_of_links self.link_length self.hinge_mass (self.link_stiffness * Elem.powi self.link_length 2 / (Polymers.BOLTZMANN_CONSTANT : α) / temperature) nondimensional_force temperature)

/-- `src/physics/single_chain/efjc/thermodynamics/isotensional/py.rs` lines 206-209. -/
def EFJC.nondimensional_gibbs_free_energy_per_link (self : Polymers.Python.efjc.thermodynamics.isotensional.EFJC α) (nondimensional_force : NdArray α) (temperature : α) : NdArray α :=
  NdArray.mapv nondimensional_force (fun (nondimensional_force : α) => Polymers.efjc.thermodynamics.isotensional.nondimensional_gibbs_free_energy_per_link self.link_length self.hinge_mass (self.link_stiffness * Elem.powi self.link_length 2 / (Polymers.BOLTZMANN_CONSTANT : α) / temperature) nondimensional_force temperature)

/-- `src/physics/single_chain/efjc/thermodynamics/isotensional/py.rs` lines 219-222. -/
def EFJC.nondimensional_relative_gibbs_free_energy (self : Polymers.Python.efjc.thermodynamics.isotensional.EFJC α) (nondimensional_force : NdArray α) (temperature : α) : NdArray α :=
  NdArray.mapv nondimensional_force (fun (nondimensional_force : α) => Polymers.efjc.thermodynamics.isotensional.nondimensional_relative_gibbs_free_energy self.number_of_links (self.link_stiffness * Elem.powi self.link_length 2 / (Polymers.BOLTZMANN_CONSTANT : α) / temperature) nondimensional_force)

/-- `src/physics/single_chain/efjc/thermodynamics/isotensional/py.rs` lines 240-243. -/
def EFJC.nondimensional_relative_gibbs_free_energy_per_link (self : Polymers.Python.efjc.thermodynamics.isotensional.EFJC α) (nondimensional_force : NdArray α) (temperature : α) : NdArray α :=
  NdArray.mapv nondimensional_force (fun (nondimensional_force : α) => Polymers.efjc.thermodynamics.isotensional.nondimensional_relative_gibbs_free_energy_per_link (self.link_stiffness * Elem.powi self.link_length 2 / (Polymers.BOLTZMANN_CONSTANT : α) / temperature) nondimensional_force)

end Polymers.Python.efjc.thermodynamics.isotensional

namespace Polymers.Python.efjc.thermodynamics

/-- `src/physics/single_chain/efjc/thermodynamics/py.rs` lines 16-41: struct `EFJC`. -/
structure EFJC (α : Type) where
  /-- field `hinge_mass` -/
  hinge_mass : α
  /-- field `link_length` -/
  link_length : α
  /-- field `number_of_links` -/
  number_of_links : Nat
  /-- field `link_stiffness` -/
  link_stiffness : α
  /-- field `isometric` -/
  isometric : Polymers.Python.efjc.thermodynamics.isometric.EFJC α
  /-- field `isotensional` -/
  isotensional : Polymers.Python.efjc.thermodynamics.isotensional.EFJC α

/-- `src/physics/single_chain/efjc/thermodynamics/py.rs` lines 47-58. -/
def EFJC.init (number_of_links : Nat) (link_length : α) (hinge_mass : α) (link_stiffness : α) : Polymers.Python.efjc.thermodynamics.EFJC α :=
  { hinge_mass := hinge_mass, link_length := link_length, number_of_links := number_of_links, link_stiffness := link_stiffness, isometric := Polymers.Python.efjc.thermodynamics.isometric.EFJC.init number_of_links link_length hinge_mass link_stiffness, isotensional := Polymers.Python.efjc.thermodynamics.isotensional.EFJC.init number_of_links link_length hinge_mass link_stiffness }

end Polymers.Python.efjc.thermodynamics

namespace Polymers.Python.efjc

/-- `src/physics/single_chain/efjc/py.rs` lines 14-35: struct `EFJC`. -/
structure EFJC (α : Type) where
  /-- field `hinge_mass` -/
  hinge_mass : α
  /-- field `link_length` -/
  link_length : α
  /-- field `number_of_links` -/
  number_of_links : Nat
  /-- field `link_stiffness` -/
  link_stiffness : α
  /-- field `thermodynamics` -/
  thermodynamics : Polymers.Python.efjc.thermodynamics.EFJC α

/-- `src/physics/single_chain/efjc/py.rs` lines 41-51. -/
def EFJC.init (number_of_links : Nat) (link_length : α) (hinge_mass : α) (link_stiffness : α) : Polymers.Python.efjc.EFJC α :=
  { hinge_mass := hinge_mass, link_length := link_length, number_of_links := number_of_links, link_stiffness := link_stiffness, thermodynamics := Polymers.Python.efjc.thermodynamics.EFJC.init number_of_links link_length hinge_mass link_stiffness }

end Polymers.Python.efjc
