/- Generated by tools/py2lean.py from the py.rs files of /repo/src/physics/single_chain/ufjc/log_squared ; do not edit by hand. -/
import Verif.Model.LogSquared
import Verif.Model.PythonBase

set_option linter.unusedVariables false

open Polymers

variable {α : Type} [Add α] [Sub α] [Mul α] [Div α] [Neg α] [OfScientific α] [NatCast α] [Elem α]

namespace Polymers.Python.ufjc.log_squared.thermodynamics.isometric.asymptotic.reduced.legendre

/-- `src/physics/single_chain/ufjc/log_squared/thermodynamics/isometric/asymptotic/reduced/legendre/py.rs` lines 21-38: struct `LOGSQUAREDFJC`. -/
structure LOGSQUAREDFJC (α : Type) where
  /-- field `hinge_mass` -/
  hinge_mass : α
  /-- field `link_length` -/
  link_length : α
  /-- field `number_of_links` -/
  number_of_links : Nat
  /-- field `link_stiffness` -/
  link_stiffness : α

/-- `src/physics/single_chain/ufjc/log_squared/thermodynamics/isometric/asymptotic/reduced/legendre/py.rs` lines 44-53. -/
def LOGSQUAREDFJC.init (number_of_links : Nat) (link_length : α) (hinge_mass : α) (link_stiffness : α) : Polymers.Python.ufjc.log_squared.thermodynamics.isometric.asymptotic.reduced.legendre.LOGSQUAREDFJC α :=
  { hinge_mass := hinge_mass, link_length := link_length, number_of_links := number_of_links, link_stiffness := link_stiffness }

/-- `src/physics/single_chain/ufjc/log_squared/thermodynamics/isometric/asymptotic/reduced/legendre/py.rs` lines 63-66. -/
def LOGSQUAREDFJC.force (self : Polymers.Python.ufjc.log_squared.thermodynamics.isometric.asymptotic.reduced.legendre.LOGSQUAREDFJC α) (end_to_end_length : NdArray α) (temperature : α) : NdArray α :=
  NdArray.mapv end_to_end_length (fun (end_to_end_length : α) => Polymers.ufjc.log_squared.thermodynamics.isometric.asymptotic.reduced.legendre.force self.number_of_links self.link_length self.link_stiffness end_to_end_length temperature)

/-- `src/physics/single_chain/ufjc/log_squared/thermodynamics/isometric/asymptotic/reduced/legendre/py.rs` lines 75-78. -/
def LOGSQUAREDFJC.nondimensional_force (self : Polymers.Python.ufjc.log_squared.thermodynamics.isometric.asymptotic.reduced.legendre.LOGSQUAREDFJC α) (nondimensional_end_to_end_length_per_link : NdArray α) (temperature : α) : NdArray α :=
  NdArray.mapv nondimensional_end_to_end_length_per_link (fun (nondimensional_end_to_end_length_per_link : α) => Polymers.ufjc.log_squared.thermodynamics.isometric.asymptotic.reduced.legendre.nondimensional_force (self.link_stiffness * Elem.powi self.link_length 2 / (Polymers.BOLTZMANN_CONSTANT : α) / temperature) nondimensional_end_to_end_length_per_link)

/-- `src/physics/single_chain/ufjc/log_squared/thermodynamics/isometric/asymptotic/reduced/legendre/py.rs` lines 93-96. -/
def LOGSQUAREDFJC.helmholtz_free_energy (self : Polymers.Python.ufjc.log_squared.thermodynamics.isometric.asymptotic.reduced.legendre.LOGSQUAREDFJC α) (end_to_end_length : NdArray α) (temperature : α) : NdArray α :=
  NdArray.mapv end_to_end_length (fun (end_to_end_length : α) => Polymers.ufjc.log_squared.thermodynamics.isometric.asymptotic.reduced.legendre.helmholtz_free_energy self.number_of_links self.link_length self.hinge_mass self.link_stiffness end_to_end_length temperature)

/-- `src/physics/single_chain/ufjc/log_squared/thermodynamics/isometric/asymptotic/reduced/legendre/py.rs` lines 106-109. -/
def LOGSQUAREDFJC.helmholtz_free_energy_per_link (self : Polymers.Python.ufjc.log_squared.thermodynamics.isometric.asymptotic.reduced.legendre.LOGSQUAREDFJC α) (end_to_end_length : NdArray α) (temperature : α) : NdArray α :=
  NdArray.mapv end_to_end_length (fun (end_to_end_length : α) => Polymers.ufjc.log_squared.thermodynamics.isometric.asymptotic.reduced.legendre.helmholtz_free_energy_per_link self.number_of_links self.link_length self.hinge_mass self.link_stiffness end_to_end_length temperature)

/-- `src/physics/single_chain/ufjc/log_squared/thermodynamics/isometric/asymptotic/reduced/legendre/py.rs` lines 119-122. -/
def LOGSQUAREDFJC.relative_helmholtz_free_energy (self : Polymers.Python.ufjc.log_squared.thermodynamics.isometric.asymptotic.reduced.legendre.LOGSQUAREDFJC α) (end_to_end_length : NdArray α) (temperature : α) : NdArray α :=
  NdArray.mapv end_to_end_length (fun (end_to_end_length : α) => Polymers.ufjc.log_squared.thermodynamics.isometric.asymptotic.reduced.legendre.relative_helmholtz_free_energy self.number_of_links self.link_length self.link_stiffness end_to_end_length temperature)

/-- `src/physics/single_chain/ufjc/log_squared/thermodynamics/isometric/asymptotic/reduced/legendre/py.rs` lines 132-135. -/
def LOGSQUAREDFJC.relative_helmholtz_free_energy_per_link (self : Polymers.Python.ufjc.log_squared.thermodynamics.isometric.asymptotic.reduced.legendre.LOGSQUAREDFJC α) (end_to_end_length : NdArray α) (temperature : α) : NdArray α :=
  NdArray.mapv end_to_end_length (fun (end_to_end_length : α) => Polymers.ufjc.log_squared.thermodynamics.isometric.asymptotic.reduced.legendre.relative_helmholtz_free_energy_per_link self.number_of_links self.link_length self.link_stiffness end_to_end_length temperature)

/-- `src/physics/single_chain/ufjc/log_squared/thermodynamics/isometric/asymptotic/reduced/legendre/py.rs` lines 145-148. -/
def LOGSQUAREDFJC.nondimensional_helmholtz_free_energy (self : Polymers.Python.ufjc.log_squared.thermodynamics.isometric.asymptotic.reduced.legendre.LOGSQUAREDFJC α) (nondimensional_end_to_end_length_per_link : NdArray α) (temperature : α) : NdArray α :=
  NdArray.mapv nondimensional_end_to_end_length_per_link (fun (nondimensional_end_to_end_length_per_link : α) => Polymers.ufjc.log_squared.thermodynamics.isometric.asymptotic.reduced.legendre.nondimensional_helmholtz_free_energy self.number_of_links self.link_length self.hinge_mass (self.link_stiffness * Elem.powi self.link_length 2 / (Polymers.BOLTZMANN_CONSTANT : α) / temperature) nondimensional_end_to_end_length_per_link temperature)

/-- `src/physics/single_chain/ufjc/log_squared/thermodynamics/isometric/asymptotic/reduced/legendre/py.rs` lines 158-161. -/
def LOGSQUAREDFJC.nondimensional_helmholtz_free_energy_per_link (self : Polymers.Python.ufjc.log_squared.thermodynamics.isometric.asymptotic.reduced.legendre.LOGSQUAREDFJC α) (nondimensional_end_to_end_length_per_link : NdArray α) (temperature : α) : NdArray α :=
  NdArray.mapv nondimensional_end_to_end_length_per_link (fun (nondimensional_end_to_end_length_per_link : α) => Polymers.ufjc.log_squared.thermodynamics.isometric.asymptotic.reduced.legendre.nondimensional_helmholtz_free_energy_per_link self.number_of_links self.link_length self.hinge_mass (self.link_stiffness * Elem.powi self.link_length 2 / (Polymers.BOLTZMANN_CONSTANT : α) / temperature) nondimensional_end_to_end_length_per_link temperature)

/-- `src/physics/single_chain/ufjc/log_squared/thermodynamics/isometric/asymptotic/reduced/legendre/py.rs` lines 170-173. -/
def LOGSQUAREDFJC.nondimensional_relative_helmholtz_free_energy (self : Polymers.Python.ufjc.log_squared.thermodynamics.isometric.asymptotic.reduced.legendre.LOGSQUAREDFJC α) (nondimensional_end_to_end_length_per_link : NdArray α) (temperature : α) : NdArray α :=
  NdArray.mapv nondimensional_end_to_end_length_per_link (fun (nondimensional_end_to_end_length_per_link : α) => Polymers.ufjc.log_squared.thermodynamics.isometric.asymptotic.reduced.legendre.nondimensional_relative_helmholtz_free_energy self.number_of_links (self.link_stiffness * Elem.powi self.link_length 2 / (Polymers.BOLTZMANN_CONSTANT : α) / temperature) nondimensional_end_to_end_length_per_link)

/-- `src/physics/single_chain/ufjc/log_squared/thermodynamics/isometric/asymptotic/reduced/legendre/py.rs` lines 182-185. -/
def LOGSQUAREDFJC.nondimensional_relative_helmholtz_free_energy_per_link (self : Polymers.Python.ufjc.log_squared.thermodynamics.isometric.asymptotic.reduced.legendre.LOGSQUAREDFJC α) (nondimensional_end_to_end_length_per_link : NdArray α) (temperature : α) : NdArray α :=
  NdArray.mapv nondimensional_end_to_end_length_per_link (fun (nondimensional_end_to_end_length_per_link : α) => Polymers.ufjc.log_squared.thermodynamics.isometric.asymptotic.reduced.legendre.nondimensional_relative_helmholtz_free_energy_per_link (self.link_stiffness * Elem.powi self.link_length 2 / (Polymers.BOLTZMANN_CONSTANT : α) / temperature) nondimensional_end_to_end_length_per_link)

end Polymers.Python.ufjc.log_squared.thermodynamics.isometric.asymptotic.reduced.legendre

namespace Polymers.Python.ufjc.log_squared.thermodynamics.isotensional.asymptotic.reduced.legendre

/-- `src/physics/single_chain/ufjc/log_squared/thermodynamics/isotensional/asymptotic/reduced/legendre/py.rs` lines 21-38: struct `LOGSQUAREDFJC`. -/
structure LOGSQUAREDFJC (α : Type) where
  /-- field `hinge_mass` -/
  hinge_mass : α
  /-- field `link_length` -/
  link_length : α
  /-- field `number_of_links` -/
  number_of_links : Nat
  /-- field `link_stiffness` -/
  link_stiffness : α

/-- `src/physics/single_chain/ufjc/log_squared/thermodynamics/isotensional/asymptotic/reduced/legendre/py.rs` lines 44-53. -/
def LOGSQUAREDFJC.init (number_of_links : Nat) (link_length : α) (hinge_mass : α) (link_stiffness : α) : Polymers.Python.ufjc.log_squared.thermodynamics.isotensional.asymptotic.reduced.legendre.LOGSQUAREDFJC α :=
  { hinge_mass := hinge_mass, link_length := link_length, number_of_links := number_of_links, link_stiffness := link_stiffness }

/-- `src/physics/single_chain/ufjc/log_squared/thermodynamics/isotensional/asymptotic/reduced/legendre/py.rs` lines 66-69. -/
def LOGSQUAREDFJC.helmholtz_free_energy (self : Polymers.Python.ufjc.log_squared.thermodynamics.isotensional.asymptotic.reduced.legendre.LOGSQUAREDFJC α) (force : NdArray α) (temperature : α) : NdArray α :=
  NdArray.mapv force (fun (force : α) => Polymers.ufjc.log_squared.thermodynamics.isotensional.asymptotic.reduced.legendre.helmholtz_free_energy self.number_of_links self.link_length self.hinge_mass self.link_stiffness force temperature)

/-- `src/physics/single_chain/ufjc/log_squared/thermodynamics/isotensional/asymptotic/reduced/legendre/py.rs` lines 79-82. -/
def LOGSQUAREDFJC.helmholtz_free_energy_per_link (self : Polymers.Python.ufjc.log_squared.thermodynamics.isotensional.asymptotic.reduced.legendre.LOGSQUAREDFJC α) (force : NdArray α) (temperature : α) : NdArray α :=
  NdArray.mapv force (fun (force : α) => Polymers.ufjc.log_squared.thermodynamics.isotensional.asymptotic.reduced.legendre.helmholtz_free_energy_per_link self.link_length self.hinge_mass self.link_stiffness force temperature)

/-- `src/physics/single_chain/ufjc/log_squared/thermodynamics/isotensional/asymptotic/reduced/legendre/py.rs` lines 92-95. -/
def LOGSQUAREDFJC.relative_helmholtz_free_energy (self : Polymers.Python.ufjc.log_squared.thermodynamics.isotensional.asymptotic.reduced.legendre.LOGSQUAREDFJC α) (force : NdArray α) (temperature : α) : NdArray α :=
  NdArray.mapv force (fun (force : α) => Polymers.ufjc.log_squared.thermodynamics.isotensional.asymptotic.reduced.legendre.relative_helmholtz_free_energy self.number_of_links self.link_length self.link_stiffness force temperature)

/-- `src/physics/single_chain/ufjc/log_squared/thermodynamics/isotensional/asymptotic/reduced/legendre/py.rs` lines 105-108. -/
def LOGSQUAREDFJC.relative_helmholtz_free_energy_per_link (self : Polymers.Python.ufjc.log_squared.thermodynamics.isotensional.asymptotic.reduced.legendre.LOGSQUAREDFJC α) (force : NdArray α) (temperature : α) : NdArray α :=
  NdArray.mapv force (fun (force : α) => Polymers.ufjc.log_squared.thermodynamics.isotensional.asymptotic.reduced.legendre.relative_helmholtz_free_energy_per_link self.link_length self.link_stiffness force temperature)

/-- `src/physics/single_chain/ufjc/log_squared/thermodynamics/isotensional/asymptotic/reduced/legendre/py.rs` lines 118-121. -/
def LOGSQUAREDFJC.nondimensional_helmholtz_free_energy (self : Polymers.Python.ufjc.log_squared.thermodynamics.isotensional.asymptotic.reduced.legendre.LOGSQUAREDFJC α) (nondimensional_force : NdArray α) (temperature : α) : NdArray α :=
  NdArray.mapv nondimensional_force (fun (nondimensional_force : α) => Polymers.ufjc.log_squared.thermodynamics.isotensional.asymptotic.reduced.legendre.nondimensional_helmholtz_free_energy self.number_of_links self.link_length self.hinge_mass (self.link_stiffness * Elem.powi self.link_length 2 / (Polymers.BOLTZMANN_CONSTANT : α) / temperature) nondimensional_force temperature)

/-- `src/physics/single_chain/ufjc/log_squared/thermodynamics/isotensional/asymptotic/reduced/legendre/py.rs` lines 131-134. -/
def LOGSQUAREDFJC.nondimensional_helmholtz_free_energy_per_link (self : Polymers.Python.ufjc.log_squared.thermodynamics.isotensional.asymptotic.reduced.legendre.LOGSQUAREDFJC α) (nondimensional_force : NdArray α) (temperature : α) : NdArray α :=
  NdArray.mapv nondimensional_force (fun (nondimensional_force : α) => Polymers.ufjc.log_squared.thermodynamics.isotensional.asymptotic.reduced.legendre.nondimensional_helmholtz_free_energy_per_link self.link_length self.hinge_mass (self.link_stiffness * Elem.powi self.link_length 2 / (Polymers.BOLTZMANN_CONSTANT : α) / temperature) nondimensional_force temperature)

/-- `src/physics/single_chain/ufjc/log_squared/thermodynamics/isotensional/asymptotic/reduced/legendre/py.rs` lines 144-147. -/
def LOGSQUAREDFJC.nondimensional_relative_helmholtz_free_energy (self : Polymers.Python.ufjc.log_squared.thermodynamics.isotensional.asymptotic.reduced.legendre.LOGSQUAREDFJC α) (nondimensional_force : NdArray α) (temperature : α) : NdArray α :=
  NdArray.mapv nondimensional_force (fun (nondimensional_force : α) => Polymers.ufjc.log_squared.thermodynamics.isotensional.asymptotic.reduced.legendre.nondimensional_relative_helmholtz_free_energy self.number_of_links (self.link_stiffness * Elem.powi self.link_length 2 / (Polymers.BOLTZMANN_CONSTANT : α) / temperature) nondimensional_force)

/-- `src/physics/single_chain/ufjc/log_squared/thermodynamics/isotensional/asymptotic/reduced/legendre/py.rs` lines 157-160. -/
def LOGSQUAREDFJC.nondimensional_relative_helmholtz_free_energy_per_link (self : Polymers.Python.ufjc.log_squared.thermodynamics.isotensional.asymptotic.reduced.legendre.LOGSQUAREDFJC α) (nondimensional_force : NdArray α) (temperature : α) : NdArray α :=
  NdArray.mapv nondimensional_force (fun (nondimensional_force : α) => Polymers.ufjc.log_squared.thermodynamics.isotensional.asymptotic.reduced.legendre.nondimensional_relative_helmholtz_free_energy_per_link (self.link_stiffness * Elem.powi self.link_length 2 / (Polymers.BOLTZMANN_CONSTANT : α) / temperature) nondimensional_force)

end Polymers.Python.ufjc.log_squared.thermodynamics.isotensional.asymptotic.reduced.legendre

namespace Polymers.Python.ufjc.log_squared.thermodynamics.isometric.asymptotic.legendre

/-- `src/physics/single_chain/ufjc/log_squared/thermodynamics/isometric/asymptotic/legendre/py.rs` lines 21-38: struct `LOGSQUAREDFJC`. -/
structure LOGSQUAREDFJC (α : Type) where
  /-- field `hinge_mass` -/
  hinge_mass : α
  /-- field `link_length` -/
  link_length : α
  /-- field `number_of_links` -/
  number_of_links : Nat
  /-- field `link_stiffness` -/
  link_stiffness : α

/-- `src/physics/single_chain/ufjc/log_squared/thermodynamics/isometric/asymptotic/legendre/py.rs` lines 44-53. -/
def LOGSQUAREDFJC.init (number_of_links : Nat) (link_length : α) (hinge_mass : α) (link_stiffness : α) : Polymers.Python.ufjc.log_squared.thermodynamics.isometric.asymptotic.legendre.LOGSQUAREDFJC α :=
  { hinge_mass := hinge_mass, link_length := link_length, number_of_links := number_of_links, link_stiffness := link_stiffness }

/-- `src/physics/single_chain/ufjc/log_squared/thermodynamics/isometric/asymptotic/legendre/py.rs` lines 63-66. -/
def LOGSQUAREDFJC.force (self : Polymers.Python.ufjc.log_squared.thermodynamics.isometric.asymptotic.legendre.LOGSQUAREDFJC α) (end_to_end_length : NdArray α) (temperature : α) : NdArray α :=
  NdArray.mapv end_to_end_length (fun (end_to_end_length : α) => Polymers.ufjc.log_squared.thermodynamics.isometric.asymptotic.legendre.force self.number_of_links self.link_length self.link_stiffness end_to_end_length temperature)

/-- `src/physics/single_chain/ufjc/log_squared/thermodynamics/isometric/asymptotic/legendre/py.rs` lines 75-78. -/
def LOGSQUAREDFJC.nondimensional_force (self : Polymers.Python.ufjc.log_squared.thermodynamics.isometric.asymptotic.legendre.LOGSQUAREDFJC α) (nondimensional_end_to_end_length_per_link : NdArray α) (temperature : α) : NdArray α :=
  NdArray.mapv nondimensional_end_to_end_length_per_link (fun (nondimensional_end_to_end_length_per_link : α) => Polymers.ufjc.log_squared.thermodynamics.isometric.asymptotic.legendre.nondimensional_force (self.link_stiffness * Elem.powi self.link_length 2 / (Polymers.BOLTZMANN_CONSTANT : α) / temperature) nondimensional_end_to_end_length_per_link)

/-- `src/physics/single_chain/ufjc/log_squared/thermodynamics/isometric/asymptotic/legendre/py.rs` lines 93-96. -/
def LOGSQUAREDFJC.helmholtz_free_energy (self : Polymers.Python.ufjc.log_squared.thermodynamics.isometric.asymptotic.legendre.LOGSQUAREDFJC α) (end_to_end_length : NdArray α) (temperature : α) : NdArray α :=
  NdArray.mapv end_to_end_length (fun (end_to_end_length : α) => Polymers.ufjc.log_squared.thermodynamics.isometric.asymptotic.legendre.helmholtz_free_energy self.number_of_links self.link_length self.hinge_mass self.link_stiffness end_to_end_length temperature)

/-- `src/physics/single_chain/ufjc/log_squared/thermodynamics/isometric/asymptotic/legendre/py.rs` lines 106-109. -/
def LOGSQUAREDFJC.helmholtz_free_energy_per_link (self : Polymers.Python.ufjc.log_squared.thermodynamics.isometric.asymptotic.legendre.LOGSQUAREDFJC α) (end_to_end_length : NdArray α) (temperature : α) : NdArray α :=
  NdArray.mapv end_to_end_length (fun (end_to_end_length : α) => Polymers.ufjc.log_squared.thermodynamics.isometric.asymptotic.legendre.helmholtz_free_energy_per_link self.number_of_links self.link_length self.hinge_mass self.link_stiffness end_to_end_length temperature)

/-- `src/physics/single_chain/ufjc/log_squared/thermodynamics/isometric/asymptotic/legendre/py.rs` lines 119-122. -/
def LOGSQUAREDFJC.relative_helmholtz_free_energy (self : Polymers.Python.ufjc.log_squared.thermodynamics.isometric.asymptotic.legendre.LOGSQUAREDFJC α) (end_to_end_length : NdArray α) (temperature : α) : NdArray α :=
  NdArray.mapv end_to_end_length (fun (end_to_end_length : α) => Polymers.ufjc.log_squared.thermodynamics.isometric.asymptotic.legendre.relative_helmholtz_free_energy self.number_of_links self.link_length self.link_stiffness end_to_end_length temperature)

/-- `src/physics/single_chain/ufjc/log_squared/thermodynamics/isometric/asymptotic/legendre/py.rs` lines 132-135. -/
def LOGSQUAREDFJC.relative_helmholtz_free_energy_per_link (self : Polymers.Python.ufjc.log_squared.thermodynamics.isometric.asymptotic.legendre.LOGSQUAREDFJC α) (end_to_end_length : NdArray α) (temperature : α) : NdArray α :=
  NdArray.mapv end_to_end_length (fun (end_to_end_length : α) => Polymers.ufjc.log_squared.thermodynamics.isometric.asymptotic.legendre.relative_helmholtz_free_energy_per_link self.number_of_links self.link_length self.link_stiffness end_to_end_length temperature)

/-- `src/physics/single_chain/ufjc/log_squared/thermodynamics/isometric/asymptotic/legendre/py.rs` lines 145-148. -/
def LOGSQUAREDFJC.nondimensional_helmholtz_free_energy (self : Polymers.Python.ufjc.log_squared.thermodynamics.isometric.asymptotic.legendre.LOGSQUAREDFJC α) (nondimensional_end_to_end_length_per_link : NdArray α) (temperature : α) : NdArray α :=
  NdArray.mapv nondimensional_end_to_end_length_per_link (fun (nondimensional_end_to_end_length_per_link : α) => Polymers.ufjc.log_squared.thermodynamics.isometric.asymptotic.legendre.nondimensional_helmholtz_free_energy self.number_of_links self.link_length self.hinge_mass (self.link_stiffness * Elem.powi self.link_length 2 / (Polymers.BOLTZMANN_CONSTANT : α) / temperature) nondimensional_end_to_end_length_per_link temperature)

/-- `src/physics/single_chain/ufjc/log_squared/thermodynamics/isometric/asymptotic/legendre/py.rs` lines 158-161. -/
def LOGSQUAREDFJC.nondimensional_helmholtz_free_energy_per_link (self : Polymers.Python.ufjc.log_squared.thermodynamics.isometric.asymptotic.legendre.LOGSQUAREDFJC α) (nondimensional_end_to_end_length_per_link : NdArray α) (temperature : α) : NdArray α :=
  NdArray.mapv nondimensional_end_to_end_length_per_link (fun (nondimensional_end_to_end_length_per_link : α) => Polymers.ufjc.log_squared.thermodynamics.isometric.asymptotic.legendre.nondimensional_helmholtz_free_energy_per_link self.number_of_links self.link_length self.hinge_mass (self.link_stiffness * Elem.powi self.link_length 2 / (Polymers.BOLTZMANN_CONSTANT : α) / temperature) nondimensional_end_to_end_length_per_link temperature)

/-- `src/physics/single_chain/ufjc/log_squared/thermodynamics/isometric/asymptotic/legendre/py.rs` lines 170-173. -/
def LOGSQUAREDFJC.nondimensional_relative_helmholtz_free_energy (self : Polymers.Python.ufjc.log_squared.thermodynamics.isometric.asymptotic.legendre.LOGSQUAREDFJC α) (nondimensional_end_to_end_length_per_link : NdArray α) (temperature : α) : NdArray α :=
  NdArray.mapv nondimensional_end_to_end_length_per_link (fun (nondimensional_end_to_end_length_per_link : α) => Polymers.ufjc.log_squared.thermodynamics.isometric.asymptotic.legendre.nondimensional_relative_helmholtz_free_energy self.number_of_links (self.link_stiffness * Elem.powi self.link_length 2 / (Polymers.BOLTZMANN_CONSTANT : α) / temperature) nondimensional_end_to_end_length_per_link)

/-- `src/physics/single_chain/ufjc/log_squared/thermodynamics/isometric/asymptotic/legendre/py.rs` lines 182-185. -/
def LOGSQUAREDFJC.nondimensional_relative_helmholtz_free_energy_per_link (self : Polymers.Python.ufjc.log_squared.thermodynamics.isometric.asymptotic.legendre.LOGSQUAREDFJC α) (nondimensional_end_to_end_length_per_link : NdArray α) (temperature : α) : NdArray α :=
  NdArray.mapv nondimensional_end_to_end_length_per_link (fun (nondimensional_end_to_end_length_per_link : α) => Polymers.ufjc.log_squared.thermodynamics.isometric.asymptotic.legendre.nondimensional_relative_helmholtz_free_energy_per_link (self.link_stiffness * Elem.powi self.link_length 2 / (Polymers.BOLTZMANN_CONSTANT : α) / temperature) nondimensional_end_to_end_length_per_link)

end Polymers.Python.ufjc.log_squared.thermodynamics.isometric.asymptotic.legendre

namespace Polymers.Python.ufjc.log_squared.thermodynamics.isometric.asymptotic.reduced

/-- `src/physics/single_chain/ufjc/log_squared/thermodynamics/isometric/asymptotic/reduced/py.rs` lines 15-36: struct `LOGSQUAREDFJC`. -/
structure LOGSQUAREDFJC (α : Type) where
  /-- field `hinge_mass` -/
  hinge_mass : α
  /-- field `link_length` -/
  link_length : α
  /-- field `number_of_links` -/
  number_of_links : Nat
  /-- field `link_stiffness` -/
  link_stiffness : α
  /-- field `legendre` -/
  legendre : Polymers.Python.ufjc.log_squared.thermodynamics.isometric.asymptotic.reduced.legendre.LOGSQUAREDFJC α

/-- `src/physics/single_chain/ufjc/log_squared/thermodynamics/isometric/asymptotic/reduced/py.rs` lines 42-52. -/
def LOGSQUAREDFJC.init (number_of_links : Nat) (link_length : α) (hinge_mass : α) (link_stiffness : α) : Polymers.Python.ufjc.log_squared.thermodynamics.isometric.asymptotic.reduced.LOGSQUAREDFJC α :=
  { hinge_mass := hinge_mass, link_length := link_length, number_of_links := number_of_links, link_stiffness := link_stiffness, legendre := Polymers.Python.ufjc.log_squared.thermodynamics.isometric.asymptotic.reduced.legendre.LOGSQUAREDFJC.init number_of_links link_length hinge_mass link_stiffness }

end Polymers.Python.ufjc.log_squared.thermodynamics.isometric.asymptotic.reduced

namespace Polymers.Python.ufjc.log_squared.thermodynamics.isotensional.asymptotic.legendre

/-- `src/physics/single_chain/ufjc/log_squared/thermodynamics/isotensional/asymptotic/legendre/py.rs` lines 21-38: struct `LOGSQUAREDFJC`. -/
structure LOGSQUAREDFJC (α : Type) where
  /-- field `hinge_mass` -/
  hinge_mass : α
  /-- field `link_length` -/
  link_length : α
  /-- field `number_of_links` -/
  number_of_links : Nat
  /-- field `link_stiffness` -/
  link_stiffness : α

/-- `src/physics/single_chain/ufjc/log_squared/thermodynamics/isotensional/asymptotic/legendre/py.rs` lines 44-53. -/
def LOGSQUAREDFJC.init (number_of_links : Nat) (link_length : α) (hinge_mass : α) (link_stiffness : α) : Polymers.Python.ufjc.log_squared.thermodynamics.isotensional.asymptotic.legendre.LOGSQUAREDFJC α :=
  { hinge_mass := hinge_mass, link_length := link_length, number_of_links := number_of_links, link_stiffness := link_stiffness }

/-- `src/physics/single_chain/ufjc/log_squared/thermodynamics/isotensional/asymptotic/legendre/py.rs` lines 66-69. -/
def LOGSQUAREDFJC.helmholtz_free_energy (self : Polymers.Python.ufjc.log_squared.thermodynamics.isotensional.asymptotic.legendre.LOGSQUAREDFJC α) (force : NdArray α) (temperature : α) : NdArray α :=
  NdArray.mapv force (fun (force : α) => Polymers.ufjc.log_squared.thermodynamics.isotensional.asymptotic.legendre.helmholtz_free_energy self.number_of_links self.link_length self.hinge_mass self.link_stiffness force temperature)

/-- `src/physics/single_chain/ufjc/log_squared/thermodynamics/isotensional/asymptotic/legendre/py.rs` lines 79-82. -/
def LOGSQUAREDFJC.helmholtz_free_energy_per_link (self : Polymers.Python.ufjc.log_squared.thermodynamics.isotensional.asymptotic.legendre.LOGSQUAREDFJC α) (force : NdArray α) (temperature : α) : NdArray α :=
  NdArray.mapv force (fun (force : α) => Polymers.ufjc.log_squared.thermodynamics.isotensional.asymptotic.legendre.helmholtz_free_energy_per_link self.link_length self.hinge_mass self.link_stiffness force temperature)

/-- `src/physics/single_chain/ufjc/log_squared/thermodynamics/isotensional/asymptotic/legendre/py.rs` lines 92-95. -/
def LOGSQUAREDFJC.relative_helmholtz_free_energy (self : Polymers.Python.ufjc.log_squared.thermodynamics.isotensional.asymptotic.legendre.LOGSQUAREDFJC α) (force : NdArray α) (temperature : α) : NdArray α :=
  NdArray.mapv force (fun (force : α) => Polymers.ufjc.log_squared.thermodynamics.isotensional.asymptotic.legendre.relative_helmholtz_free_energy self.number_of_links self.link_length self.link_stiffness force temperature)

/-- `src/physics/single_chain/ufjc/log_squared/thermodynamics/isotensional/asymptotic/legendre/py.rs` lines 105-108. -/
def LOGSQUAREDFJC.relative_helmholtz_free_energy_per_link (self : Polymers.Python.ufjc.log_squared.thermodynamics.isotensional.asymptotic.legendre.LOGSQUAREDFJC α) (force : NdArray α) (temperature : α) : NdArray α :=
  NdArray.mapv force (fun (force : α) => Polymers.ufjc.log_squared.thermodynamics.isotensional.asymptotic.legendre.relative_helmholtz_free_energy_per_link self.link_length self.link_stiffness force temperature)

/-- `src/physics/single_chain/ufjc/log_squared/thermodynamics/isotensional/asymptotic/legendre/py.rs` lines 118-121. -/
def LOGSQUAREDFJC.nondimensional_helmholtz_free_energy (self : Polymers.Python.ufjc.log_squared.thermodynamics.isotensional.asymptotic.legendre.LOGSQUAREDFJC α) (nondimensional_force : NdArray α) (temperature : α) : NdArray α :=
  NdArray.mapv nondimensional_force (fun (nondimensional_force : α) => Polymers.ufjc.log_squared.thermodynamics.isotensional.asymptotic.legendre.nondimensional_helmholtz_free_energy self.number_of_links self.link_length self.hinge_mass (self.link_stiffness * Elem.powi self.link_length 2 / (Polymers.BOLTZMANN_CONSTANT : α) / temperature) nondimensional_force temperature)

/-- `src/physics/single_chain/ufjc/log_squared/thermodynamics/isotensional/asymptotic/legendre/py.rs` lines 131-134. -/
def LOGSQUAREDFJC.nondimensional_helmholtz_free_energy_per_link (self : Polymers.Python.ufjc.log_squared.thermodynamics.isotensional.asymptotic.legendre.LOGSQUAREDFJC α) (nondimensional_force : NdArray α) (temperature : α) : NdArray α :=
  NdArray.mapv nondimensional_force (fun (nondimensional_force : α) => Polymers.ufjc.log_squared.thermodynamics.isotensional.asymptotic.legendre.nondimensional_helmholtz_free_energy_per_link self.link_length self.hinge_mass (self.link_stiffness * Elem.powi self.link_length 2 / (Polymers.BOLTZMANN_CONSTANT : α) / temperature) nondimensional_force temperature)

/-- `src/physics/single_chain/ufjc/log_squared/thermodynamics/isotensional/asymptotic/legendre/py.rs` lines 144-147. -/
def LOGSQUAREDFJC.nondimensional_relative_helmholtz_free_energy (self : Polymers.Python.ufjc.log_squared.thermodynamics.isotensional.asymptotic.legendre.LOGSQUAREDFJC α) (nondimensional_force : NdArray α) (temperature : α) : NdArray α :=
  NdArray.mapv nondimensional_force (fun (nondimensional_force : α) => Polymers.ufjc.log_squared.thermodynamics.isotensional.asymptotic.legendre.nondimensional_relative_helmholtz_free_energy self.number_of_links (self.link_stiffness * Elem.powi self.link_length 2 / (Polymers.BOLTZMANN_CONSTANT : α) / temperature) nondimensional_force)

/-- `src/physics/single_chain/ufjc/log_squared/thermodynamics/isotensional/asymptotic/legendre/py.rs` lines 157-160. -/
def LOGSQUAREDFJC.nondimensional_relative_helmholtz_free_energy_per_link (self : Polymers.Python.ufjc.log_squared.thermodynamics.isotensional.asymptotic.legendre.LOGSQUAREDFJC α) (nondimensional_force : NdArray α) (temperature : α) : NdArray α :=
  NdArray.mapv nondimensional_force (fun (nondimensional_force : α) => Polymers.ufjc.log_squared.thermodynamics.isotensional.asymptotic.legendre.nondimensional_relative_helmholtz_free_energy_per_link (self.link_stiffness * Elem.powi self.link_length 2 / (Polymers.BOLTZMANN_CONSTANT : α) / temperature) nondimensional_force)

end Polymers.Python.ufjc.log_squared.thermodynamics.isotensional.asymptotic.legendre

namespace Polymers.Python.ufjc.log_squared.thermodynamics.isotensional.asymptotic.reduced

/-- `src/physics/single_chain/ufjc/log_squared/thermodynamics/isotensional/asymptotic/reduced/py.rs` lines 22-43: struct `LOGSQUAREDFJC`. -/
structure LOGSQUAREDFJC (α : Type) where
  /-- field `hinge_mass` -/
  hinge_mass : α
  /-- field `link_length` -/
  link_length : α
  /-- field `number_of_links` -/
  number_of_links : Nat
  /-- field `link_stiffness` -/
  link_stiffness : α
  /-- field `legendre` -/
  legendre : Polymers.Python.ufjc.log_squared.thermodynamics.isotensional.asymptotic.reduced.legendre.LOGSQUAREDFJC α

/-- `src/physics/single_chain/ufjc/log_squared/thermodynamics/isotensional/asymptotic/reduced/py.rs` lines 49-59. -/
def LOGSQUAREDFJC.init (number_of_links : Nat) (link_length : α) (hinge_mass : α) (link_stiffness : α) : Polymers.Python.ufjc.log_squared.thermodynamics.isotensional.asymptotic.reduced.LOGSQUAREDFJC α :=
  { hinge_mass := hinge_mass, link_length := link_length, number_of_links := number_of_links, link_stiffness := link_stiffness, legendre := Polymers.Python.ufjc.log_squared.thermodynamics.isotensional.asymptotic.reduced.legendre.LOGSQUAREDFJC.init number_of_links link_length hinge_mass link_stiffness }

/-- `src/physics/single_chain/ufjc/log_squared/thermodynamics/isotensional/asymptotic/reduced/py.rs` lines 72-75. -/
def LOGSQUAREDFJC.end_to_end_length (self : Polymers.Python.ufjc.log_squared.thermodynamics.isotensional.asymptotic.reduced.LOGSQUAREDFJC α) (force : NdArray α) (temperature : α) : NdArray α :=
  NdArray.mapv force (fun (force : α) => Polymers.ufjc.log_squared.thermodynamics.isotensional.asymptotic.reduced.end_to_end_length self.number_of_links self.link_length self.link_stiffness force temperature)

/-- `src/physics/single_chain/ufjc/log_squared/thermodynamics/isotensional/asymptotic/reduced/py.rs` lines 85-88. -/
def LOGSQUAREDFJC.end_to_end_length_per_link (self : Polymers.Python.ufjc.log_squared.thermodynamics.isotensional.asymptotic.reduced.LOGSQUAREDFJC α) (force : NdArray α) (temperature : α) : NdArray α :=
  NdArray.mapv force (fun (force : α) => Polymers.ufjc.log_squared.thermodynamics.isotensional.asymptotic.reduced.end_to_end_length_per_link self.link_length self.link_stiffness force temperature)

/-- `src/physics/single_chain/ufjc/log_squared/thermodynamics/isotensional/asymptotic/reduced/py.rs` lines 98-101. -/
def LOGSQUAREDFJC.nondimensional_end_to_end_length (self : Polymers.Python.ufjc.log_squared.thermodynamics.isotensional.asymptotic.reduced.LOGSQUAREDFJC α) (nondimensional_force : NdArray α) (temperature : α) : NdArray α :=
  NdArray.mapv nondimensional_force (fun (nondimensional_force : α) => Polymers.ufjc.log_squared.thermodynamics.isotensional.asymptotic.reduced.nondimensional_end_to_end_length self.number_of_links (self.link_stiffness * Elem.powi self.link_length 2 / (Polymers.BOLTZMANN_CONSTANT : α) / temperature) nondimensional_force)

/-- `src/physics/single_chain/ufjc/log_squared/thermodynamics/isotensional/asymptotic/reduced/py.rs` lines 121-124. -/
def LOGSQUAREDFJC.nondimensional_end_to_end_length_per_link (self : Polymers.Python.ufjc.log_squared.thermodynamics.isotensional.asymptotic.reduced.LOGSQUAREDFJC α) (nondimensional_force : NdArray α) (temperature : α) : NdArray α :=
  NdArray.mapv nondimensional_force (fun (nondimensional_force : α) => Polymers.ufjc.log_squared.thermodynamics.isotensional.asymptotic.reduced.nondimensional_end_to_end_length_per_link (self.link_stiffness * Elem.powi self.link_length 2 / (Polymers.BOLTZMANN_CONSTANT : α) / temperature) nondimensional_force)

/-- `src/physics/single_chain/ufjc/log_squared/thermodynamics/isotensional/asymptotic/reduced/py.rs` lines 137-140. -/
def LOGSQUAREDFJC.gibbs_free_energy (self : Polymers.Python.ufjc.log_squared.thermodynamics.isotensional.asymptotic.reduced.LOGSQUAREDFJC α) (force : NdArray α) (temperature : α) : NdArray α :=
  NdArray.mapv force (fun (force : α) => Polymers.ufjc.log_squared.thermodynamics.isotensional.asymptotic.reduced.gibbs_free_energy self.number_of_links self.link_length self.hinge_mass self.link_stiffness force temperature)

/-- `src/physics/single_chain/ufjc/log_squared/thermodynamics/isotensional/asymptotic/reduced/py.rs` lines 150-153. -/
def LOGSQUAREDFJC.gibbs_free_energy_per_link (self : Polymers.Python.ufjc.log_squared.thermodynamics.isotensional.asymptotic.reduced.LOGSQUAREDFJC α) (force : NdArray α) (temperature : α) : NdArray α :=
  NdArray.mapv force (fun (force : α) => Polymers.ufjc.log_squared.thermodynamics.isotensional.asymptotic.reduced.gibbs_free_energy_per_link self.link_length self.hinge_mass self.link_stiffness force temperature)

/-- `src/physics/single_chain/ufjc/log_squared/thermodynamics/isotensional/asymptotic/reduced/py.rs` lines 163-166. -/
def LOGSQUAREDFJC.relative_gibbs_free_energy (self : Polymers.Python.ufjc.log_squared.thermodynamics.isotensional.asymptotic.reduced.LOGSQUAREDFJC α) (force : NdArray α) (temperature : α) : NdArray α :=
  NdArray.mapv force (fun (force : α) => Polymers.ufjc.log_squared.thermodynamics.isotensional.asymptotic.reduced.relative_gibbs_free_energy self.number_of_links self.link_length self.link_stiffness force temperature)

/-- `src/physics/single_chain/ufjc/log_squared/thermodynamics/isotensional/asymptotic/reduced/py.rs` lines 176-179. -/
def LOGSQUAREDFJC.relative_gibbs_free_energy_per_link (self : Polymers.Python.ufjc.log_squared.thermodynamics.isotensional.asymptotic.reduced.LOGSQUAREDFJC α) (force : NdArray α) (temperature : α) : NdArray α :=
  NdArray.mapv force (fun (force : α) => Polymers.ufjc.log_squared.thermodynamics.isotensional.asymptotic.reduced.relative_gibbs_free_energy_per_link self.link_length self.link_stiffness force temperature)

/-- `src/physics/single_chain/ufjc/log_squared/thermodynamics/isotensional/asymptotic/reduced/py.rs` lines 189-192. -/
def LOGSQUAREDFJC.nondimensional_gibbs_free_energy (self : Polymers.Python.ufjc.log_squared.thermodynamics.isotensional.asymptotic.reduced.LOGSQUAREDFJC α) (nondimensional_force : NdArray α) (temperature : α) : NdArray α :=
  NdArray.mapv nondimensional_force (fun (nondimensional_force : α) => Polymers.ufjc.log_squared.thermodynamics.isotensional.asymptotic.reduced.nondimensional_gibbs_free_energy self.number_of_links self.link_length self.hinge_mass (self.link_stiffness * Elem.powi self.link_length 2 / (Polymers.BOLTZMANN_CONSTANT : α) / temperature) nondimensional_force temperature)

/-- `src/physics/single_chain/ufjc/log_squared/thermodynamics/isotensional/asymptotic/reduced/py.rs` lines 202-205. -/
def LOGSQUAREDFJC.nondimensional_gibbs_free_energy_per_link (self : Polymers.Python.ufjc.log_squared.thermodynamics.isotensional.asymptotic.reduced.LOGSQUAREDFJC α) (nondimensional_force : NdArray α) (temperature : α) : NdArray α :=
  NdArray.mapv nondimensional_force (fun (nondimensional_force : α) => Polymers.ufjc.log_squared.thermodynamics.isotensional.asymptotic.reduced.nondimensional_gibbs_free_energy_per_link self.link_length self.hinge_mass (self.link_stiffness * Elem.powi self.link_length 2 / (Polymers.BOLTZMANN_CONSTANT : α) / temperature) nondimensional_force temperature)

/-- `src/physics/single_chain/ufjc/log_squared/thermodynamics/isotensional/asymptotic/reduced/py.rs` lines 215-218. -/
def LOGSQUAREDFJC.nondimensional_relative_gibbs_free_energy (self : Polymers.Python.ufjc.log_squared.thermodynamics.isotensional.asymptotic.reduced.LOGSQUAREDFJC α) (nondimensional_force : NdArray α) (temperature : α) : NdArray α :=
  NdArray.mapv nondimensional_force (fun (nondimensional_force : α) => Polymers.ufjc.log_squared.thermodynamics.isotensional.asymptotic.reduced.nondimensional_relative_gibbs_free_energy self.number_of_links (self.link_stiffness * Elem.powi self.link_length 2 / (Polymers.BOLTZMANN_CONSTANT : α) / temperature) nondimensional_force)

/-- `src/physics/single_chain/ufjc/log_squared/thermodynamics/isotensional/asymptotic/reduced/py.rs` lines 240-243. -/
def LOGSQUAREDFJC.nondimensional_relative_gibbs_free_energy_per_link (self : Polymers.Python.ufjc.log_squared.thermodynamics.isotensional.asymptotic.reduced.LOGSQUAREDFJC α) (nondimensional_force : NdArray α) (temperature : α) : NdArray α :=
  NdArray.mapv nondimensional_force (fun (nondimensional_force : α) => Polymers.ufjc.log_squared.thermodynamics.isotensional.asymptotic.reduced.nondimensional_relative_gibbs_free_energy_per_link (self.link_stiffness * Elem.powi self.link_length 2 / (Polymers.BOLTZMANN_CONSTANT : α) / temperature) nondimensional_force)

end Polymers.Python.ufjc.log_squared.thermodynamics.isotensional.asymptotic.reduced

namespace Polymers.Python.ufjc.log_squared.thermodynamics.isometric.asymptotic

/-- `src/physics/single_chain/ufjc/log_squared/thermodynamics/isometric/asymptotic/py.rs` lines 16-41: struct `LOGSQUAREDFJC`. -/
structure LOGSQUAREDFJC (α : Type) where
  /-- field `hinge_mass` -/
  hinge_mass : α
  /-- field `link_length` -/
  link_length : α
  /-- field `number_of_links` -/
  number_of_links : Nat
  /-- field `link_stiffness` -/
  link_stiffness : α
  /-- field `reduced` -/
  reduced : Polymers.Python.ufjc.log_squared.thermodynamics.isometric.asymptotic.reduced.LOGSQUAREDFJC α
  /-- field `legendre` -/
  legendre : Polymers.Python.ufjc.log_squared.thermodynamics.isometric.asymptotic.legendre.LOGSQUAREDFJC α

/-- `src/physics/single_chain/ufjc/log_squared/thermodynamics/isometric/asymptotic/py.rs` lines 47-58. -/
def LOGSQUAREDFJC.init (number_of_links : Nat) (link_length : α) (hinge_mass : α) (link_stiffness : α) : Polymers.Python.ufjc.log_squared.thermodynamics.isometric.asymptotic.LOGSQUAREDFJC α :=
  { hinge_mass := hinge_mass, link_length := link_length, number_of_links := number_of_links, link_stiffness := link_stiffness, reduced := Polymers.Python.ufjc.log_squared.thermodynamics.isometric.asymptotic.reduced.LOGSQUAREDFJC.init number_of_links link_length hinge_mass link_stiffness, legendre := Polymers.Python.ufjc.log_squared.thermodynamics.isometric.asymptotic.legendre.LOGSQUAREDFJC.init number_of_links link_length hinge_mass link_stiffness }

end Polymers.Python.ufjc.log_squared.thermodynamics.isometric.asymptotic

namespace Polymers.Python.ufjc.log_squared.thermodynamics.isotensional.asymptotic

/-- `src/physics/single_chain/ufjc/log_squared/thermodynamics/isotensional/asymptotic/py.rs` lines 23-48: struct `LOGSQUAREDFJC`. -/
structure LOGSQUAREDFJC (α : Type) where
  /-- field `hinge_mass` -/
  hinge_mass : α
  /-- field `link_length` -/
  link_length : α
  /-- field `number_of_links` -/
  number_of_links : Nat
  /-- field `link_stiffness` -/
  link_stiffness : α
  /-- field `reduced` -/
  reduced : Polymers.Python.ufjc.log_squared.thermodynamics.isotensional.asymptotic.reduced.LOGSQUAREDFJC α
  /-- field `legendre` -/
  legendre : Polymers.Python.ufjc.log_squared.thermodynamics.isotensional.asymptotic.legendre.LOGSQUAREDFJC α

/-- `src/physics/single_chain/ufjc/log_squared/thermodynamics/isotensional/asymptotic/py.rs` lines 54-65. -/
def LOGSQUAREDFJC.init (number_of_links : Nat) (link_length : α) (hinge_mass : α) (link_stiffness : α) : Polymers.Python.ufjc.log_squared.thermodynamics.isotensional.asymptotic.LOGSQUAREDFJC α :=
  { hinge_mass := hinge_mass, link_length := link_length, number_of_links := number_of_links, link_stiffness := link_stiffness, reduced := Polymers.Python.ufjc.log_squared.thermodynamics.isotensional.asymptotic.reduced.LOGSQUAREDFJC.init number_of_links link_length hinge_mass link_stiffness, legendre := Polymers.Python.ufjc.log_squared.thermodynamics.isotensional.asymptotic.legendre.LOGSQUAREDFJC.init number_of_links link_length hinge_mass link_stiffness }

/-- `src/physics/single_chain/ufjc/log_squared/thermodynamics/isotensional/asymptotic/py.rs` lines 78-81. -/
def LOGSQUAREDFJC.end_to_end_length (self : Polymers.Python.ufjc.log_squared.thermodynamics.isotensional.asymptotic.LOGSQUAREDFJC α) (force : NdArray α) (temperature : α) : NdArray α :=
  NdArray.mapv force (fun (force : α) => Polymers.ufjc.log_squared.thermodynamics.isotensional.asymptotic.end_to_end_length self.number_of_links self.link_length self.link_stiffness force temperature)

/-- `src/physics/single_chain/ufjc/log_squared/thermodynamics/isotensional/asymptotic/py.rs` lines 91-94. -/
def LOGSQUAREDFJC.end_to_end_length_per_link (self : Polymers.Python.ufjc.log_squared.thermodynamics.isotensional.asymptotic.LOGSQUAREDFJC α) (force : NdArray α) (temperature : α) : NdArray α :=
  NdArray.mapv force (fun (force : α) => Polymers.ufjc.log_squared.thermodynamics.isotensional.asymptotic.end_to_end_length_per_link self.link_length self.link_stiffness force temperature)

/-- `src/physics/single_chain/ufjc/log_squared/thermodynamics/isotensional/asymptotic/py.rs` lines 104-107. -/
def LOGSQUAREDFJC.nondimensional_end_to_end_length (self : Polymers.Python.ufjc.log_squared.thermodynamics.isotensional.asymptotic.LOGSQUAREDFJC α) (nondimensional_force : NdArray α) (temperature : α) : NdArray α :=
  NdArray.mapv nondimensional_force (fun (nondimensional_force : α) => Polymers.ufjc.log_squared.thermodynamics.isotensional.asymptotic.nondimensional_end_to_end_length self.number_of_links (self.link_stiffness * Elem.powi self.link_length 2 / (Polymers.BOLTZMANN_CONSTANT : α) / temperature) nondimensional_force)

/-- `src/physics/single_chain/ufjc/log_squared/thermodynamics/isotensional/asymptotic/py.rs` lines 127-130. -/
def LOGSQUAREDFJC.nondimensional_end_to_end_length_per_link (self : Polymers.Python.ufjc.log_squared.thermodynamics.isotensional.asymptotic.LOGSQUAREDFJC α) (nondimensional_force : NdArray α) (temperature : α) : NdArray α :=
  NdArray.mapv nondimensional_force (fun (nondimensional_force : α) => Polymers.ufjc.log_squared.thermodynamics.isotensional.asymptotic.nondimensional_end_to_end_length_per_link (self.link_stiffness * Elem.powi self.link_length 2 / (Polymers.BOLTZMANN_CONSTANT : α) / temperature) nondimensional_force)

/-- `src/physics/single_chain/ufjc/log_squared/thermodynamics/isotensional/asymptotic/py.rs` lines 143-146. -/
def LOGSQUAREDFJC.gibbs_free_energy (self : Polymers.Python.ufjc.log_squared.thermodynamics.isotensional.asymptotic.LOGSQUAREDFJC α) (force : NdArray α) (temperature : α) : NdArray α :=
  NdArray.mapv force (fun (force : α) => Polymers.ufjc.log_squared.thermodynamics.isotensional.asymptotic.gibbs_free_energy self.number_of_links self.link_length self.hinge_mass self.link_stiffness force temperature)

/-- `src/physics/single_chain/ufjc/log_squared/thermodynamics/isotensional/asymptotic/py.rs` lines 156-159. -/
def LOGSQUAREDFJC.gibbs_free_energy_per_link (self : Polymers.Python.ufjc.log_squared.thermodynamics.isotensional.asymptotic.LOGSQUAREDFJC α) (force : NdArray α) (temperature : α) : NdArray α :=
  NdArray.mapv force (fun (force : α) => Polymers.ufjc.log_squared.thermodynamics.isotensional.asymptotic.gibbs_free_energy_per_link self.link_length self.hinge_mass self.link_stiffness force temperature)

/-- `src/physics/single_chain/ufjc/log_squared/thermodynamics/isotensional/asymptotic/py.rs` lines 169-172. -/
def LOGSQUAREDFJC.relative_gibbs_free_energy (self : Polymers.Python.ufjc.log_squared.thermodynamics.isotensional.asymptotic.LOGSQUAREDFJC α) (force : NdArray α) (temperature : α) : NdArray α :=
  NdArray.mapv force (fun (force : α) => Polymers.ufjc.log_squared.thermodynamics.isotensional.asymptotic.relative_gibbs_free_energy self.number_of_links self.link_length self.link_stiffness force temperature)

/-- `src/physics/single_chain/ufjc/log_squared/thermodynamics/isotensional/asymptotic/py.rs` lines 182-185. -/
def LOGSQUAREDFJC.relative_gibbs_free_energy_per_link (self : Polymers.Python.ufjc.log_squared.thermodynamics.isotensional.asymptotic.LOGSQUAREDFJC α) (force : NdArray α) (temperature : α) : NdArray α :=
  NdArray.mapv force (fun (force : α) => Polymers.ufjc.log_squared.thermodynamics.isotensional.asymptotic.relative_gibbs_free_energy_per_link self.link_length self.link_stiffness force temperature)

/-- `src/physics/single_chain/ufjc/log_squared/thermodynamics/isotensional/asymptotic/py.rs` lines 195-198. -/
def LOGSQUAREDFJC.nondimensional_gibbs_free_energy (self : Polymers.Python.ufjc.log_squared.thermodynamics.isotensional.asymptotic.LOGSQUAREDFJC α) (nondimensional_force : NdArray α) (temperature : α) : NdArray α :=
  NdArray.mapv nondimensional_force (fun (nondimensional_force : α) => Polymers.ufjc.log_squared.thermodynamics.isotensional.asymptotic.nondimensional_gibbs_free_energy self.number_of_links self.link_length self.hinge_mass (self.link_stiffness * Elem.powi self.link_length 2 / (Polymers.BOLTZMANN_CONSTANT : α) / temperature) nondimensional_force temperature)

/-- `src/physics/single_chain/ufjc/log_squared/thermodynamics/isotensional/asymptotic/py.rs` lines 208-211. -/
def LOGSQUAREDFJC.nondimensional_gibbs_free_energy_per_link (self : Polymers.Python.ufjc.log_squared.thermodynamics.isotensional.asymptotic.LOGSQUAREDFJC α) (nondimensional_force : NdArray α) (temperature : α) : NdArray α :=
  NdArray.mapv nondimensional_force (fun (nondimensional_force : α) => Polymers.ufjc.log_squared.thermodynamics.isotensional.asymptotic.nondimensional_gibbs_free_energy_per_link self.link_length self.hinge_mass (self.link_stiffness * Elem.powi self.link_length 2 / (Polymers.BOLTZMANN_CONSTANT : α) / temperature) nondimensional_force temperature)

/-- `src/physics/single_chain/ufjc/log_squared/thermodynamics/isotensional/asymptotic/py.rs` lines 221-224. -/
def LOGSQUAREDFJC.nondimensional_relative_gibbs_free_energy (self : Polymers.Python.ufjc.log_squared.thermodynamics.isotensional.asymptotic.LOGSQUAREDFJC α) (nondimensional_force : NdArray α) (temperature : α) : NdArray α :=
  NdArray.mapv nondimensional_force (fun (nondimensional_force : α) => Polymers.ufjc.log_squared.thermodynamics.isotensional.asymptotic.nondimensional_relative_gibbs_free_energy self.number_of_links (self.link_stiffness * Elem.powi self.link_length 2 / (Polymers.BOLTZMANN_CONSTANT : α) / temperature) nondimensional_force)

/-- `src/physics/single_chain/ufjc/log_squared/thermodynamics/isotensional/asymptotic/py.rs` lines 247-250. -/
def LOGSQUAREDFJC.nondimensional_relative_gibbs_free_energy_per_link (self : Polymers.Python.ufjc.log_squared.thermodynamics.isotensional.asymptotic.LOGSQUAREDFJC α) (nondimensional_force : NdArray α) (temperature : α) : NdArray α :=
  NdArray.mapv nondimensional_force (fun (nondimensional_force : α) => Polymers.ufjc.log_squared.thermodynamics.isotensional.asymptotic.nondimensional_relative_gibbs_free_energy_per_link (self.link_stiffness * Elem.powi self.link_length 2 / (Polymers.BOLTZMANN_CONSTANT : α) / temperature) nondimensional_force)

end Polymers.Python.ufjc.log_squared.thermodynamics.isotensional.asymptotic

namespace Polymers.Python.ufjc.log_squared.thermodynamics.isotensional.legendre

/-- `src/physics/single_chain/ufjc/log_squared/thermodynamics/isotensional/legendre/py.rs` lines 21-38: struct `LOGSQUAREDFJC`. -/
structure LOGSQUAREDFJC (α : Type) where
  /-- field `hinge_mass` -/
  hinge_mass : α
  /-- field `link_length` -/
  link_length : α
  /-- field `number_of_links` -/
  number_of_links : Nat
  /-- field `link_stiffness` -/
  link_stiffness : α

/-- `src/physics/single_chain/ufjc/log_squared/thermodynamics/isotensional/legendre/py.rs` lines 44-53. -/
def LOGSQUAREDFJC.init (number_of_links : Nat) (link_length : α) (hinge_mass : α) (link_stiffness : α) : Polymers.Python.ufjc.log_squared.thermodynamics.isotensional.legendre.LOGSQUAREDFJC α :=
  { hinge_mass := hinge_mass, link_length := link_length, number_of_links := number_of_links, link_stiffness := link_stiffness }

/-- `src/physics/single_chain/ufjc/log_squared/thermodynamics/isotensional/legendre/py.rs` lines 66-69. -/
def LOGSQUAREDFJC.helmholtz_free_energy (self : Polymers.Python.ufjc.log_squared.thermodynamics.isotensional.legendre.LOGSQUAREDFJC α) (force : NdArray α) (temperature : α) : NdArray α :=
  NdArray.mapv force (fun (force : α) => Polymers.ufjc.log_squared.thermodynamics.isotensional.legendre.helmholtz_free_energy self.number_of_links self.link_length self.hinge_mass self.link_stiffness force temperature)

/-- `src/physics/single_chain/ufjc/log_squared/thermodynamics/isotensional/legendre/py.rs` lines 79-82. -/
def LOGSQUAREDFJC.helmholtz_free_energy_per_link (self : Polymers.Python.ufjc.log_squared.thermodynamics.isotensional.legendre.LOGSQUAREDFJC α) (force : NdArray α) (temperature : α) : NdArray α :=
  NdArray.mapv force (fun (force : α) => Polymers.ufjc.log_squared.thermodynamics.isotensional.legendre.helmholtz_free_energy_per_link self.link_length self.hinge_mass self.link_stiffness force temperature)

/-- `src/physics/single_chain/ufjc/log_squared/thermodynamics/isotensional/legendre/py.rs` lines 92-95. -/
def LOGSQUAREDFJC.relative_helmholtz_free_energy (self : Polymers.Python.ufjc.log_squared.thermodynamics.isotensional.legendre.LOGSQUAREDFJC α) (force : NdArray α) (temperature : α) : NdArray α :=
  NdArray.mapv force (fun (force : α) => Polymers.ufjc.log_squared.thermodynamics.isotensional.legendre.relative_helmholtz_free_energy self.number_of_links self.link_length self.link_stiffness force temperature)

/-- `src/physics/single_chain/ufjc/log_squared/thermodynamics/isotensional/legendre/py.rs` lines 105-108. -/
def LOGSQUAREDFJC.relative_helmholtz_free_energy_per_link (self : Polymers.Python.ufjc.log_squared.thermodynamics.isotensional.legendre.LOGSQUAREDFJC α) (force : NdArray α) (temperature : α) : NdArray α :=
  NdArray.mapv force (fun (force : α) => Polymers.ufjc.log_squared.thermodynamics.isotensional.legendre.relative_helmholtz_free_energy_per_link self.link_length self.link_stiffness force temperature)

/-- `src/physics/single_chain/ufjc/log_squared/thermodynamics/isotensional/legendre/py.rs` lines 118-121. -/
def LOGSQUAREDFJC.nondimensional_helmholtz_free_energy (self : Polymers.Python.ufjc.log_squared.thermodynamics.isotensional.legendre.LOGSQUAREDFJC α) (nondimensional_force : NdArray α) (temperature : α) : NdArray α :=
  NdArray.mapv nondimensional_force (fun (nondimensional_force : α) => Polymers.ufjc.log_squared.thermodynamics.isotensional.legendre.nondimensional_helmholtz_free_energy self.number_of_links self.link_length self.hinge_mass (self.link_stiffness * Elem.powi self.link_length 2 / (Polymers.BOLTZMANN_CONSTANT : α) / temperature) nondimensional_force temperature)

/-- `src/physics/single_chain/ufjc/log_squared/thermodynamics/isotensional/legendre/py.rs` lines 131-134. -/
def LOGSQUAREDFJC.nondimensional_helmholtz_free_energy_per_link (self : Polymers.Python.ufjc.log_squared.thermodynamics.isotensional.legendre.LOGSQUAREDFJC α) (nondimensional_force : NdArray α) (temperature : α) : NdArray α :=
  NdArray.mapv nondimensional_force (fun (nondimensional_force : α) => Polymers.ufjc.log_squared.thermodynamics.isotensional.legendre.nondimensional_helmholtz_free_energy_per_link self.link_length self.hinge_mass (self.link_stiffness * Elem.powi self.link_length 2 / (Polymers.BOLTZMANN_CONSTANT : α) / temperature) nondimensional_force temperature)

/-- `src/physics/single_chain/ufjc/log_squared/thermodynamics/isotensional/legendre/py.rs` lines 144-147. -/
def LOGSQUAREDFJC.nondimensional_relative_helmholtz_free_energy (self : Polymers.Python.ufjc.log_squared.thermodynamics.isotensional.legendre.LOGSQUAREDFJC α) (nondimensional_force : NdArray α) (temperature : α) : NdArray α :=
  NdArray.mapv nondimensional_force (fun (nondimensional_force : α) => Polymers.ufjc.log_squared.thermodynamics.isotensional.legendre.nondimensional_relative_helmholtz_free_energy self.number_of_links (self.link_stiffness * Elem.powi self.link_length 2 / (Polymers.BOLTZMANN_CONSTANT : α) / temperature) nondimensional_force)

/-- `src/physics/single_chain/ufjc/log_squared/thermodynamics/isotensional/legendre/py.rs` lines 157-160. -/
def LOGSQUAREDFJC.nondimensional_relative_helmholtz_free_energy_per_link (self : Polymers.Python.ufjc.log_squared.thermodynamics.isotensional.legendre.LOGSQUAREDFJC α) (nondimensional_force : NdArray α) (temperature : α) : NdArray α :=
  NdArray.mapv nondimensional_force (fun (nondimensional_force : α) => Polymers.ufjc.log_squared.thermodynamics.isotensional.legendre.nondimensional_relative_helmholtz_free_energy_per_link (self.link_stiffness * Elem.powi self.link_length 2 / (Polymers.BOLTZMANN_CONSTANT : α) / temperature) nondimensional_force)

end Polymers.Python.ufjc.log_squared.thermodynamics.isotensional.legendre

namespace Polymers.Python.ufjc.log_squared.thermodynamics.isometric

/-- `src/physics/single_chain/ufjc/log_squared/thermodynamics/isometric/py.rs` lines 15-36: struct `LOGSQUAREDFJC`. -/
structure LOGSQUAREDFJC (α : Type) where
  /-- field `hinge_mass` -/
  hinge_mass : α
  /-- field `link_length` -/
  link_length : α
  /-- field `number_of_links` -/
  number_of_links : Nat
  /-- field `link_stiffness` -/
  link_stiffness : α
  /-- field `asymptotic` -/
  asymptotic : Polymers.Python.ufjc.log_squared.thermodynamics.isometric.asymptotic.LOGSQUAREDFJC α

/-- `src/physics/single_chain/ufjc/log_squared/thermodynamics/isometric/py.rs` lines 42-52. -/
def LOGSQUAREDFJC.init (number_of_links : Nat) (link_length : α) (hinge_mass : α) (link_stiffness : α) : Polymers.Python.ufjc.log_squared.thermodynamics.isometric.LOGSQUAREDFJC α :=
  { hinge_mass := hinge_mass, link_length := link_length, number_of_links := number_of_links, link_stiffness := link_stiffness, asymptotic := Polymers.Python.ufjc.log_squared.thermodynamics.isometric.asymptotic.LOGSQUAREDFJC.init number_of_links link_length hinge_mass link_stiffness }

end Polymers.Python.ufjc.log_squared.thermodynamics.isometric

namespace Polymers.Python.ufjc.log_squared.thermodynamics.isotensional

/-- `src/physics/single_chain/ufjc/log_squared/thermodynamics/isotensional/py.rs` lines 23-48: struct `LOGSQUAREDFJC`. -/
structure LOGSQUAREDFJC (α : Type) where
  /-- field `hinge_mass` -/
  hinge_mass : α
  /-- field `link_length` -/
  link_length : α
  /-- field `number_of_links` -/
  number_of_links : Nat
  /-- field `link_stiffness` -/
  link_stiffness : α
  /-- field `asymptotic` -/
  asymptotic : Polymers.Python.ufjc.log_squared.thermodynamics.isotensional.asymptotic.LOGSQUAREDFJC α
  /-- field `legendre` -/
  legendre : Polymers.Python.ufjc.log_squared.thermodynamics.isotensional.legendre.LOGSQUAREDFJC α

/-- `src/physics/single_chain/ufjc/log_squared/thermodynamics/isotensional/py.rs` lines 54-65. -/
def LOGSQUAREDFJC.init (number_of_links : Nat) (link_length : α) (hinge_mass : α) (link_stiffness : α) : Polymers.Python.ufjc.log_squared.thermodynamics.isotensional.LOGSQUAREDFJC α :=
  { hinge_mass := hinge_mass, link_length := link_length, number_of_links := number_of_links, link_stiffness := link_stiffness, asymptotic := Polymers.Python.ufjc.log_squared.thermodynamics.isotensional.asymptotic.LOGSQUAREDFJC.init number_of_links link_length hinge_mass link_stiffness, legendre := Polymers.Python.ufjc.log_squared.thermodynamics.isotensional.legendre.LOGSQUAREDFJC.init number_of_links link_length hinge_mass link_stiffness }

/-- `src/physics/single_chain/ufjc/log_squared/thermodynamics/isotensional/py.rs` lines 78-81. -/
def LOGSQUAREDFJC.end_to_end_length (self : Polymers.Python.ufjc.log_squared.thermodynamics.isotensional.LOGSQUAREDFJC α) (force : NdArray α) (temperature : α) : NdArray α :=
  NdArray.mapv force (fun (force : α) => Polymers.ufjc.log_squared.thermodynamics.isotensional.end_to_end_length self.number_of_links self.link_length self.link_stiffness force temperature)

/-- `src/physics/single_chain/ufjc/log_squared/thermodynamics/isotensional/py.rs` lines 91-94. -/
def LOGSQUAREDFJC.end_to_end_length_per_link (self : Polymers.Python.ufjc.log_squared.thermodynamics.isotensional.LOGSQUAREDFJC α) (force : NdArray α) (temperature : α) : NdArray α :=
  NdArray.mapv force (fun (force : α) => Polymers.ufjc.log_squared.thermodynamics.isotensional.end_to_end_length_per_link self.link_length self.link_stiffness force temperature)

/-- `src/physics/single_chain/ufjc/log_squared/thermodynamics/isotensional/py.rs` lines 104-107. -/
def LOGSQUAREDFJC.nondimensional_end_to_end_length (self : Polymers.Python.ufjc.log_squared.thermodynamics.isotensional.LOGSQUAREDFJC α) (nondimensional_force : NdArray α) (temperature : α) : NdArray α :=
  NdArray.mapv nondimensional_force (fun (nondimensional_force : α) => Polymers.ufjc.log_squared.thermodynamics.isotensional.nondimensional_end_to_end_length self.number_of_links (self.link_stiffness * Elem.powi self.link_length 2 / (Polymers.BOLTZMANN_CONSTANT : α) / temperature) nondimensional_force)

/-- `src/physics/single_chain/ufjc/log_squared/thermodynamics/isotensional/py.rs` lines 120-123. -/
def LOGSQUAREDFJC.nondimensional_end_to_end_length_per_link (self : Polymers.Python.ufjc.log_squared.thermodynamics.isotensional.LOGSQUAREDFJC α) (nondimensional_force : NdArray α) (temperature : α) : NdArray α :=
  NdArray.mapv nondimensional_force (fun (nondimensional_force : α) => Polymers.ufjc.log_squared.thermodynamics.isotensional.nondimensional_end_to_end_length_per_link (self.link_stiffness * Elem.powi self.link_length 2 / (Polymers.BOLTZMANN_CONSTANT : α) / temperature) nondimensional_force)

/-- `src/physics/single_chain/ufjc/log_squared/thermodynamics/isotensional/py.rs` lines 136-139. -/
def LOGSQUAREDFJC.gibbs_free_energy (self : Polymers.Python.ufjc.log_squared.thermodynamics.isotensional.LOGSQUAREDFJC α) (force : NdArray α) (temperature : α) : NdArray α :=
  NdArray.mapv force (fun (force : α) => Polymers.ufjc.log_squared.thermodynamics.isotensional.gibbs_free_energy self.number_of_links self.link_length self.hinge_mass self.link_stiffness force temperature)

/-- `src/physics/single_chain/ufjc/log_squared/thermodynamics/isotensional/py.rs` lines 149-152. -/
def LOGSQUAREDFJC.gibbs_free_energy_per_link (self : Polymers.Python.ufjc.log_squared.thermodynamics.isotensional.LOGSQUAREDFJC α) (force : NdArray α) (temperature : α) : NdArray α :=
  NdArray.mapv force (fun (force : α) => Polymers.ufjc.log_squared.thermodynamics.isotensional.gibbs_free_energy_per_link self.link_length self.hinge_mass self.link_stiffness force temperature)

/-- `src/physics/single_chain/ufjc/log_squared/thermodynamics/isotensional/py.rs` lines 162-165. -/
def LOGSQUAREDFJC.relative_gibbs_free_energy (self : Polymers.Python.ufjc.log_squared.thermodynamics.isotensional.LOGSQUAREDFJC α) (force : NdArray α) (temperature : α) : NdArray α :=
  NdArray.mapv force (fun (force : α) => Polymers.ufjc.log_squared.thermodynamics.isotensional.relative_gibbs_free_energy self.number_of_links self.link_length self.link_stiffness force temperature)

/-- `src/physics/single_chain/ufjc/log_squared/thermodynamics/isotensional/py.rs` lines 175-178. -/
def LOGSQUAREDFJC.relative_gibbs_free_energy_per_link (self : Polymers.Python.ufjc.log_squared.thermodynamics.isotensional.LOGSQUAREDFJC α) (force : NdArray α) (temperature : α) : NdArray α :=
  NdArray.mapv force (fun (force : α) => Polymers.ufjc.log_squared.thermodynamics.isotensional.relative_gibbs_free_energy_per_link self.link_length self.link_stiffness force temperature)

/-- `src/physics/single_chain/ufjc/log_squared/thermodynamics/isotensional/py.rs` lines 188-191. -/
def LOGSQUAREDFJC.nondimensional_gibbs_free_energy (self : Polymers.Python.ufjc.log_squared.thermodynamics.isotensional.LOGSQUAREDFJC α) (nondimensional_force : NdArray α) (temperature : α) : NdArray α :=
  NdArray.mapv nondimensional_force (fun (nondimensional_force : α) => Polymers.ufjc.log_squared.thermodynamics.isotensional.nondimensional_gibbs_free_energy self.number_of_links self.link_length self.hinge_mass (self.link_stiffness * Elem.powi self.link_length 2 / (Polymers.BOLTZMANN_CONSTANT : α) / temperature) nondimensional_force temperature)

/-- `src/physics/single_chain/ufjc/log_squared/thermodynamics/isotensional/py.rs` lines 201-204. -/
def LOGSQUAREDFJC.nondimensional_gibbs_free_energy_per_link (self : Polymers.Python.ufjc.log_squared.thermodynamics.isotensional.LOGSQUAREDFJC α) (nondimensional_force : NdArray α) (temperature : α) : NdArray α :=
  NdArray.mapv nondimensional_force (fun (nondimensional_force : α) => Polymers.ufjc.log_squared.thermodynamics.isotensional.nondimensional_gibbs_free_energy_per_link self.link_length self.hinge_mass (self.link_stiffness * Elem.powi self.link_length 2 / (Polymers.BOLTZMANN_CONSTANT : α) / temperature) nondimensional_force temperature)

/-- `src/physics/single_chain/ufjc/log_squared/thermodynamics/isotensional/py.rs` lines 214-217. -/
def LOGSQUAREDFJC.nondimensional_relative_gibbs_free_energy (self : Polymers.Python.ufjc.log_squared.thermodynamics.isotensional.LOGSQUAREDFJC α) (nondimensional_force : NdArray α) (temperature : α) : NdArray α :=
  NdArray.mapv nondimensional_force (fun (nondimensional_force : α) => Polymers.ufjc.log_squared.thermodynamics.isotensional.nondimensional_relative_gibbs_free_energy self.number_of_links (self.link_stiffness * Elem.powi self.link_length 2 / (Polymers.BOLTZMANN_CONSTANT : α) / temperature) nondimensional_force)

/-- `src/physics/single_chain/ufjc/log_squared/thermodynamics/isotensional/py.rs` lines 240-243. -/
def LOGSQUAREDFJC.nondimensional_relative_gibbs_free_energy_per_link (self : Polymers.Python.ufjc.log_squared.thermodynamics.isotensional.LOGSQUAREDFJC α) (nondimensional_force : NdArray α) (temperature : α) : NdArray α :=
  NdArray.mapv nondimensional_force (fun (nondimensional_force : α) => Polymers.ufjc.log_squared.thermodynamics.isotensional.nondimensional_relative_gibbs_free_energy_per_link (self.link_stiffness * Elem.powi self.link_length 2 / (Polymers.BOLTZMANN_CONSTANT : α) / temperature) nondimensional_force)

end Polymers.Python.ufjc.log_squared.thermodynamics.isotensional

namespace Polymers.Python.ufjc.log_squared.thermodynamics

/-- `src/physics/single_chain/ufjc/log_squared/thermodynamics/py.rs` lines 16-41: struct `LOGSQUAREDFJC`. -/
structure LOGSQUAREDFJC (α : Type) where
  /-- field `hinge_mass` -/
  hinge_mass : α
  /-- field `link_length` -/
  link_length : α
  /-- field `number_of_links` -/
  number_of_links : Nat
  /-- field `link_stiffness` -/
  link_stiffness : α
  /-- field `isometric` -/
  isometric : Polymers.Python.ufjc.log_squared.thermodynamics.isometric.LOGSQUAREDFJC α
  /-- field `isotensional` -/
  isotensional : Polymers.Python.ufjc.log_squared.thermodynamics.isotensional.LOGSQUAREDFJC α

/-- `src/physics/single_chain/ufjc/log_squared/thermodynamics/py.rs` lines 47-58. -/
def LOGSQUAREDFJC.init (number_of_links : Nat) (link_length : α) (hinge_mass : α) (link_stiffness : α) : Polymers.Python.ufjc.log_squared.thermodynamics.LOGSQUAREDFJC α :=
  { hinge_mass := hinge_mass, link_length := link_length, number_of_links := number_of_links, link_stiffness := link_stiffness, isometric := Polymers.Python.ufjc.log_squared.thermodynamics.isometric.LOGSQUAREDFJC.init number_of_links link_length hinge_mass link_stiffness, isotensional := Polymers.Python.ufjc.log_squared.thermodynamics.isotensional.LOGSQUAREDFJC.init number_of_links link_length hinge_mass link_stiffness }

end Polymers.Python.ufjc.log_squared.thermodynamics

namespace Polymers.Python.ufjc.log_squared

/-- `src/physics/single_chain/ufjc/log_squared/py.rs` lines 14-35: struct `LOGSQUAREDFJC`. -/
structure LOGSQUAREDFJC (α : Type) where
  /-- field `hinge_mass` -/
  hinge_mass : α
  /-- field `link_length` -/
  link_length : α
  /-- field `number_of_links` -/
  number_of_links : Nat
  /-- field `link_stiffness` -/
  link_stiffness : α
  /-- field `thermodynamics` -/
  thermodynamics : Polymers.Python.ufjc.log_squared.thermodynamics.LOGSQUAREDFJC α

/-- `src/physics/single_chain/ufjc/log_squared/py.rs` lines 41-51. -/
def LOGSQUAREDFJC.init (number_of_links : Nat) (link_length : α) (hinge_mass : α) (link_stiffness : α) : Polymers.Python.ufjc.log_squared.LOGSQUAREDFJC α :=
  { hinge_mass := hinge_mass, link_length := link_length, number_of_links := number_of_links, link_stiffness := link_stiffness, thermodynamics := Polymers.Python.ufjc.log_squared.thermodynamics.LOGSQUAREDFJC.init number_of_links link_length hinge_mass link_stiffness }

end Polymers.Python.ufjc.log_squared
