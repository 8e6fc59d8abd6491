/- Generated by tools/py2lean.py from the py.rs files of /repo/src/physics/single_chain/ufjc/morse ; do not edit by hand. -/
import Verif.Model.Morse
import Verif.Model.PythonBase

set_option linter.unusedVariables false

open Polymers

variable {α : Type} [Add α] [Sub α] [Mul α] [Div α] [Neg α] [OfScientific α] [NatCast α] [Elem α]

namespace Polymers.Python.ufjc.morse.thermodynamics.isometric.asymptotic.reduced.legendre

/-- `src/physics/single_chain/ufjc/morse/thermodynamics/isometric/asymptotic/reduced/legendre/py.rs` lines 21-42: struct `MORSEFJC`. -/
structure MORSEFJC (α : Type) where
  /-- field `hinge_mass` -/
  hinge_mass : α
  /-- field `link_length` -/
  link_length : α
  /-- field `number_of_links` -/
  number_of_links : Nat
  /-- field `link_stiffness` -/
  link_stiffness : α
  /-- field `link_energy` -/
  link_energy : α

/-- `src/physics/single_chain/ufjc/morse/thermodynamics/isometric/asymptotic/reduced/legendre/py.rs` lines 48-58. -/
def MORSEFJC.init (number_of_links : Nat) (link_length : α) (hinge_mass : α) (link_stiffness : α) (link_energy : α) : Polymers.Python.ufjc.morse.thermodynamics.isometric.asymptotic.reduced.legendre.MORSEFJC α :=
  { hinge_mass := hinge_mass, link_length := link_length, number_of_links := number_of_links, link_stiffness := link_stiffness, link_energy := link_energy }

/-- `src/physics/single_chain/ufjc/morse/thermodynamics/isometric/asymptotic/reduced/legendre/py.rs` lines 68-71. -/
def MORSEFJC.force (self : Polymers.Python.ufjc.morse.thermodynamics.isometric.asymptotic.reduced.legendre.MORSEFJC α) (end_to_end_length : NdArray α) (temperature : α) : NdArray α :=
  NdArray.mapv end_to_end_length (fun (end_to_end_length : α) => Polymers.ufjc.morse.thermodynamics.isometric.asymptotic.reduced.legendre.force self.number_of_links self.link_length self.link_stiffness self.link_energy end_to_end_length temperature)

/-- `src/physics/single_chain/ufjc/morse/thermodynamics/isometric/asymptotic/reduced/legendre/py.rs` lines 80-83. -/
def MORSEFJC.nondimensional_force (self : Polymers.Python.ufjc.morse.thermodynamics.isometric.asymptotic.reduced.legendre.MORSEFJC α) (nondimensional_end_to_end_length_per_link : NdArray α) (temperature : α) : NdArray α :=
  NdArray.mapv nondimensional_end_to_end_length_per_link (fun (nondimensional_end_to_end_length_per_link : α) => Polymers.ufjc.morse.thermodynamics.isometric.asymptotic.reduced.legendre.nondimensional_force (self.link_stiffness * Elem.powi self.link_length 2 / (Polymers.BOLTZMANN_CONSTANT : α) / temperature) (self.link_energy / (Polymers.BOLTZMANN_CONSTANT : α) / temperature) nondimensional_end_to_end_length_per_link)

/-- `src/physics/single_chain/ufjc/morse/thermodynamics/isometric/asymptotic/reduced/legendre/py.rs` lines 98-101. -/
def MORSEFJC.helmholtz_free_energy (self : Polymers.Python.ufjc.morse.thermodynamics.isometric.asymptotic.reduced.legendre.MORSEFJC α) (end_to_end_length : NdArray α) (temperature : α) : NdArray α :=
  NdArray.mapv end_to_end_length (fun (end_to_end_length : α) => Polymers.ufjc.morse.thermodynamics.isometric.asymptotic.reduced.legendre.helmholtz_free_energy self.number_of_links self.link_length self.hinge_mass self.link_stiffness self.link_energy end_to_end_length temperature)

/-- `src/physics/single_chain/ufjc/morse/thermodynamics/isometric/asymptotic/reduced/legendre/py.rs` lines 111-114. -/
def MORSEFJC.helmholtz_free_energy_per_link (self : Polymers.Python.ufjc.morse.thermodynamics.isometric.asymptotic.reduced.legendre.MORSEFJC α) (end_to_end_length : NdArray α) (temperature : α) : NdArray α :=
  NdArray.mapv end_to_end_length (fun (end_to_end_length : α) => Polymers.ufjc.morse.thermodynamics.isometric.asymptotic.reduced.legendre.helmholtz_free_energy_per_link self.number_of_links self.link_length self.hinge_mass self.link_stiffness self.link_energy end_to_end_length temperature)

/-- `src/physics/single_chain/ufjc/morse/thermodynamics/isometric/asymptotic/reduced/legendre/py.rs` lines 124-127. -/
def MORSEFJC.relative_helmholtz_free_energy (self : Polymers.Python.ufjc.morse.thermodynamics.isometric.asymptotic.reduced.legendre.MORSEFJC α) (end_to_end_length : NdArray α) (temperature : α) : NdArray α :=
  NdArray.mapv end_to_end_length (fun (end_to_end_length : α) => Polymers.ufjc.morse.thermodynamics.isometric.asymptotic.reduced.legendre.relative_helmholtz_free_energy self.number_of_links self.link_length self.link_stiffness self.link_energy end_to_end_length temperature)

/-- `src/physics/single_chain/ufjc/morse/thermodynamics/isometric/asymptotic/reduced/legendre/py.rs` lines 137-140. -/
def MORSEFJC.relative_helmholtz_free_energy_per_link (self : Polymers.Python.ufjc.morse.thermodynamics.isometric.asymptotic.reduced.legendre.MORSEFJC α) (end_to_end_length : NdArray α) (temperature : α) : NdArray α :=
  NdArray.mapv end_to_end_length (fun (end_to_end_length : α) => Polymers.ufjc.morse.thermodynamics.isometric.asymptotic.reduced.legendre.relative_helmholtz_free_energy_per_link self.number_of_links self.link_length self.link_stiffness self.link_energy end_to_end_length temperature)

/-- `src/physics/single_chain/ufjc/morse/thermodynamics/isometric/asymptotic/reduced/legendre/py.rs` lines 150-153. -/
def MORSEFJC.nondimensional_helmholtz_free_energy (self : Polymers.Python.ufjc.morse.thermodynamics.isometric.asymptotic.reduced.legendre.MORSEFJC α) (nondimensional_end_to_end_length_per_link : NdArray α) (temperature : α) : NdArray α :=
  NdArray.mapv nondimensional_end_to_end_length_per_link (fun (nondimensional_end_to_end_length_per_link : α) => Polymers.ufjc.morse.thermodynamics.isometric.asymptotic.reduced.legendre.nondimensional_helmholtz_free_energy self.number_of_links self.link_length self.hinge_mass (self.link_stiffness * Elem.powi self.link_length 2 / (Polymers.BOLTZMANN_CONSTANT : α) / temperature) (self.link_energy / (Polymers.BOLTZMANN_CONSTANT : α) / temperature) nondimensional_end_to_end_length_per_link temperature)

/-- `src/physics/single_chain/ufjc/morse/thermodynamics/isometric/asymptotic/reduced/legendre/py.rs` lines 163-166. -/
def MORSEFJC.nondimensional_helmholtz_free_energy_per_link (self : Polymers.Python.ufjc.morse.thermodynamics.isometric.asymptotic.reduced.legendre.MORSEFJC α) (nondimensional_end_to_end_length_per_link : NdArray α) (temperature : α) : NdArray α :=
  NdArray.mapv nondimensional_end_to_end_length_per_link (fun (nondimensional_end_to_end_length_per_link : α) => Polymers.ufjc.morse.thermodynamics.isometric.asymptotic.reduced.legendre.nondimensional_helmholtz_free_energy_per_link self.number_of_links self.link_length self.hinge_mass (self.link_stiffness * Elem.powi self.link_length 2 / (Polymers.BOLTZMANN_CONSTANT : α) / temperature) (self.link_energy / (Polymers.BOLTZMANN_CONSTANT : α) / temperature) nondimensional_end_to_end_length_per_link temperature)

/-- `src/physics/single_chain/ufjc/morse/thermodynamics/isometric/asymptotic/reduced/legendre/py.rs` lines 175-178. -/
def MORSEFJC.nondimensional_relative_helmholtz_free_energy (self : Polymers.Python.ufjc.morse.thermodynamics.isometric.asymptotic.reduced.legendre.MORSEFJC α) (nondimensional_end_to_end_length_per_link : NdArray α) (temperature : α) : NdArray α :=
  NdArray.mapv nondimensional_end_to_end_length_per_link (fun (nondimensional_end_to_end_length_per_link : α) => Polymers.ufjc.morse.thermodynamics.isometric.asymptotic.reduced.legendre.nondimensional_relative_helmholtz_free_energy self.number_of_links (self.link_stiffness * Elem.powi self.link_length 2 / (Polymers.BOLTZMANN_CONSTANT : α) / temperature) (self.link_energy / (Polymers.BOLTZMANN_CONSTANT : α) / temperature) nondimensional_end_to_end_length_per_link)

/-- `src/physics/single_chain/ufjc/morse/thermodynamics/isometric/asymptotic/reduced/legendre/py.rs` lines 187-190. -/
def MORSEFJC.nondimensional_relative_helmholtz_free_energy_per_link (self : Polymers.Python.ufjc.morse.thermodynamics.isometric.asymptotic.reduced.legendre.MORSEFJC α) (nondimensional_end_to_end_length_per_link : NdArray α) (temperature : α) : NdArray α :=
  NdArray.mapv nondimensional_end_to_end_length_per_link (fun (nondimensional_end_to_end_length_per_link : α) => Polymers.ufjc.morse.thermodynamics.isometric.asymptotic.reduced.legendre.nondimensional_relative_helmholtz_free_energy_per_link (self.link_stiffness * Elem.powi self.link_length 2 / (Polymers.BOLTZMANN_CONSTANT : α) / temperature) (self.link_energy / (Polymers.BOLTZMANN_CONSTANT : α) / temperature) nondimensional_end_to_end_length_per_link)

end Polymers.Python.ufjc.morse.thermodynamics.isometric.asymptotic.reduced.legendre

namespace Polymers.Python.ufjc.morse.thermodynamics.isotensional.asymptotic.reduced.legendre

/-- `src/physics/single_chain/ufjc/morse/thermodynamics/isotensional/asymptotic/reduced/legendre/py.rs` lines 21-42: struct `MORSEFJC`. -/
structure MORSEFJC (α : Type) where
  /-- field `hinge_mass` -/
  hinge_mass : α
  /-- field `link_length` -/
  link_length : α
  /-- field `number_of_links` -/
  number_of_links : Nat
  /-- field `link_stiffness` -/
  link_stiffness : α
  /-- field `link_energy` -/
  link_energy : α

/-- `src/physics/single_chain/ufjc/morse/thermodynamics/isotensional/asymptotic/reduced/legendre/py.rs` lines 48-58. -/
def MORSEFJC.init (number_of_links : Nat) (link_length : α) (hinge_mass : α) (link_stiffness : α) (link_energy : α) : Polymers.Python.ufjc.morse.thermodynamics.isotensional.asymptotic.reduced.legendre.MORSEFJC α :=
  { hinge_mass := hinge_mass, link_length := link_length, number_of_links := number_of_links, link_stiffness := link_stiffness, link_energy := link_energy }

/-- `src/physics/single_chain/ufjc/morse/thermodynamics/isotensional/asymptotic/reduced/legendre/py.rs` lines 71-74. -/
def MORSEFJC.helmholtz_free_energy (self : Polymers.Python.ufjc.morse.thermodynamics.isotensional.asymptotic.reduced.legendre.MORSEFJC α) (force : NdArray α) (temperature : α) : NdArray α :=
  NdArray.mapv force (fun (force : α) => Polymers.ufjc.morse.thermodynamics.isotensional.asymptotic.reduced.legendre.helmholtz_free_energy self.number_of_links self.link_length self.hinge_mass self.link_stiffness self.link_energy force temperature)

/-- `src/physics/single_chain/ufjc/morse/thermodynamics/isotensional/asymptotic/reduced/legendre/py.rs` lines 84-87. -/
def MORSEFJC.helmholtz_free_energy_per_link (self : Polymers.Python.ufjc.morse.thermodynamics.isotensional.asymptotic.reduced.legendre.MORSEFJC α) (force : NdArray α) (temperature : α) : NdArray α :=
  NdArray.mapv force (fun (force : α) => Polymers.ufjc.morse.thermodynamics.isotensional.asymptotic.reduced.legendre.helmholtz_free_energy_per_link self.link_length self.hinge_mass self.link_stiffness self.link_energy force temperature)

/-- `src/physics/single_chain/ufjc/morse/thermodynamics/isotensional/asymptotic/reduced/legendre/py.rs` lines 97-100. -/
def MORSEFJC.relative_helmholtz_free_energy (self : Polymers.Python.ufjc.morse.thermodynamics.isotensional.asymptotic.reduced.legendre.MORSEFJC α) (force : NdArray α) (temperature : α) : NdArray α :=
  NdArray.mapv force (fun (force : α) => Polymers.ufjc.morse.thermodynamics.isotensional.asymptotic.reduced.legendre.relative_helmholtz_free_energy self.number_of_links self.link_length self.link_stiffness self.link_energy force temperature)

/-- `src/physics/single_chain/ufjc/morse/thermodynamics/isotensional/asymptotic/reduced/legendre/py.rs` lines 110-113. -/
def MORSEFJC.relative_helmholtz_free_energy_per_link (self : Polymers.Python.ufjc.morse.thermodynamics.isotensional.asymptotic.reduced.legendre.MORSEFJC α) (force : NdArray α) (temperature : α) : NdArray α :=
  NdArray.mapv force (fun (force : α) => Polymers.ufjc.morse.thermodynamics.isotensional.asymptotic.reduced.legendre.relative_helmholtz_free_energy_per_link self.link_length self.link_stiffness self.link_energy force temperature)

/-- `src/physics/single_chain/ufjc/morse/thermodynamics/isotensional/asymptotic/reduced/legendre/py.rs` lines 123-126. -/
def MORSEFJC.nondimensional_helmholtz_free_energy (self : Polymers.Python.ufjc.morse.thermodynamics.isotensional.asymptotic.reduced.legendre.MORSEFJC α) (nondimensional_force : NdArray α) (temperature : α) : NdArray α :=
  NdArray.mapv nondimensional_force (fun (nondimensional_force : α) => Polymers.ufjc.morse.thermodynamics.isotensional.asymptotic.reduced.legendre.nondimensional_helmholtz_free_energy self.number_of_links self.link_length self.hinge_mass (self.link_stiffness * Elem.powi self.link_length 2 / (Polymers.BOLTZMANN_CONSTANT : α) / temperature) (self.link_energy / (Polymers.BOLTZMANN_CONSTANT : α) / temperature) nondimensional_force temperature)

/-- `src/physics/single_chain/ufjc/morse/thermodynamics/isotensional/asymptotic/reduced/legendre/py.rs` lines 136-139. -/
def MORSEFJC.nondimensional_helmholtz_free_energy_per_link (self : Polymers.Python.ufjc.morse.thermodynamics.isotensional.asymptotic.reduced.legendre.MORSEFJC α) (nondimensional_force : NdArray α) (temperature : α) : NdArray α :=
  NdArray.mapv nondimensional_force (fun (nondimensional_force : α) => Polymers.ufjc.morse.thermodynamics.isotensional.asymptotic.reduced.legendre.nondimensional_helmholtz_free_energy_per_link self.link_length self.hinge_mass (self.link_stiffness * Elem.powi self.link_length 2 / (Polymers.BOLTZMANN_CONSTANT : α) / temperature) (self.link_energy / (Polymers.BOLTZMANN_CONSTANT : α) / temperature) nondimensional_force temperature)

/-- `src/physics/single_chain/ufjc/morse/thermodynamics/isotensional/asymptotic/reduced/legendre/py.rs` lines 149-152. -/
def MORSEFJC.nondimensional_relative_helmholtz_free_energy (self : Polymers.Python.ufjc.morse.thermodynamics.isotensional.asymptotic.reduced.legendre.MORSEFJC α) (nondimensional_force : NdArray α) (temperature : α) : NdArray α :=
  NdArray.mapv nondimensional_force (fun (nondimensional_force : α) => Polymers.ufjc.morse.thermodynamics.isotensional.asymptotic.reduced.legendre.nondimensional_relative_helmholtz_free_energy self.number_of_links (self.link_stiffness * Elem.powi self.link_length 2 / (Polymers.BOLTZMANN_CONSTANT : α) / temperature) (self.link_energy / (Polymers.BOLTZMANN_CONSTANT : α) / temperature) nondimensional_force)

/-- `src/physics/single_chain/ufjc/morse/thermodynamics/isotensional/asymptotic/reduced/legendre/py.rs` lines 162-165. -/
def MORSEFJC.nondimensional_relative_helmholtz_free_energy_per_link (self : Polymers.Python.ufjc.morse.thermodynamics.isotensional.asymptotic.reduced.legendre.MORSEFJC α) (nondimensional_force : NdArray α) (temperature : α) : NdArray α :=
  NdArray.mapv nondimensional_force (fun (nondimensional_force : α) => Polymers.ufjc.morse.thermodynamics.isotensional.asymptotic.reduced.legendre.nondimensional_relative_helmholtz_free_energy_per_link (self.link_stiffness * Elem.powi self.link_length 2 / (Polymers.BOLTZMANN_CONSTANT : α) / temperature) (self.link_energy / (Polymers.BOLTZMANN_CONSTANT : α) / temperature) nondimensional_force)

end Polymers.Python.ufjc.morse.thermodynamics.isotensional.asymptotic.reduced.legendre

namespace Polymers.Python.ufjc.morse.thermodynamics.isometric.asymptotic.legendre

/-- `src/physics/single_chain/ufjc/morse/thermodynamics/isometric/asymptotic/legendre/py.rs` lines 21-42: struct `MORSEFJC`. -/
structure MORSEFJC (α : Type) where
  /-- field `hinge_mass` -/
  hinge_mass : α
  /-- field `link_length` -/
  link_length : α
  /-- field `number_of_links` -/
  number_of_links : Nat
  /-- field `link_stiffness` -/
  link_stiffness : α
  /-- field `link_energy` -/
  link_energy : α

/-- `src/physics/single_chain/ufjc/morse/thermodynamics/isometric/asymptotic/legendre/py.rs` lines 48-58. -/
def MORSEFJC.init (number_of_links : Nat) (link_length : α) (hinge_mass : α) (link_stiffness : α) (link_energy : α) : Polymers.Python.ufjc.morse.thermodynamics.isometric.asymptotic.legendre.MORSEFJC α :=
  { hinge_mass := hinge_mass, link_length := link_length, number_of_links := number_of_links, link_stiffness := link_stiffness, link_energy := link_energy }

/-- `src/physics/single_chain/ufjc/morse/thermodynamics/isometric/asymptotic/legendre/py.rs` lines 68-71. -/
def MORSEFJC.force (self : Polymers.Python.ufjc.morse.thermodynamics.isometric.asymptotic.legendre.MORSEFJC α) (end_to_end_length : NdArray α) (temperature : α) : NdArray α :=
  NdArray.mapv end_to_end_length (fun (end_to_end_length : α) => Polymers.ufjc.morse.thermodynamics.isometric.asymptotic.legendre.force self.number_of_links self.link_length self.link_stiffness self.link_energy end_to_end_length temperature)

/-- `src/physics/single_chain/ufjc/morse/thermodynamics/isometric/asymptotic/legendre/py.rs` lines 80-83. -/
def MORSEFJC.nondimensional_force (self : Polymers.Python.ufjc.morse.thermodynamics.isometric.asymptotic.legendre.MORSEFJC α) (nondimensional_end_to_end_length_per_link : NdArray α) (temperature : α) : NdArray α :=
  NdArray.mapv nondimensional_end_to_end_length_per_link (fun (nondimensional_end_to_end_length_per_link : α) => Polymers.ufjc.morse.thermodynamics.isometric.asymptotic.legendre.nondimensional_force (self.link_stiffness * Elem.powi self.link_length 2 / (Polymers.BOLTZMANN_CONSTANT : α) / temperature) (self.link_energy / (Polymers.BOLTZMANN_CONSTANT : α) / temperature) nondimensional_end_to_end_length_per_link)

/-- `src/physics/single_chain/ufjc/morse/thermodynamics/isometric/asymptotic/legendre/py.rs` lines 98-101. -/
def MORSEFJC.helmholtz_free_energy (self : Polymers.Python.ufjc.morse.thermodynamics.isometric.asymptotic.legendre.MORSEFJC α) (end_to_end_length : NdArray α) (temperature : α) : NdArray α :=
  NdArray.mapv end_to_end_length (fun (end_to_end_length : α) => Polymers.ufjc.morse.thermodynamics.isometric.asymptotic.legendre.helmholtz_free_energy self.number_of_links self.link_length self.hinge_mass self.link_stiffness self.link_energy end_to_end_length temperature)

/-- `src/physics/single_chain/ufjc/morse/thermodynamics/isometric/asymptotic/legendre/py.rs` lines 111-114. -/
def MORSEFJC.helmholtz_free_energy_per_link (self : Polymers.Python.ufjc.morse.thermodynamics.isometric.asymptotic.legendre.MORSEFJC α) (end_to_end_length : NdArray α) (temperature : α) : NdArray α :=
  NdArray.mapv end_to_end_length (fun (end_to_end_length : α) => Polymers.ufjc.morse.thermodynamics.isometric.asymptotic.legendre.helmholtz_free_energy_per_link self.number_of_links self.link_length self.hinge_mass self.link_stiffness self.link_energy end_to_end_length temperature)

/-- `src/physics/single_chain/ufjc/morse/thermodynamics/isometric/asymptotic/legendre/py.rs` lines 124-127. -/
def MORSEFJC.relative_helmholtz_free_energy (self : Polymers.Python.ufjc.morse.thermodynamics.isometric.asymptotic.legendre.MORSEFJC α) (end_to_end_length : NdArray α) (temperature : α) : NdArray α :=
  NdArray.mapv end_to_end_length (fun (end_to_end_length : α) => Polymers.ufjc.morse.thermodynamics.isometric.asymptotic.legendre.relative_helmholtz_free_energy self.number_of_links self.link_length self.link_stiffness self.link_energy end_to_end_length temperature)

/-- `src/physics/single_chain/ufjc/morse/thermodynamics/isometric/asymptotic/legendre/py.rs` lines 137-140. -/
def MORSEFJC.relative_helmholtz_free_energy_per_link (self : Polymers.Python.ufjc.morse.thermodynamics.isometric.asymptotic.legendre.MORSEFJC α) (end_to_end_length : NdArray α) (temperature : α) : NdArray α :=
  NdArray.mapv end_to_end_length (fun (end_to_end_length : α) => Polymers.ufjc.morse.thermodynamics.isometric.asymptotic.legendre.relative_helmholtz_free_energy_per_link self.number_of_links self.link_length self.link_stiffness self.link_energy end_to_end_length temperature)

/-- `src/physics/single_chain/ufjc/morse/thermodynamics/isometric/asymptotic/legendre/py.rs` lines 150-153. -/
def MORSEFJC.nondimensional_helmholtz_free_energy (self : Polymers.Python.ufjc.morse.thermodynamics.isometric.asymptotic.legendre.MORSEFJC α) (nondimensional_end_to_end_length_per_link : NdArray α) (temperature : α) : NdArray α :=
  NdArray.mapv nondimensional_end_to_end_length_per_link (fun (nondimensional_end_to_end_length_per_link : α) => Polymers.ufjc.morse.thermodynamics.isometric.asymptotic.legendre.nondimensional_helmholtz_free_energy self.number_of_links self.link_length self.hinge_mass (self.link_stiffness * Elem.powi self.link_length 2 / (Polymers.BOLTZMANN_CONSTANT : α) / temperature) (self.link_energy / (Polymers.BOLTZMANN_CONSTANT : α) / temperature) nondimensional_end_to_end_length_per_link temperature)

/-- `src/physics/single_chain/ufjc/morse/thermodynamics/isometric/asymptotic/legendre/py.rs` lines 163-166. -/
def MORSEFJC.nondimensional_helmholtz_free_energy_per_link (self : Polymers.Python.ufjc.morse.thermodynamics.isometric.asymptotic.legendre.MORSEFJC α) (nondimensional_end_to_end_length_per_link : NdArray α) (temperature : α) : NdArray α :=
  NdArray.mapv nondimensional_end_to_end_length_per_link (fun (nondimensional_end_to_end_length_per_link : α) => Polymers.ufjc.morse.thermodynamics.isometric.asymptotic.legendre.nondimensional_helmholtz_free_energy_per_link self.number_of_links self.link_length self.hinge_mass (self.link_stiffness * Elem.powi self.link_length 2 / (Polymers.BOLTZMANN_CONSTANT : α) / temperature) (self.link_energy / (Polymers.BOLTZMANN_CONSTANT : α) / temperature) nondimensional_end_to_end_length_per_link temperature)

/-- `src/physics/single_chain/ufjc/morse/thermodynamics/isometric/asymptotic/legendre/py.rs` lines 175-178. -/
def MORSEFJC.nondimensional_relative_helmholtz_free_energy (self : Polymers.Python.ufjc.morse.thermodynamics.isometric.asymptotic.legendre.MORSEFJC α) (nondimensional_end_to_end_length_per_link : NdArray α) (temperature : α) : NdArray α :=
  NdArray.mapv nondimensional_end_to_end_length_per_link (fun (nondimensional_end_to_end_length_per_link : α) => Polymers.ufjc.morse.thermodynamics.isometric.asymptotic.legendre.nondimensional_relative_helmholtz_free_energy self.number_of_links (self.link_stiffness * Elem.powi self.link_length 2 / (Polymers.BOLTZMANN_CONSTANT : α) / temperature) (self.link_energy / (Polymers.BOLTZMANN_CONSTANT : α) / temperature) nondimensional_end_to_end_length_per_link)

/-- `src/physics/single_chain/ufjc/morse/thermodynamics/isometric/asymptotic/legendre/py.rs` lines 187-190. -/
def MORSEFJC.nondimensional_relative_helmholtz_free_energy_per_link (self : Polymers.Python.ufjc.morse.thermodynamics.isometric.asymptotic.legendre.MORSEFJC α) (nondimensional_end_to_end_length_per_link : NdArray α) (temperature : α) : NdArray α :=
  NdArray.mapv nondimensional_end_to_end_length_per_link (fun (nondimensional_end_to_end_length_per_link : α) => Polymers.ufjc.morse.thermodynamics.isometric.asymptotic.legendre.nondimensional_relative_helmholtz_free_energy_per_link (self.link_stiffness * Elem.powi self.link_length 2 / (Polymers.BOLTZMANN_CONSTANT : α) / temperature) (self.link_energy / (Polymers.BOLTZMANN_CONSTANT : α) / temperature) nondimensional_end_to_end_length_per_link)

end Polymers.Python.ufjc.morse.thermodynamics.isometric.asymptotic.legendre

namespace Polymers.Python.ufjc.morse.thermodynamics.isometric.asymptotic.reduced

/-- `src/physics/single_chain/ufjc/morse/thermodynamics/isometric/asymptotic/reduced/py.rs` lines 15-40: struct `MORSEFJC`. -/
structure MORSEFJC (α : Type) where
  /-- field `hinge_mass` -/
  hinge_mass : α
  /-- field `link_length` -/
  link_length : α
  /-- field `number_of_links` -/
  number_of_links : Nat
  /-- field `link_stiffness` -/
  link_stiffness : α
  /-- field `link_energy` -/
  link_energy : α
  /-- field `legendre` -/
  legendre : Polymers.Python.ufjc.morse.thermodynamics.isometric.asymptotic.reduced.legendre.MORSEFJC α

/-- `src/physics/single_chain/ufjc/morse/thermodynamics/isometric/asymptotic/reduced/py.rs` lines 46-57. -/
def MORSEFJC.init (number_of_links : Nat) (link_length : α) (hinge_mass : α) (link_stiffness : α) (link_energy : α) : Polymers.Python.ufjc.morse.thermodynamics.isometric.asymptotic.reduced.MORSEFJC α :=
  { hinge_mass := hinge_mass, link_length := link_length, number_of_links := number_of_links, link_stiffness := link_stiffness, link_energy := link_energy, legendre := Polymers.Python.ufjc.morse.thermodynamics.isometric.asymptotic.reduced.legendre.MORSEFJC.init number_of_links link_length hinge_mass link_stiffness link_energy }

end Polymers.Python.ufjc.morse.thermodynamics.isometric.asymptotic.reduced

namespace Polymers.Python.ufjc.morse.thermodynamics.isotensional.asymptotic.legendre

/-- `src/physics/single_chain/ufjc/morse/thermodynamics/isotensional/asymptotic/legendre/py.rs` lines 21-42: struct `MORSEFJC`. -/
structure MORSEFJC (α : Type) where
  /-- field `hinge_mass` -/
  hinge_mass : α
  /-- field `link_length` -/
  link_length : α
  /-- field `number_of_links` -/
  number_of_links : Nat
  /-- field `link_stiffness` -/
  link_stiffness : α
  /-- field `link_energy` -/
  link_energy : α

/-- `src/physics/single_chain/ufjc/morse/thermodynamics/isotensional/asymptotic/legendre/py.rs` lines 48-58. -/
def MORSEFJC.init (number_of_links : Nat) (link_length : α) (hinge_mass : α) (link_stiffness : α) (link_energy : α) : Polymers.Python.ufjc.morse.thermodynamics.isotensional.asymptotic.legendre.MORSEFJC α :=
  { hinge_mass := hinge_mass, link_length := link_length, number_of_links := number_of_links, link_stiffness := link_stiffness, link_energy := link_energy }

/-- `src/physics/single_chain/ufjc/morse/thermodynamics/isotensional/asymptotic/legendre/py.rs` lines 71-74. -/
def MORSEFJC.helmholtz_free_energy (self : Polymers.Python.ufjc.morse.thermodynamics.isotensional.asymptotic.legendre.MORSEFJC α) (force : NdArray α) (temperature : α) : NdArray α :=
  NdArray.mapv force (fun (force : α) => Polymers.ufjc.morse.thermodynamics.isotensional.asymptotic.legendre.helmholtz_free_energy self.number_of_links self.link_length self.hinge_mass self.link_stiffness self.link_energy force temperature)

/-- `src/physics/single_chain/ufjc/morse/thermodynamics/isotensional/asymptotic/legendre/py.rs` lines 84-87. -/
def MORSEFJC.helmholtz_free_energy_per_link (self : Polymers.Python.ufjc.morse.thermodynamics.isotensional.asymptotic.legendre.MORSEFJC α) (force : NdArray α) (temperature : α) : NdArray α :=
  NdArray.mapv force (fun (force : α) => Polymers.ufjc.morse.thermodynamics.isotensional.asymptotic.legendre.helmholtz_free_energy_per_link self.link_length self.hinge_mass self.link_stiffness self.link_energy force temperature)

/-- `src/physics/single_chain/ufjc/morse/thermodynamics/isotensional/asymptotic/legendre/py.rs` lines 97-100. -/
def MORSEFJC.relative_helmholtz_free_energy (self : Polymers.Python.ufjc.morse.thermodynamics.isotensional.asymptotic.legendre.MORSEFJC α) (force : NdArray α) (temperature : α) : NdArray α :=
  NdArray.mapv force (fun (force : α) => Polymers.ufjc.morse.thermodynamics.isotensional.asymptotic.legendre.relative_helmholtz_free_energy self.number_of_links self.link_length self.link_stiffness self.link_energy force temperature)

/-- `src/physics/single_chain/ufjc/morse/thermodynamics/isotensional/asymptotic/legendre/py.rs` lines 110-113. -/
def MORSEFJC.relative_helmholtz_free_energy_per_link (self : Polymers.Python.ufjc.morse.thermodynamics.isotensional.asymptotic.legendre.MORSEFJC α) (force : NdArray α) (temperature : α) : NdArray α :=
  NdArray.mapv force (fun (force : α) => Polymers.ufjc.morse.thermodynamics.isotensional.asymptotic.legendre.relative_helmholtz_free_energy_per_link self.link_length self.link_stiffness self.link_energy force temperature)

/-- `src/physics/single_chain/ufjc/morse/thermodynamics/isotensional/asymptotic/legendre/py.rs` lines 123-126. -/
def MORSEFJC.nondimensional_helmholtz_free_energy (self : Polymers.Python.ufjc.morse.thermodynamics.isotensional.asymptotic.legendre.MORSEFJC α) (nondimensional_force : NdArray α) (temperature : α) : NdArray α :=
  NdArray.mapv nondimensional_force (fun (nondimensional_force : α) => Polymers.ufjc.morse.thermodynamics.isotensional.asymptotic.legendre.nondimensional_helmholtz_free_energy self.number_of_links self.link_length self.hinge_mass (self.link_stiffness * Elem.powi self.link_length 2 / (Polymers.BOLTZMANN_CONSTANT : α) / temperature) (self.link_energy / (Polymers.BOLTZMANN_CONSTANT : α) / temperature) nondimensional_force temperature)

/-- `src/physics/single_chain/ufjc/morse/thermodynamics/isotensional/asymptotic/legendre/py.rs` lines 136-139. -/
def MORSEFJC.nondimensional_helmholtz_free_energy_per_link (self : Polymers.Python.ufjc.morse.thermodynamics.isotensional.asymptotic.legendre.MORSEFJC α) (nondimensional_force : NdArray α) (temperature : α) : NdArray α :=
  NdArray.mapv nondimensional_force (fun (nondimensional_force : α) => Polymers.ufjc.morse.thermodynamics.isotensional.asymptotic.legendre.nondimensional_helmholtz_free_energy_per_link self.link_length self.hinge_mass (self.link_stiffness * Elem.powi self.link_length 2 / (Polymers.BOLTZMANN_CONSTANT : α) / temperature) (self.link_energy / (Polymers.BOLTZMANN_CONSTANT : α) / temperature) nondimensional_force temperature)

/-- `src/physics/single_chain/ufjc/morse/thermodynamics/isotensional/asymptotic/legendre/py.rs` lines 149-152. -/
def MORSEFJC.nondimensional_relative_helmholtz_free_energy (self : Polymers.Python.ufjc.morse.thermodynamics.isotensional.asymptotic.legendre.MORSEFJC α) (nondimensional_force : NdArray α) (temperature : α) : NdArray α :=
  NdArray.mapv nondimensional_force (fun (nondimensional_force : α) => Polymers.ufjc.morse.thermodynamics.isotensional.asymptotic.legendre.nondimensional_relative_helmholtz_free_energy self.number_of_links (self.link_stiffness * Elem.powi self.link_length 2 / (Polymers.BOLTZMANN_CONSTANT : α) / temperature) (self.link_energy / (Polymers.BOLTZMANN_CONSTANT : α) / temperature) nondimensional_force)

/-- `src/physics/single_chain/ufjc/morse/thermodynamics/isotensional/asymptotic/legendre/py.rs` lines 162-165. -/
def MORSEFJC.nondimensional_relative_helmholtz_free_energy_per_link (self : Polymers.Python.ufjc.morse.thermodynamics.isotensional.asymptotic.legendre.MORSEFJC α) (nondimensional_force : NdArray α) (temperature : α) : NdArray α :=
  NdArray.mapv nondimensional_force (fun (nondimensional_force : α) => Polymers.ufjc.morse.thermodynamics.isotensional.asymptotic.legendre.nondimensional_relative_helmholtz_free_energy_per_link (self.link_stiffness * Elem.powi self.link_length 2 / (Polymers.BOLTZMANN_CONSTANT : α) / temperature) (self.link_energy / (Polymers.BOLTZMANN_CONSTANT : α) / temperature) nondimensional_force)

end Polymers.Python.ufjc.morse.thermodynamics.isotensional.asymptotic.legendre

namespace Polymers.Python.ufjc.morse.thermodynamics.isotensional.asymptotic.reduced

/-- `src/physics/single_chain/ufjc/morse/thermodynamics/isotensional/asymptotic/reduced/py.rs` lines 22-47: struct `MORSEFJC`. -/
structure MORSEFJC (α : Type) where
  /-- field `hinge_mass` -/
  hinge_mass : α
  /-- field `link_length` -/
  link_length : α
  /-- field `number_of_links` -/
  number_of_links : Nat
  /-- field `link_stiffness` -/
  link_stiffness : α
  /-- field `link_energy` -/
  link_energy : α
  /-- field `legendre` -/
  legendre : Polymers.Python.ufjc.morse.thermodynamics.isotensional.asymptotic.reduced.legendre.MORSEFJC α

/-- `src/physics/single_chain/ufjc/morse/thermodynamics/isotensional/asymptotic/reduced/py.rs` lines 53-64. -/
def MORSEFJC.init (number_of_links : Nat) (link_length : α) (hinge_mass : α) (link_stiffness : α) (link_energy : α) : Polymers.Python.ufjc.morse.thermodynamics.isotensional.asymptotic.reduced.MORSEFJC α :=
  { hinge_mass := hinge_mass, link_length := link_length, number_of_links := number_of_links, link_stiffness := link_stiffness, link_energy := link_energy, legendre := Polymers.Python.ufjc.morse.thermodynamics.isotensional.asymptotic.reduced.legendre.MORSEFJC.init number_of_links link_length hinge_mass link_stiffness link_energy }

/-- `src/physics/single_chain/ufjc/morse/thermodynamics/isotensional/asymptotic/reduced/py.rs` lines 77-80. -/
def MORSEFJC.end_to_end_length (self : Polymers.Python.ufjc.morse.thermodynamics.isotensional.asymptotic.reduced.MORSEFJC α) (force : NdArray α) (temperature : α) : NdArray α :=
  NdArray.mapv force (fun (force : α) => Polymers.ufjc.morse.thermodynamics.isotensional.asymptotic.reduced.end_to_end_length self.number_of_links self.link_length self.link_stiffness self.link_energy force temperature)

/-- `src/physics/single_chain/ufjc/morse/thermodynamics/isotensional/asymptotic/reduced/py.rs` lines 90-93. -/
def MORSEFJC.end_to_end_length_per_link (self : Polymers.Python.ufjc.morse.thermodynamics.isotensional.asymptotic.reduced.MORSEFJC α) (force : NdArray α) (temperature : α) : NdArray α :=
  NdArray.mapv force (fun (force : α) => Polymers.ufjc.morse.thermodynamics.isotensional.asymptotic.reduced.end_to_end_length_per_link self.link_length self.link_stiffness self.link_energy force temperature)

/-- `src/physics/single_chain/ufjc/morse/thermodynamics/isotensional/asymptotic/reduced/py.rs` lines 103-106. -/
def MORSEFJC.nondimensional_end_to_end_length (self : Polymers.Python.ufjc.morse.thermodynamics.isotensional.asymptotic.reduced.MORSEFJC α) (nondimensional_force : NdArray α) (temperature : α) : NdArray α :=
  NdArray.mapv nondimensional_force (fun (nondimensional_force : α) => Polymers.ufjc.morse.thermodynamics.isotensional.asymptotic.reduced.nondimensional_end_to_end_length self.number_of_links (self.link_stiffness * Elem.powi self.link_length 2 / (Polymers.BOLTZMANN_CONSTANT : α) / temperature) (self.link_energy / (Polymers.BOLTZMANN_CONSTANT : α) / temperature) nondimensional_force)

/-- `src/physics/single_chain/ufjc/morse/thermodynamics/isotensional/asymptotic/reduced/py.rs` lines 126-129. -/
def MORSEFJC.nondimensional_end_to_end_length_per_link (self : Polymers.Python.ufjc.morse.thermodynamics.isotensional.asymptotic.reduced.MORSEFJC α) (nondimensional_force : NdArray α) (temperature : α) : NdArray α :=
  NdArray.mapv nondimensional_force (fun (nondimensional_force : α) => Polymers.ufjc.morse.thermodynamics.isotensional.asymptotic.reduced.nondimensional_end_to_end_length_per_link (self.link_stiffness * Elem.powi self.link_length 2 / (Polymers.BOLTZMANN_CONSTANT : α) / temperature) (self.link_energy / (Polymers.BOLTZMANN_CONSTANT : α) / temperature) nondimensional_force)

/-- `src/physics/single_chain/ufjc/morse/thermodynamics/isotensional/asymptotic/reduced/py.rs` lines 142-145. -/
def MORSEFJC.gibbs_free_energy (self : Polymers.Python.ufjc.morse.thermodynamics.isotensional.asymptotic.reduced.MORSEFJC α) (force : NdArray α) (temperature : α) : NdArray α :=
  NdArray.mapv force (fun (force : α) => Polymers.ufjc.morse.thermodynamics.isotensional.asymptotic.reduced.gibbs_free_energy self.number_of_links self.link_length self.hinge_mass self.link_stiffness self.link_energy force temperature)

/-- `src/physics/single_chain/ufjc/morse/thermodynamics/isotensional/asymptotic/reduced/py.rs` lines 155-158. -/
def MORSEFJC.gibbs_free_energy_per_link (self : Polymers.Python.ufjc.morse.thermodynamics.isotensional.asymptotic.reduced.MORSEFJC α) (force : NdArray α) (temperature : α) : NdArray α :=
  NdArray.mapv force (fun (force : α) => Polymers.ufjc.morse.thermodynamics.isotensional.asymptotic.reduced.gibbs_free_energy_per_link self.link_length self.hinge_mass self.link_stiffness self.link_energy force temperature)

/-- `src/physics/single_chain/ufjc/morse/thermodynamics/isotensional/asymptotic/reduced/py.rs` lines 168-171. -/
def MORSEFJC.relative_gibbs_free_energy (self : Polymers.Python.ufjc.morse.thermodynamics.isotensional.asymptotic.reduced.MORSEFJC α) (force : NdArray α) (temperature : α) : NdArray α :=
  NdArray.mapv force (fun (force : α) => Polymers.ufjc.morse.thermodynamics.isotensional.asymptotic.reduced.relative_gibbs_free_energy self.number_of_links self.link_length self.link_stiffness self.link_energy force temperature)

/-- `src/physics/single_chain/ufjc/morse/thermodynamics/isotensional/asymptotic/reduced/py.rs` lines 181-184. -/
def MORSEFJC.relative_gibbs_free_energy_per_link (self : Polymers.Python.ufjc.morse.thermodynamics.isotensional.asymptotic.reduced.MORSEFJC α) (force : NdArray α) (temperature : α) : NdArray α :=
  NdArray.mapv force (fun (force : α) => Polymers.ufjc.morse.thermodynamics.isotensional.asymptotic.reduced.relative_gibbs_free_energy_per_link self.link_length self.link_stiffness self.link_energy force temperature)

/-- `src/physics/single_chain/ufjc/morse/thermodynamics/isotensional/asymptotic/reduced/py.rs` lines 194-197. -/
def MORSEFJC.nondimensional_gibbs_free_energy (self : Polymers.Python.ufjc.morse.thermodynamics.isotensional.asymptotic.reduced.MORSEFJC α) (nondimensional_force : NdArray α) (temperature : α) : NdArray α :=
  NdArray.mapv nondimensional_force (fun (nondimensional_force : α) => Polymers.ufjc.morse.thermodynamics.isotensional.asymptotic.reduced.nondimensional_gibbs_free_energy self.number_of_links self.link_length self.hinge_mass (self.link_stiffness * Elem.powi self.link_length 2 / (Polymers.BOLTZMANN_CONSTANT : α) / temperature) (self.link_energy / (Polymers.BOLTZMANN_CONSTANT : α) / temperature) nondimensional_force temperature)

/-- `src/physics/single_chain/ufjc/morse/thermodynamics/isotensional/asymptotic/reduced/py.rs` lines 207-210. -/
def MORSEFJC.nondimensional_gibbs_free_energy_per_link (self : Polymers.Python.ufjc.morse.thermodynamics.isotensional.asymptotic.reduced.MORSEFJC α) (nondimensional_force : NdArray α) (temperature : α) : NdArray α :=
  NdArray.mapv nondimensional_force (fun (nondimensional_force : α) => Polymers.ufjc.morse.thermodynamics.isotensional.asymptotic.reduced.nondimensional_gibbs_free_energy_per_link self.link_length self.hinge_mass (self.link_stiffness * Elem.powi self.link_length 2 / (Polymers.BOLTZMANN_CONSTANT : α) / temperature) (self.link_energy / (Polymers.BOLTZMANN_CONSTANT : α) / temperature) nondimensional_force temperature)

/-- `src/physics/single_chain/ufjc/morse/thermodynamics/isotensional/asymptotic/reduced/py.rs` lines 220-223. -/
def MORSEFJC.nondimensional_relative_gibbs_free_energy (self : Polymers.Python.ufjc.morse.thermodynamics.isotensional.asymptotic.reduced.MORSEFJC α) (nondimensional_force : NdArray α) (temperature : α) : NdArray α :=
  NdArray.mapv nondimensional_force (fun (nondimensional_force : α) => Polymers.ufjc.morse.thermodynamics.isotensional.asymptotic.reduced.nondimensional_relative_gibbs_free_energy self.number_of_links (self.link_stiffness * Elem.powi self.link_length 2 / (Polymers.BOLTZMANN_CONSTANT : α) / temperature) (self.link_energy / (Polymers.BOLTZMANN_CONSTANT : α) / temperature) nondimensional_force)

/-- `src/physics/single_chain/ufjc/morse/thermodynamics/isotensional/asymptotic/reduced/py.rs` lines 246-249. -/
def MORSEFJC.nondimensional_relative_gibbs_free_energy_per_link (self : Polymers.Python.ufjc.morse.thermodynamics.isotensional.asymptotic.reduced.MORSEFJC α) (nondimensional_force : NdArray α) (temperature : α) : NdArray α :=
  NdArray.mapv nondimensional_force (fun (nondimensional_force : α) => Polymers.ufjc.morse.thermodynamics.isotensional.asymptotic.reduced.nondimensional_relative_gibbs_free_energy_per_link (self.link_stiffness * Elem.powi self.link_length 2 / (Polymers.BOLTZMANN_CONSTANT : α) / temperature) (self.link_energy / (Polymers.BOLTZMANN_CONSTANT : α) / temperature) nondimensional_force)

end Polymers.Python.ufjc.morse.thermodynamics.isotensional.asymptotic.reduced

namespace Polymers.Python.ufjc.morse.thermodynamics.isometric.asymptotic

/-- `src/physics/single_chain/ufjc/morse/thermodynamics/isometric/asymptotic/py.rs` lines 16-45: struct `MORSEFJC`. -/
structure MORSEFJC (α : Type) where
  /-- field `hinge_mass` -/
  hinge_mass : α
  /-- field `link_length` -/
  link_length : α
  /-- field `number_of_links` -/
  number_of_links : Nat
  /-- field `link_stiffness` -/
  link_stiffness : α
  /-- field `link_energy` -/
  link_energy : α
  /-- field `reduced` -/
  reduced : Polymers.Python.ufjc.morse.thermodynamics.isometric.asymptotic.reduced.MORSEFJC α
  /-- field `legendre` -/
  legendre : Polymers.Python.ufjc.morse.thermodynamics.isometric.asymptotic.legendre.MORSEFJC α

/-- `src/physics/single_chain/ufjc/morse/thermodynamics/isometric/asymptotic/py.rs` lines 51-63. -/
def MORSEFJC.init (number_of_links : Nat) (link_length : α) (hinge_mass : α) (link_stiffness : α) (link_energy : α) : Polymers.Python.ufjc.morse.thermodynamics.isometric.asymptotic.MORSEFJC α :=
  { hinge_mass := hinge_mass, link_length := link_length, number_of_links := number_of_links, link_stiffness := link_stiffness, link_energy := link_energy, reduced := Polymers.Python.ufjc.morse.thermodynamics.isometric.asymptotic.reduced.MORSEFJC.init number_of_links link_length hinge_mass link_stiffness link_energy, legendre := Polymers.Python.ufjc.morse.thermodynamics.isometric.asymptotic.legendre.MORSEFJC.init number_of_links link_length hinge_mass link_stiffness link_energy }

end Polymers.Python.ufjc.morse.thermodynamics.isometric.asymptotic

namespace Polymers.Python.ufjc.morse.thermodynamics.isotensional.asymptotic

/-- `src/physics/single_chain/ufjc/morse/thermodynamics/isotensional/asymptotic/py.rs` lines 23-52: struct `MORSEFJC`. -/
structure MORSEFJC (α : Type) where
  /-- field `hinge_mass` -/
  hinge_mass : α
  /-- field `link_length` -/
  link_length : α
  /-- field `number_of_links` -/
  number_of_links : Nat
  /-- field `link_stiffness` -/
  link_stiffness : α
  /-- field `link_energy` -/
  link_energy : α
  /-- field `reduced` -/
  reduced : Polymers.Python.ufjc.morse.thermodynamics.isotensional.asymptotic.reduced.MORSEFJC α
  /-- field `legendre` -/
  legendre : Polymers.Python.ufjc.morse.thermodynamics.isotensional.asymptotic.legendre.MORSEFJC α

/-- `src/physics/single_chain/ufjc/morse/thermodynamics/isotensional/asymptotic/py.rs` lines 58-70. -/
def MORSEFJC.init (number_of_links : Nat) (link_length : α) (hinge_mass : α) (link_stiffness : α) (link_energy : α) : Polymers.Python.ufjc.morse.thermodynamics.isotensional.asymptotic.MORSEFJC α :=
  { hinge_mass := hinge_mass, link_length := link_length, number_of_links := number_of_links, link_stiffness := link_stiffness, link_energy := link_energy, reduced := Polymers.Python.ufjc.morse.thermodynamics.isotensional.asymptotic.reduced.MORSEFJC.init number_of_links link_length hinge_mass link_stiffness link_energy, legendre := Polymers.Python.ufjc.morse.thermodynamics.isotensional.asymptotic.legendre.MORSEFJC.init number_of_links link_length hinge_mass link_stiffness link_energy }

/-- `src/physics/single_chain/ufjc/morse/thermodynamics/isotensional/asymptotic/py.rs` lines 83-86. -/
def MORSEFJC.end_to_end_length (self : Polymers.Python.ufjc.morse.thermodynamics.isotensional.asymptotic.MORSEFJC α) (force : NdArray α) (temperature : α) : NdArray α :=
  NdArray.mapv force (fun (force : α) => Polymers.ufjc.morse.thermodynamics.isotensional.asymptotic.end_to_end_length self.number_of_links self.link_length self.link_stiffness self.link_energy force temperature)

/-- `src/physics/single_chain/ufjc/morse/thermodynamics/isotensional/asymptotic/py.rs` lines 96-99. -/
def MORSEFJC.end_to_end_length_per_link (self : Polymers.Python.ufjc.morse.thermodynamics.isotensional.asymptotic.MORSEFJC α) (force : NdArray α) (temperature : α) : NdArray α :=
  NdArray.mapv force (fun (force : α) => Polymers.ufjc.morse.thermodynamics.isotensional.asymptotic.end_to_end_length_per_link self.link_length self.link_stiffness self.link_energy force temperature)

/-- `src/physics/single_chain/ufjc/morse/thermodynamics/isotensional/asymptotic/py.rs` lines 109-112. -/
def MORSEFJC.nondimensional_end_to_end_length (self : Polymers.Python.ufjc.morse.thermodynamics.isotensional.asymptotic.MORSEFJC α) (nondimensional_force : NdArray α) (temperature : α) : NdArray α :=
  NdArray.mapv nondimensional_force (fun (nondimensional_force : α) => Polymers.ufjc.morse.thermodynamics.isotensional.asymptotic.nondimensional_end_to_end_length self.number_of_links (self.link_stiffness * Elem.powi self.link_length 2 / (Polymers.BOLTZMANN_CONSTANT : α) / temperature) (self.link_energy / (Polymers.BOLTZMANN_CONSTANT : α) / temperature) nondimensional_force)

/-- `src/physics/single_chain/ufjc/morse/thermodynamics/isotensional/asymptotic/py.rs` lines 132-135. -/
def MORSEFJC.nondimensional_end_to_end_length_per_link (self : Polymers.Python.ufjc.morse.thermodynamics.isotensional.asymptotic.MORSEFJC α) (nondimensional_force : NdArray α) (temperature : α) : NdArray α :=
  NdArray.mapv nondimensional_force (fun (nondimensional_force : α) => Polymers.ufjc.morse.thermodynamics.isotensional.asymptotic.nondimensional_end_to_end_length_per_link (self.link_stiffness * Elem.powi self.link_length 2 / (Polymers.BOLTZMANN_CONSTANT : α) / temperature) (self.link_energy / (Polymers.BOLTZMANN_CONSTANT : α) / temperature) nondimensional_force)

/-- `src/physics/single_chain/ufjc/morse/thermodynamics/isotensional/asymptotic/py.rs` lines 148-151. -/
def MORSEFJC.gibbs_free_energy (self : Polymers.Python.ufjc.morse.thermodynamics.isotensional.asymptotic.MORSEFJC α) (force : NdArray α) (temperature : α) : NdArray α :=
  NdArray.mapv force (fun (force : α) => Polymers.ufjc.morse.thermodynamics.isotensional.asymptotic.gibbs_free_energy self.number_of_links self.link_length self.hinge_mass self.link_stiffness self.link_energy force temperature)

/-- `src/physics/single_chain/ufjc/morse/thermodynamics/isotensional/asymptotic/py.rs` lines 161-164. -/
def MORSEFJC.gibbs_free_energy_per_link (self : Polymers.Python.ufjc.morse.thermodynamics.isotensional.asymptotic.MORSEFJC α) (force : NdArray α) (temperature : α) : NdArray α :=
  NdArray.mapv force (fun (force : α) => Polymers.ufjc.morse.thermodynamics.isotensional.asymptotic.gibbs_free_energy_per_link self.link_length self.hinge_mass self.link_stiffness self.link_energy force temperature)

/-- `src/physics/single_chain/ufjc/morse/thermodynamics/isotensional/asymptotic/py.rs` lines 174-177. -/
def MORSEFJC.relative_gibbs_free_energy (self : Polymers.Python.ufjc.morse.thermodynamics.isotensional.asymptotic.MORSEFJC α) (force : NdArray α) (temperature : α) : NdArray α :=
  NdArray.mapv force (fun (force : α) => Polymers.ufjc.morse.thermodynamics.isotensional.asymptotic.relative_gibbs_free_energy self.number_of_links self.link_length self.link_stiffness self.link_energy force temperature)

/-- `src/physics/single_chain/ufjc/morse/thermodynamics/isotensional/asymptotic/py.rs` lines 187-190. -/
def MORSEFJC.relative_gibbs_free_energy_per_link (self : Polymers.Python.ufjc.morse.thermodynamics.isotensional.asymptotic.MORSEFJC α) (force : NdArray α) (temperature : α) : NdArray α :=
  NdArray.mapv force (fun (force : α) => Polymers.ufjc.morse.thermodynamics.isotensional.asymptotic.relative_gibbs_free_energy_per_link self.link_length self.link_stiffness self.link_energy force temperature)

/-- `src/physics/single_chain/ufjc/morse/thermodynamics/isotensional/asymptotic/py.rs` lines 200-203. -/
def MORSEFJC.nondimensional_gibbs_free_energy (self : Polymers.Python.ufjc.morse.thermodynamics.isotensional.asymptotic.MORSEFJC α) (nondimensional_force : NdArray α) (temperature : α) : NdArray α :=
  NdArray.mapv nondimensional_force (fun (nondimensional_force : α) => Polymers.ufjc.morse.thermodynamics.isotensional.asymptotic.nondimensional_gibbs_free_energy self.number_of_links self.link_length self.hinge_mass (self.link_stiffness * Elem.powi self.link_length 2 / (Polymers.BOLTZMANN_CONSTANT : α) / temperature) (self.link_energy / (Polymers.BOLTZMANN_CONSTANT : α) / temperature) nondimensional_force temperature)

/-- `src/physics/single_chain/ufjc/morse/thermodynamics/isotensional/asymptotic/py.rs` lines 213-216. -/
def MORSEFJC.nondimensional_gibbs_free_energy_per_link (self : Polymers.Python.ufjc.morse.thermodynamics.isotensional.asymptotic.MORSEFJC α) (nondimensional_force : NdArray α) (temperature : α) : NdArray α :=
  NdArray.mapv nondimensional_force (fun (nondimensional_force : α) => Polymers.ufjc.morse.thermodynamics.isotensional.asymptotic.nondimensional_gibbs_free_energy_per_link self.link_length self.hinge_mass (self.link_stiffness * Elem.powi self.link_length 2 / (Polymers.BOLTZMANN_CONSTANT : α) / temperature) (self.link_energy / (Polymers.BOLTZMANN_CONSTANT : α) / temperature) nondimensional_force temperature)

/-- `src/physics/single_chain/ufjc/morse/thermodynamics/isotensional/asymptotic/py.rs` lines 226-229. -/
def MORSEFJC.nondimensional_relative_gibbs_free_energy (self : Polymers.Python.ufjc.morse.thermodynamics.isotensional.asymptotic.MORSEFJC α) (nondimensional_force : NdArray α) (temperature : α) : NdArray α :=
  NdArray.mapv nondimensional_force (fun (nondimensional_force : α) => Polymers.ufjc.morse.thermodynamics.isotensional.asymptotic.nondimensional_relative_gibbs_free_energy self.number_of_links (self.link_stiffness * Elem.powi self.link_length 2 / (Polymers.BOLTZMANN_CONSTANT : α) / temperature) (self.link_energy / (Polymers.BOLTZMANN_CONSTANT : α) / temperature) nondimensional_force)

/-- `src/physics/single_chain/ufjc/morse/thermodynamics/isotensional/asymptotic/py.rs` lines 253-256. -/
def MORSEFJC.nondimensional_relative_gibbs_free_energy_per_link (self : Polymers.Python.ufjc.morse.thermodynamics.isotensional.asymptotic.MORSEFJC α) (nondimensional_force : NdArray α) (temperature : α) : NdArray α :=
  NdArray.mapv nondimensional_force (fun (nondimensional_force : α) => Polymers.ufjc.morse.thermodynamics.isotensional.asymptotic.nondimensional_relative_gibbs_free_energy_per_link (self.link_stiffness * Elem.powi self.link_length 2 / (Polymers.BOLTZMANN_CONSTANT : α) / temperature) (self.link_energy / (Polymers.BOLTZMANN_CONSTANT : α) / temperature) nondimensional_force)

end Polymers.Python.ufjc.morse.thermodynamics.isotensional.asymptotic

namespace Polymers.Python.ufjc.morse.thermodynamics.isotensional.legendre

/-- `src/physics/single_chain/ufjc/morse/thermodynamics/isotensional/legendre/py.rs` lines 21-42: struct `MORSEFJC`. -/
structure MORSEFJC (α : Type) where
  /-- field `hinge_mass` -/
  hinge_mass : α
  /-- field `link_length` -/
  link_length : α
  /-- field `number_of_links` -/
  number_of_links : Nat
  /-- field `link_stiffness` -/
  link_stiffness : α
  /-- field `link_energy` -/
  link_energy : α

/-- `src/physics/single_chain/ufjc/morse/thermodynamics/isotensional/legendre/py.rs` lines 48-58. -/
def MORSEFJC.init (number_of_links : Nat) (link_length : α) (hinge_mass : α) (link_stiffness : α) (link_energy : α) : Polymers.Python.ufjc.morse.thermodynamics.isotensional.legendre.MORSEFJC α :=
  { hinge_mass := hinge_mass, link_length := link_length, number_of_links := number_of_links, link_stiffness := link_stiffness, link_energy := link_energy }

/-- `src/physics/single_chain/ufjc/morse/thermodynamics/isotensional/legendre/py.rs` lines 71-74. -/
def MORSEFJC.helmholtz_free_energy (self : Polymers.Python.ufjc.morse.thermodynamics.isotensional.legendre.MORSEFJC α) (force : NdArray α) (temperature : α) : NdArray α :=
  NdArray.mapv force (fun (force : α) => Polymers.ufjc.morse.thermodynamics.isotensional.legendre.helmholtz_free_energy self.number_of_links self.link_length self.hinge_mass self.link_stiffness self.link_energy force temperature)

/-- `src/physics/single_chain/ufjc/morse/thermodynamics/isotensional/legendre/py.rs` lines 84-87. -/
def MORSEFJC.helmholtz_free_energy_per_link (self : Polymers.Python.ufjc.morse.thermodynamics.isotensional.legendre.MORSEFJC α) (force : NdArray α) (temperature : α) : NdArray α :=
  NdArray.mapv force (fun (force : α) => Polymers.ufjc.morse.thermodynamics.isotensional.legendre.helmholtz_free_energy_per_link self.link_length self.hinge_mass self.link_stiffness self.link_energy force temperature)

/-- `src/physics/single_chain/ufjc/morse/thermodynamics/isotensional/legendre/py.rs` lines 97-100. -/
def MORSEFJC.relative_helmholtz_free_energy (self : Polymers.Python.ufjc.morse.thermodynamics.isotensional.legendre.MORSEFJC α) (force : NdArray α) (temperature : α) : NdArray α :=
  NdArray.mapv force (fun (force : α) => Polymers.ufjc.morse.thermodynamics.isotensional.legendre.relative_helmholtz_free_energy self.number_of_links self.link_length self.link_stiffness self.link_energy force temperature)

/-- `src/physics/single_chain/ufjc/morse/thermodynamics/isotensional/legendre/py.rs` lines 110-113. -/
def MORSEFJC.relative_helmholtz_free_energy_per_link (self : Polymers.Python.ufjc.morse.thermodynamics.isotensional.legendre.MORSEFJC α) (force : NdArray α) (temperature : α) : NdArray α :=
  NdArray.mapv force (fun (force : α) => Polymers.ufjc.morse.thermodynamics.isotensional.legendre.relative_helmholtz_free_energy_per_link self.link_length self.link_stiffness self.link_energy force temperature)

/-- `src/physics/single_chain/ufjc/morse/thermodynamics/isotensional/legendre/py.rs` lines 123-126. -/
def MORSEFJC.nondimensional_helmholtz_free_energy (self : Polymers.Python.ufjc.morse.thermodynamics.isotensional.legendre.MORSEFJC α) (nondimensional_force : NdArray α) (temperature : α) : NdArray α :=
  NdArray.mapv nondimensional_force (fun (nondimensional_force : α) => Polymers.ufjc.morse.thermodynamics.isotensional.legendre.nondimensional_helmholtz_free_energy self.number_of_links self.link_length self.hinge_mass (self.link_stiffness * Elem.powi self.link_length 2 / (Polymers.BOLTZMANN_CONSTANT : α) / temperature) (self.link_energy / (Polymers.BOLTZMANN_CONSTANT : α) / temperature) nondimensional_force temperature)

/-- `src/physics/single_chain/ufjc/morse/thermodynamics/isotensional/legendre/py.rs` lines 136-139. -/
def MORSEFJC.nondimensional_helmholtz_free_energy_per_link (self : Polymers.Python.ufjc.morse.thermodynamics.isotensional.legendre.MORSEFJC α) (nondimensional_force : NdArray α) (temperature : α) : NdArray α :=
  NdArray.mapv nondimensional_force (fun (nondimensional_force : α) => Polymers.ufjc.morse.thermodynamics.isotensional.legendre.nondimensional_helmholtz_free_energy_per_link self.link_length self.hinge_mass (self.link_stiffness * Elem.powi self.link_length 2 / (Polymers.BOLTZMANN_CONSTANT : α) / temperature) (self.link_energy / (Polymers.BOLTZMANN_CONSTANT : α) / temperature) nondimensional_force temperature)

/-- `src/physics/single_chain/ufjc/morse/thermodynamics/isotensional/legendre/py.rs` lines 149-152. -/
def MORSEFJC.nondimensional_relative_helmholtz_free_energy (self : Polymers.Python.ufjc.morse.thermodynamics.isotensional.legendre.MORSEFJC α) (nondimensional_force : NdArray α) (temperature : α) : NdArray α :=
  NdArray.mapv nondimensional_force (fun (nondimensional_force : α) => Polymers.ufjc.morse.thermodynamics.isotensional.legendre.nondimensional_relative_helmholtz_free_energy self.number_of_links (self.link_stiffness * Elem.powi self.link_length 2 / (Polymers.BOLTZMANN_CONSTANT : α) / temperature) (self.link_energy / (Polymers.BOLTZMANN_CONSTANT : α) / temperature) nondimensional_force)

/-- `src/physics/single_chain/ufjc/morse/thermodynamics/isotensional/legendre/py.rs` lines 162-165. -/
def MORSEFJC.nondimensional_relative_helmholtz_free_energy_per_link (self : Polymers.Python.ufjc.morse.thermodynamics.isotensional.legendre.MORSEFJC α) (nondimensional_force : NdArray α) (temperature : α) : NdArray α :=
  NdArray.mapv nondimensional_force (fun (nondimensional_force : α) => Polymers.ufjc.morse.thermodynamics.isotensional.legendre.nondimensional_relative_helmholtz_free_energy_per_link (self.link_stiffness * Elem.powi self.link_length 2 / (Polymers.BOLTZMANN_CONSTANT : α) / temperature) (self.link_energy / (Polymers.BOLTZMANN_CONSTANT : α) / temperature) nondimensional_force)

end Polymers.Python.ufjc.morse.thermodynamics.isotensional.legendre

namespace Polymers.Python.ufjc.morse.thermodynamics.isometric

/-- `src/physics/single_chain/ufjc/morse/thermodynamics/isometric/py.rs` lines 15-40: struct `MORSEFJC`. -/
structure MORSEFJC (α : Type) where
  /-- field `hinge_mass` -/
  hinge_mass : α
  /-- field `link_length` -/
  link_length : α
  /-- field `number_of_links` -/
  number_of_links : Nat
  /-- field `link_stiffness` -/
  link_stiffness : α
  /-- field `link_energy` -/
  link_energy : α
  /-- field `asymptotic` -/
  asymptotic : Polymers.Python.ufjc.morse.thermodynamics.isometric.asymptotic.MORSEFJC α

/-- `src/physics/single_chain/ufjc/morse/thermodynamics/isometric/py.rs` lines 46-57. -/
def MORSEFJC.init (number_of_links : Nat) (link_length : α) (hinge_mass : α) (link_stiffness : α) (link_energy : α) : Polymers.Python.ufjc.morse.thermodynamics.isometric.MORSEFJC α :=
  { hinge_mass := hinge_mass, link_length := link_length, number_of_links := number_of_links, link_stiffness := link_stiffness, link_energy := link_energy, asymptotic := Polymers.Python.ufjc.morse.thermodynamics.isometric.asymptotic.MORSEFJC.init number_of_links link_length hinge_mass link_stiffness link_energy }

end Polymers.Python.ufjc.morse.thermodynamics.isometric

namespace Polymers.Python.ufjc.morse.thermodynamics.isotensional

/-- `src/physics/single_chain/ufjc/morse/thermodynamics/isotensional/py.rs` lines 23-52: struct `MORSEFJC`. -/
structure MORSEFJC (α : Type) where
  /-- field `hinge_mass` -/
  hinge_mass : α
  /-- field `link_length` -/
  link_length : α
  /-- field `number_of_links` -/
  number_of_links : Nat
  /-- field `link_stiffness` -/
  link_stiffness : α
  /-- field `link_energy` -/
  link_energy : α
  /-- field `asymptotic` -/
  asymptotic : Polymers.Python.ufjc.morse.thermodynamics.isotensional.asymptotic.MORSEFJC α
  /-- field `legendre` -/
  legendre : Polymers.Python.ufjc.morse.thermodynamics.isotensional.legendre.MORSEFJC α

/-- `src/physics/single_chain/ufjc/morse/thermodynamics/isotensional/py.rs` lines 58-70. -/
def MORSEFJC.init (number_of_links : Nat) (link_length : α) (hinge_mass : α) (link_stiffness : α) (link_energy : α) : Polymers.Python.ufjc.morse.thermodynamics.isotensional.MORSEFJC α :=
  { hinge_mass := hinge_mass, link_length := link_length, number_of_links := number_of_links, link_stiffness := link_stiffness, link_energy := link_energy, asymptotic := Polymers.Python.ufjc.morse.thermodynamics.isotensional.asymptotic.MORSEFJC.init number_of_links link_length hinge_mass link_stiffness link_energy, legendre := Polymers.Python.ufjc.morse.thermodynamics.isotensional.legendre.MORSEFJC.init number_of_links link_length hinge_mass link_stiffness link_energy }

/-- `src/physics/single_chain/ufjc/morse/thermodynamics/isotensional/py.rs` lines 83-86. -/
def MORSEFJC.end_to_end_length (self : Polymers.Python.ufjc.morse.thermodynamics.isotensional.MORSEFJC α) (force : NdArray α) (temperature : α) : NdArray α :=
  NdArray.mapv force (fun (force : α) => Polymers.ufjc.morse.thermodynamics.isotensional.end_to_end_length self.number_of_links self.link_length self.link_stiffness self.link_energy force temperature)

/-- `src/physics/single_chain/ufjc/morse/thermodynamics/isotensional/py.rs` lines 96-99. -/
def MORSEFJC.end_to_end_length_per_link (self : Polymers.Python.ufjc.morse.thermodynamics.isotensional.MORSEFJC α) (force : NdArray α) (temperature : α) : NdArray α :=
  NdArray.mapv force (fun (force : α) => Polymers.ufjc.morse.thermodynamics.isotensional.end_to_end_length_per_link self.link_length self.link_stiffness self.link_energy force temperature)

/-- `src/physics/single_chain/ufjc/morse/thermodynamics/isotensional/py.rs` lines 109-112. -/
def MORSEFJC.nondimensional_end_to_end_length (self : Polymers.Python.ufjc.morse.thermodynamics.isotensional.MORSEFJC α) (nondimensional_force : NdArray α) (temperature : α) : NdArray α :=
  NdArray.mapv nondimensional_force (fun (nondimensional_force : α) => Polymers.ufjc.morse.thermodynamics.isotensional.nondimensional_end_to_end_length self.number_of_links (self.link_stiffness * Elem.powi self.link_length 2 / (Polymers.BOLTZMANN_CONSTANT : α) / temperature) (self.link_energy / (Polymers.BOLTZMANN_CONSTANT : α) / temperature) nondimensional_force)

/-- `src/physics/single_chain/ufjc/morse/thermodynamics/isotensional/py.rs` lines 125-128. -/
def MORSEFJC.nondimensional_end_to_end_length_per_link (self : Polymers.Python.ufjc.morse.thermodynamics.isotensional.MORSEFJC α) (nondimensional_force : NdArray α) (temperature : α) : NdArray α :=
  NdArray.mapv nondimensional_force (fun (nondimensional_force : α) => Polymers.ufjc.morse.thermodynamics.isotensional.nondimensional_end_to_end_length_per_link (self.link_stiffness * Elem.powi self.link_length 2 / (Polymers.BOLTZMANN_CONSTANT : α) / temperature) (self.link_energy / (Polymers.BOLTZMANN_CONSTANT : α) / temperature) nondimensional_force)

/-- `src/physics/single_chain/ufjc/morse/thermodynamics/isotensional/py.rs` lines 141-144. -/
def MORSEFJC.gibbs_free_energy (self : Polymers.Python.ufjc.morse.thermodynamics.isotensional.MORSEFJC α) (force : NdArray α) (temperature : α) : NdArray α :=
  NdArray.mapv force (fun (force : α) => Polymers.ufjc.morse.thermodynamics.isotensional.gibbs_free_energy self.number_of_links self.link_length self.hinge_mass self.link_stiffness self.link_energy force temperature)

/-- `src/physics/single_chain/ufjc/morse/thermodynamics/isotensional/py.rs` lines 154-157. -/
def MORSEFJC.gibbs_free_energy_per_link (self : Polymers.Python.ufjc.morse.thermodynamics.isotensional.MORSEFJC α) (force : NdArray α) (temperature : α) : NdArray α :=
  NdArray.mapv force (fun (force : α) => Polymers.ufjc.morse.thermodynamics.isotensional.gibbs_free_energy_per_link self.link_length self.hinge_mass self.link_stiffness self.link_energy force temperature)

/-- `src/physics/single_chain/ufjc/morse/thermodynamics/isotensional/py.rs` lines 167-170. -/
def MORSEFJC.relative_gibbs_free_energy (self : Polymers.Python.ufjc.morse.thermodynamics.isotensional.MORSEFJC α) (force : NdArray α) (temperature : α) : NdArray α :=
  NdArray.mapv force (fun (force : α) => Polymers.ufjc.morse.thermodynamics.isotensional.relative_gibbs_free_energy self.number_of_links self.link_length self.link_stiffness self.link_energy force temperature)

/-- `src/physics/single_chain/ufjc/morse/thermodynamics/isotensional/py.rs` lines 180-183. -/
def MORSEFJC.relative_gibbs_free_energy_per_link (self : Polymers.Python.ufjc.morse.thermodynamics.isotensional.MORSEFJC α) (force : NdArray α) (temperature : α) : NdArray α :=
  NdArray.mapv force (fun (force : α) => Polymers.ufjc.morse.thermodynamics.isotensional.relative_gibbs_free_energy_per_link self.link_length self.link_stiffness self.link_energy force temperature)

/-- `src/physics/single_chain/ufjc/morse/thermodynamics/isotensional/py.rs` lines 193-196. -/
def MORSEFJC.nondimensional_gibbs_free_energy (self : Polymers.Python.ufjc.morse.thermodynamics.isotensional.MORSEFJC α) (nondimensional_force : NdArray α) (temperature : α) : NdArray α :=
  NdArray.mapv nondimensional_force (fun (nondimensional_force : α) => Polymers.ufjc.morse.thermodynamics.isotensional.nondimensional_gibbs_free_energy self.number_of_links self.link_length self.hinge_mass (self.link_stiffness * Elem.powi self.link_length 2 / (Polymers.BOLTZMANN_CONSTANT : α) / temperature) (self.link_energy / (Polymers.BOLTZMANN_CONSTANT : α) / temperature) nondimensional_force temperature)

/-- `src/physics/single_chain/ufjc/morse/thermodynamics/isotensional/py.rs` lines 206-209. -/
def MORSEFJC.nondimensional_gibbs_free_energy_per_link (self : Polymers.Python.ufjc.morse.thermodynamics.isotensional.MORSEFJC α) (nondimensional_force : NdArray α) (temperature : α) : NdArray α :=
  NdArray.mapv nondimensional_force (fun (nondimensional_force : α) => Polymers.ufjc.morse.thermodynamics.isotensional.nondimensional_gibbs_free_energy_per_link self.link_length self.hinge_mass (self.link_stiffness * Elem.powi self.link_length 2 / (Polymers.BOLTZMANN_CONSTANT : α) / temperature) (self.link_energy / (Polymers.BOLTZMANN_CONSTANT : α) / temperature) nondimensional_force temperature)

/-- `src/physics/single_chain/ufjc/morse/thermodynamics/isotensional/py.rs` lines 219-222. -/
def MORSEFJC.nondimensional_relative_gibbs_free_energy (self : Polymers.Python.ufjc.morse.thermodynamics.isotensional.MORSEFJC α) (nondimensional_force : NdArray α) (temperature : α) : NdArray α :=
  NdArray.mapv nondimensional_force (fun (nondimensional_force : α) => Polymers.ufjc.morse.thermodynamics.isotensional.nondimensional_relative_gibbs_free_energy self.number_of_links (self.link_stiffness * Elem.powi self.link_length 2 / (Polymers.BOLTZMANN_CONSTANT : α) / temperature) (self.link_energy / (Polymers.BOLTZMANN_CONSTANT : α) / temperature) nondimensional_force)

/-- `src/physics/single_chain/ufjc/morse/thermodynamics/isotensional/py.rs` lines 246-249. -/
def MORSEFJC.nondimensional_relative_gibbs_free_energy_per_link (self : Polymers.Python.ufjc.morse.thermodynamics.isotensional.MORSEFJC α) (nondimensional_force : NdArray α) (temperature : α) : NdArray α :=
  NdArray.mapv nondimensional_force (fun (nondimensional_force : α) => Polymers.ufjc.morse.thermodynamics.isotensional.nondimensional_relative_gibbs_free_energy_per_link (self.link_stiffness * Elem.powi self.link_length 2 / (Polymers.BOLTZMANN_CONSTANT : α) / temperature) (self.link_energy / (Polymers.BOLTZMANN_CONSTANT : α) / temperature) nondimensional_force)

end Polymers.Python.ufjc.morse.thermodynamics.isotensional

namespace Polymers.Python.ufjc.morse.thermodynamics

/-- `src/physics/single_chain/ufjc/morse/thermodynamics/py.rs` lines 16-45: struct `MORSEFJC`. -/
structure MORSEFJC (α : Type) where
  /-- field `hinge_mass` -/
  hinge_mass : α
  /-- field `link_length` -/
  link_length : α
  /-- field `number_of_links` -/
  number_of_links : Nat
  /-- field `link_stiffness` -/
  link_stiffness : α
  /-- field `link_energy` -/
  link_energy : α
  /-- field `isometric` -/
  isometric : Polymers.Python.ufjc.morse.thermodynamics.isometric.MORSEFJC α
  /-- field `isotensional` -/
  isotensional : Polymers.Python.ufjc.morse.thermodynamics.isotensional.MORSEFJC α

/-- `src/physics/single_chain/ufjc/morse/thermodynamics/py.rs` lines 51-63. -/
def MORSEFJC.init (number_of_links : Nat) (link_length : α) (hinge_mass : α) (link_stiffness : α) (link_energy : α) : Polymers.Python.ufjc.morse.thermodynamics.MORSEFJC α :=
  { hinge_mass := hinge_mass, link_length := link_length, number_of_links := number_of_links, link_stiffness := link_stiffness, link_energy := link_energy, isometric := Polymers.Python.ufjc.morse.thermodynamics.isometric.MORSEFJC.init number_of_links link_length hinge_mass link_stiffness link_energy, isotensional := Polymers.Python.ufjc.morse.thermodynamics.isotensional.MORSEFJC.init number_of_links link_length hinge_mass link_stiffness link_energy }

end Polymers.Python.ufjc.morse.thermodynamics

namespace Polymers.Python.ufjc.morse

/-- `src/physics/single_chain/ufjc/morse/py.rs` lines 14-39: struct `MORSEFJC`. -/
structure MORSEFJC (α : Type) where
  /-- field `hinge_mass` -/
  hinge_mass : α
  /-- field `link_length` -/
  link_length : α
  /-- field `number_of_links` -/
  number_of_links : Nat
  /-- field `link_stiffness` -/
  link_stiffness : α
  /-- field `link_energy` -/
  link_energy : α
  /-- field `thermodynamics` -/
  thermodynamics : Polymers.Python.ufjc.morse.thermodynamics.MORSEFJC α

/-- `src/physics/single_chain/ufjc/morse/py.rs` lines 45-56. -/
def MORSEFJC.init (number_of_links : Nat) (link_length : α) (hinge_mass : α) (link_stiffness : α) (link_energy : α) : Polymers.Python.ufjc.morse.MORSEFJC α :=
  { hinge_mass := hinge_mass, link_length := link_length, number_of_links := number_of_links, link_stiffness := link_stiffness, link_energy := link_energy, thermodynamics := Polymers.Python.ufjc.morse.thermodynamics.MORSEFJC.init number_of_links link_length hinge_mass link_stiffness link_energy }

end Polymers.Python.ufjc.morse
