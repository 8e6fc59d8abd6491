/- Generated by tools/rust2lean.py from /repo/src/physics/single_chain/ufjc/morse ; do not edit by hand. -/
import Verif.Model.Math

set_option linter.unusedVariables false

open Polymers

variable {α : Type} [Add α] [Sub α] [Mul α] [Div α] [Neg α] [OfScientific α] [NatCast α] [Elem α]

namespace Polymers.ufjc.morse.thermodynamics.isometric.asymptotic.reduced.legendre

/-- `src/physics/single_chain/ufjc/morse/thermodynamics/isometric/asymptotic/reduced/legendre/mod.rs` lines 23-39: struct `MORSEFJC`. -/
structure MORSEFJC (α : Type) where
  /-- field `hinge_mass` -/
  hinge_mass : α
  /-- field `link_length` -/
  link_length : α
  /-- field `number_of_links` -/
  number_of_links : Nat
  /-- field `link_stiffness` -/
  link_stiffness : α
  /-- field `link_energy` -/
  link_energy : α

/-- `src/physics/single_chain/ufjc/morse/thermodynamics/isometric/asymptotic/reduced/legendre/mod.rs` lines 48-65. -/
def nondimensional_force (nondimensional_link_stiffness : α) (nondimensional_link_energy : α) (nondimensional_end_to_end_length_per_link : α) : α :=
  let nondimensional_morse_parameter : α := Elem.sqrt (nondimensional_link_stiffness / nondimensional_link_energy / 2.0)
  let nondimensional_force_max : α := Elem.sqrt (nondimensional_link_energy * nondimensional_link_stiffness / 8.0)
  let guess : α := if Elem.lt nondimensional_end_to_end_length_per_link 1.0 then (Polymers.math.inverse_langevin nondimensional_end_to_end_length_per_link) else (0.95 * nondimensional_force_max)
  let guess : α := if Elem.lt nondimensional_force_max guess then 0.95 * nondimensional_force_max else guess
  Polymers.math.inverse_newton_raphson_powered nondimensional_end_to_end_length_per_link (fun (nondimensional_force : α) => 1.0 / Elem.tanh nondimensional_force - 1.0 / nondimensional_force + Elem.ln (2.0 / (1.0 + Elem.sqrt (1.0 - nondimensional_force / nondimensional_force_max))) / nondimensional_morse_parameter) (fun (nondimensional_force : α) => 1.0 / Elem.powi nondimensional_force 2 - 1.0 / Elem.powi (Elem.sinh nondimensional_force) 2 + 0.5 / nondimensional_morse_parameter / (nondimensional_force_max * (Elem.sqrt (1.0 - nondimensional_force / nondimensional_force_max) + 1.0) - nondimensional_force)) guess 1e-6 100 4

/-- `src/physics/single_chain/ufjc/morse/thermodynamics/isometric/asymptotic/reduced/legendre/mod.rs` lines 42-45. -/
def force (number_of_links : Nat) (link_length : α) (link_stiffness : α) (link_energy : α) (end_to_end_length : α) (temperature : α) : α :=
  (Polymers.BOLTZMANN_CONSTANT : α) * temperature / link_length * Polymers.ufjc.morse.thermodynamics.isometric.asymptotic.reduced.legendre.nondimensional_force (link_stiffness * Elem.powi link_length 2 / (Polymers.BOLTZMANN_CONSTANT : α) / temperature) (link_energy / (Polymers.BOLTZMANN_CONSTANT : α) / temperature) (end_to_end_length / ((number_of_links : α) * link_length))

/-- `src/physics/single_chain/ufjc/morse/thermodynamics/isometric/asymptotic/reduced/legendre/mod.rs` lines 98-103. -/
def nondimensional_helmholtz_free_energy_per_link (number_of_links : Nat) (link_length : α) (hinge_mass : α) (nondimensional_link_stiffness : α) (nondimensional_link_energy : α) (nondimensional_end_to_end_length_per_link : α) (temperature : α) : α :=
  let nondimensional_force : α := Polymers.ufjc.morse.thermodynamics.isometric.asymptotic.reduced.legendre.nondimensional_force nondimensional_link_stiffness nondimensional_link_energy nondimensional_end_to_end_length_per_link
  let nondimensional_force_max : α := Elem.sqrt (nondimensional_link_energy * nondimensional_link_stiffness / 8.0)
  (-Elem.ln (Elem.sinh nondimensional_force / nondimensional_force)) + nondimensional_link_energy * Elem.powi (1.0 - 0.5 * (1.0 + Elem.sqrt (1.0 - nondimensional_force / nondimensional_force_max))) 2 - nondimensional_force * Elem.sqrt (2.0 * nondimensional_link_energy / nondimensional_link_stiffness) * Elem.ln (2.0 / (1.0 + Elem.sqrt (1.0 - nondimensional_force / nondimensional_force_max))) + nondimensional_force * nondimensional_end_to_end_length_per_link - (1.0 - 1.0 / (number_of_links : α)) * (0.5 * Elem.ln (2.0 * (Elem.pi : α) * Elem.powi link_length 2 / nondimensional_link_stiffness) + Elem.ln (8.0 * Elem.powi (Elem.pi : α) 2 * hinge_mass * Elem.powi link_length 2 * (Polymers.BOLTZMANN_CONSTANT : α) * temperature / Elem.powi (Polymers.PLANCK_CONSTANT : α) 2))

/-- `src/physics/single_chain/ufjc/morse/thermodynamics/isometric/asymptotic/reduced/legendre/mod.rs` lines 92-95. -/
def nondimensional_helmholtz_free_energy (number_of_links : Nat) (link_length : α) (hinge_mass : α) (nondimensional_link_stiffness : α) (nondimensional_link_energy : α) (nondimensional_end_to_end_length_per_link : α) (temperature : α) : α :=
  (number_of_links : α) * Polymers.ufjc.morse.thermodynamics.isometric.asymptotic.reduced.legendre.nondimensional_helmholtz_free_energy_per_link number_of_links link_length hinge_mass nondimensional_link_stiffness nondimensional_link_energy nondimensional_end_to_end_length_per_link temperature

/-- `src/physics/single_chain/ufjc/morse/thermodynamics/isometric/asymptotic/reduced/legendre/mod.rs` lines 68-71. -/
def helmholtz_free_energy (number_of_links : Nat) (link_length : α) (hinge_mass : α) (link_stiffness : α) (link_energy : α) (end_to_end_length : α) (temperature : α) : α :=
  (Polymers.BOLTZMANN_CONSTANT : α) * temperature * Polymers.ufjc.morse.thermodynamics.isometric.asymptotic.reduced.legendre.nondimensional_helmholtz_free_energy number_of_links link_length hinge_mass (link_stiffness * Elem.powi link_length 2 / (Polymers.BOLTZMANN_CONSTANT : α) / temperature) (link_energy / (Polymers.BOLTZMANN_CONSTANT : α) / temperature) (end_to_end_length / (number_of_links : α) / link_length) temperature

/-- `src/physics/single_chain/ufjc/morse/thermodynamics/isometric/asymptotic/reduced/legendre/mod.rs` lines 74-77. -/
def helmholtz_free_energy_per_link (number_of_links : Nat) (link_length : α) (hinge_mass : α) (link_stiffness : α) (link_energy : α) (end_to_end_length : α) (temperature : α) : α :=
  (Polymers.BOLTZMANN_CONSTANT : α) * temperature * Polymers.ufjc.morse.thermodynamics.isometric.asymptotic.reduced.legendre.nondimensional_helmholtz_free_energy_per_link number_of_links link_length hinge_mass (link_stiffness * Elem.powi link_length 2 / (Polymers.BOLTZMANN_CONSTANT : α) / temperature) (link_energy / (Polymers.BOLTZMANN_CONSTANT : α) / temperature) (end_to_end_length / (number_of_links : α) / link_length) temperature

/-- `src/physics/single_chain/ufjc/morse/thermodynamics/isometric/asymptotic/reduced/legendre/mod.rs` lines 80-83. -/
def relative_helmholtz_free_energy (number_of_links : Nat) (link_length : α) (link_stiffness : α) (link_energy : α) (end_to_end_length : α) (temperature : α) : α :=
  Polymers.ufjc.morse.thermodynamics.isometric.asymptotic.reduced.legendre.helmholtz_free_energy number_of_links link_length 1.0 link_stiffness link_energy end_to_end_length temperature - Polymers.ufjc.morse.thermodynamics.isometric.asymptotic.reduced.legendre.helmholtz_free_energy number_of_links link_length 1.0 link_stiffness link_energy ((Polymers.ZERO : α) * (number_of_links : α) * link_length) temperature

/-- `src/physics/single_chain/ufjc/morse/thermodynamics/isometric/asymptotic/reduced/legendre/mod.rs` lines 86-89. -/
def relative_helmholtz_free_energy_per_link (number_of_links : Nat) (link_length : α) (link_stiffness : α) (link_energy : α) (end_to_end_length : α) (temperature : α) : α :=
  Polymers.ufjc.morse.thermodynamics.isometric.asymptotic.reduced.legendre.helmholtz_free_energy_per_link number_of_links link_length 1.0 link_stiffness link_energy end_to_end_length temperature - Polymers.ufjc.morse.thermodynamics.isometric.asymptotic.reduced.legendre.helmholtz_free_energy_per_link number_of_links link_length 1.0 link_stiffness link_energy ((Polymers.ZERO : α) * (number_of_links : α) * link_length) temperature

/-- `src/physics/single_chain/ufjc/morse/thermodynamics/isometric/asymptotic/reduced/legendre/mod.rs` lines 106-109. -/
def nondimensional_relative_helmholtz_free_energy (number_of_links : Nat) (nondimensional_link_stiffness : α) (nondimensional_link_energy : α) (nondimensional_end_to_end_length_per_link : α) : α :=
  Polymers.ufjc.morse.thermodynamics.isometric.asymptotic.reduced.legendre.nondimensional_helmholtz_free_energy number_of_links 1.0 1.0 nondimensional_link_stiffness nondimensional_link_energy nondimensional_end_to_end_length_per_link 300.0 - Polymers.ufjc.morse.thermodynamics.isometric.asymptotic.reduced.legendre.nondimensional_helmholtz_free_energy number_of_links 1.0 1.0 nondimensional_link_stiffness nondimensional_link_energy (Polymers.ZERO : α) 300.0

/-- `src/physics/single_chain/ufjc/morse/thermodynamics/isometric/asymptotic/reduced/legendre/mod.rs` lines 112-115. -/
def nondimensional_relative_helmholtz_free_energy_per_link (nondimensional_link_stiffness : α) (nondimensional_link_energy : α) (nondimensional_end_to_end_length_per_link : α) : α :=
  Polymers.ufjc.morse.thermodynamics.isometric.asymptotic.reduced.legendre.nondimensional_helmholtz_free_energy_per_link 8 1.0 1.0 nondimensional_link_stiffness nondimensional_link_energy nondimensional_end_to_end_length_per_link 300.0 - Polymers.ufjc.morse.thermodynamics.isometric.asymptotic.reduced.legendre.nondimensional_helmholtz_free_energy_per_link 8 1.0 1.0 nondimensional_link_stiffness nondimensional_link_energy (Polymers.ZERO : α) 300.0

/-- `src/physics/single_chain/ufjc/morse/thermodynamics/isometric/asymptotic/reduced/legendre/mod.rs` lines 121-131. -/
def MORSEFJC.init (number_of_links : Nat) (link_length : α) (hinge_mass : α) (link_stiffness : α) (link_energy : α) : Polymers.ufjc.morse.thermodynamics.isometric.asymptotic.reduced.legendre.MORSEFJC α :=
  { hinge_mass := hinge_mass, link_length := link_length, number_of_links := number_of_links, link_stiffness := link_stiffness, link_energy := link_energy }

/-- `src/physics/single_chain/ufjc/morse/thermodynamics/isometric/asymptotic/reduced/legendre/mod.rs` lines 133-136. -/
def MORSEFJC.force (self : Polymers.ufjc.morse.thermodynamics.isometric.asymptotic.reduced.legendre.MORSEFJC α) (end_to_end_length : α) (temperature : α) : α :=
  Polymers.ufjc.morse.thermodynamics.isometric.asymptotic.reduced.legendre.force self.number_of_links self.link_length self.link_stiffness self.link_energy end_to_end_length temperature

/-- `src/physics/single_chain/ufjc/morse/thermodynamics/isometric/asymptotic/reduced/legendre/mod.rs` lines 138-141. -/
def MORSEFJC.nondimensional_force (self : Polymers.ufjc.morse.thermodynamics.isometric.asymptotic.reduced.legendre.MORSEFJC α) (nondimensional_end_to_end_length_per_link : α) (temperature : α) : α :=
  Polymers.ufjc.morse.thermodynamics.isometric.asymptotic.reduced.legendre.nondimensional_force (self.link_stiffness * Elem.powi self.link_length 2 / (Polymers.BOLTZMANN_CONSTANT : α) / temperature) (self.link_energy / (Polymers.BOLTZMANN_CONSTANT : α) / temperature) nondimensional_end_to_end_length_per_link

/-- `src/physics/single_chain/ufjc/morse/thermodynamics/isometric/asymptotic/reduced/legendre/mod.rs` lines 143-146. -/
def MORSEFJC.helmholtz_free_energy (self : Polymers.ufjc.morse.thermodynamics.isometric.asymptotic.reduced.legendre.MORSEFJC α) (end_to_end_length : α) (temperature : α) : α :=
  Polymers.ufjc.morse.thermodynamics.isometric.asymptotic.reduced.legendre.helmholtz_free_energy self.number_of_links self.link_length self.hinge_mass self.link_stiffness self.link_energy end_to_end_length temperature

/-- `src/physics/single_chain/ufjc/morse/thermodynamics/isometric/asymptotic/reduced/legendre/mod.rs` lines 148-151. -/
def MORSEFJC.helmholtz_free_energy_per_link (self : Polymers.ufjc.morse.thermodynamics.isometric.asymptotic.reduced.legendre.MORSEFJC α) (end_to_end_length : α) (temperature : α) : α :=
  Polymers.ufjc.morse.thermodynamics.isometric.asymptotic.reduced.legendre.helmholtz_free_energy_per_link self.number_of_links self.link_length self.hinge_mass self.link_stiffness self.link_energy end_to_end_length temperature

/-- `src/physics/single_chain/ufjc/morse/thermodynamics/isometric/asymptotic/reduced/legendre/mod.rs` lines 153-156. -/
def MORSEFJC.relative_helmholtz_free_energy (self : Polymers.ufjc.morse.thermodynamics.isometric.asymptotic.reduced.legendre.MORSEFJC α) (end_to_end_length : α) (temperature : α) : α :=
  Polymers.ufjc.morse.thermodynamics.isometric.asymptotic.reduced.legendre.relative_helmholtz_free_energy self.number_of_links self.link_length self.link_stiffness self.link_energy end_to_end_length temperature

/-- `src/physics/single_chain/ufjc/morse/thermodynamics/isometric/asymptotic/reduced/legendre/mod.rs` lines 158-161. -/
def MORSEFJC.relative_helmholtz_free_energy_per_link (self : Polymers.ufjc.morse.thermodynamics.isometric.asymptotic.reduced.legendre.MORSEFJC α) (end_to_end_length : α) (temperature : α) : α :=
  Polymers.ufjc.morse.thermodynamics.isometric.asymptotic.reduced.legendre.relative_helmholtz_free_energy_per_link self.number_of_links self.link_length self.link_stiffness self.link_energy end_to_end_length temperature

/-- `src/physics/single_chain/ufjc/morse/thermodynamics/isometric/asymptotic/reduced/legendre/mod.rs` lines 163-166. -/
def MORSEFJC.nondimensional_helmholtz_free_energy (self : Polymers.ufjc.morse.thermodynamics.isometric.asymptotic.reduced.legendre.MORSEFJC α) (nondimensional_end_to_end_length_per_link : α) (temperature : α) : α :=
  Polymers.ufjc.morse.thermodynamics.isometric.asymptotic.reduced.legendre.nondimensional_helmholtz_free_energy self.number_of_links self.link_length self.hinge_mass (self.link_stiffness * Elem.powi self.link_length 2 / (Polymers.BOLTZMANN_CONSTANT : α) / temperature) (self.link_energy / (Polymers.BOLTZMANN_CONSTANT : α) / temperature) nondimensional_end_to_end_length_per_link temperature

/-- `src/physics/single_chain/ufjc/morse/thermodynamics/isometric/asymptotic/reduced/legendre/mod.rs` lines 168-171. -/
def MORSEFJC.nondimensional_helmholtz_free_energy_per_link (self : Polymers.ufjc.morse.thermodynamics.isometric.asymptotic.reduced.legendre.MORSEFJC α) (nondimensional_end_to_end_length_per_link : α) (temperature : α) : α :=
  Polymers.ufjc.morse.thermodynamics.isometric.asymptotic.reduced.legendre.nondimensional_helmholtz_free_energy_per_link self.number_of_links self.link_length self.hinge_mass (self.link_stiffness * Elem.powi self.link_length 2 / (Polymers.BOLTZMANN_CONSTANT : α) / temperature) (self.link_energy / (Polymers.BOLTZMANN_CONSTANT : α) / temperature) nondimensional_end_to_end_length_per_link temperature

/-- `src/physics/single_chain/ufjc/morse/thermodynamics/isometric/asymptotic/reduced/legendre/mod.rs` lines 173-176. -/
def MORSEFJC.nondimensional_relative_helmholtz_free_energy (self : Polymers.ufjc.morse.thermodynamics.isometric.asymptotic.reduced.legendre.MORSEFJC α) (nondimensional_end_to_end_length_per_link : α) (temperature : α) : α :=
  Polymers.ufjc.morse.thermodynamics.isometric.asymptotic.reduced.legendre.nondimensional_relative_helmholtz_free_energy self.number_of_links (self.link_stiffness * Elem.powi self.link_length 2 / (Polymers.BOLTZMANN_CONSTANT : α) / temperature) (self.link_energy / (Polymers.BOLTZMANN_CONSTANT : α) / temperature) nondimensional_end_to_end_length_per_link

/-- `src/physics/single_chain/ufjc/morse/thermodynamics/isometric/asymptotic/reduced/legendre/mod.rs` lines 178-181. -/
def MORSEFJC.nondimensional_relative_helmholtz_free_energy_per_link (self : Polymers.ufjc.morse.thermodynamics.isometric.asymptotic.reduced.legendre.MORSEFJC α) (nondimensional_end_to_end_length_per_link : α) (temperature : α) : α :=
  Polymers.ufjc.morse.thermodynamics.isometric.asymptotic.reduced.legendre.nondimensional_relative_helmholtz_free_energy_per_link (self.link_stiffness * Elem.powi self.link_length 2 / (Polymers.BOLTZMANN_CONSTANT : α) / temperature) (self.link_energy / (Polymers.BOLTZMANN_CONSTANT : α) / temperature) nondimensional_end_to_end_length_per_link

end Polymers.ufjc.morse.thermodynamics.isometric.asymptotic.reduced.legendre

namespace Polymers.ufjc.morse.thermodynamics.isotensional.asymptotic.reduced.legendre

/-- `src/physics/single_chain/ufjc/morse/thermodynamics/isotensional/asymptotic/reduced/legendre/mod.rs` lines 18-34: struct `MORSEFJC`. -/
structure MORSEFJC (α : Type) where
  /-- field `hinge_mass` -/
  hinge_mass : α
  /-- field `link_length` -/
  link_length : α
  /-- field `number_of_links` -/
  number_of_links : Nat
  /-- field `link_stiffness` -/
  link_stiffness : α
  /-- field `link_energy` -/
  link_energy : α

/-- `src/physics/single_chain/ufjc/morse/thermodynamics/isotensional/asymptotic/reduced/legendre/mod.rs` lines 67-70. -/
def nondimensional_helmholtz_free_energy_per_link (link_length : α) (hinge_mass : α) (nondimensional_link_stiffness : α) (nondimensional_link_energy : α) (nondimensional_force : α) (temperature : α) : α :=
  (-Elem.ln (Elem.sinh nondimensional_force / nondimensional_force)) + nondimensional_link_energy * Elem.powi (1.0 - 0.5 * (1.0 + Elem.sqrt (1.0 - nondimensional_force / Elem.sqrt (nondimensional_link_energy * nondimensional_link_stiffness / 8.0)))) 2 - 0.5 * Elem.ln (2.0 * (Elem.pi : α) * Elem.powi link_length 2 / nondimensional_link_stiffness) - Elem.ln (8.0 * Elem.powi (Elem.pi : α) 2 * hinge_mass * Elem.powi link_length 2 * (Polymers.BOLTZMANN_CONSTANT : α) * temperature / Elem.powi (Polymers.PLANCK_CONSTANT : α) 2) + nondimensional_force / Elem.tanh nondimensional_force - 1.0

/-- `src/physics/single_chain/ufjc/morse/thermodynamics/isotensional/asymptotic/reduced/legendre/mod.rs` lines 61-64. -/
def nondimensional_helmholtz_free_energy (number_of_links : Nat) (link_length : α) (hinge_mass : α) (nondimensional_link_stiffness : α) (nondimensional_link_energy : α) (nondimensional_force : α) (temperature : α) : α :=
  (number_of_links : α) * Polymers.ufjc.morse.thermodynamics.isotensional.asymptotic.reduced.legendre.nondimensional_helmholtz_free_energy_per_link link_length hinge_mass nondimensional_link_stiffness nondimensional_link_energy nondimensional_force temperature

/-- `src/physics/single_chain/ufjc/morse/thermodynamics/isotensional/asymptotic/reduced/legendre/mod.rs` lines 37-40. -/
def helmholtz_free_energy (number_of_links : Nat) (link_length : α) (hinge_mass : α) (link_stiffness : α) (link_energy : α) (force : α) (temperature : α) : α :=
  (Polymers.BOLTZMANN_CONSTANT : α) * temperature * Polymers.ufjc.morse.thermodynamics.isotensional.asymptotic.reduced.legendre.nondimensional_helmholtz_free_energy number_of_links link_length hinge_mass (link_stiffness * Elem.powi link_length 2 / (Polymers.BOLTZMANN_CONSTANT : α) / temperature) (link_energy / (Polymers.BOLTZMANN_CONSTANT : α) / temperature) (force / (Polymers.BOLTZMANN_CONSTANT : α) / temperature * link_length) temperature

/-- `src/physics/single_chain/ufjc/morse/thermodynamics/isotensional/asymptotic/reduced/legendre/mod.rs` lines 43-46. -/
def helmholtz_free_energy_per_link (link_length : α) (hinge_mass : α) (link_stiffness : α) (link_energy : α) (force : α) (temperature : α) : α :=
  (Polymers.BOLTZMANN_CONSTANT : α) * temperature * Polymers.ufjc.morse.thermodynamics.isotensional.asymptotic.reduced.legendre.nondimensional_helmholtz_free_energy_per_link link_length hinge_mass (link_stiffness * Elem.powi link_length 2 / (Polymers.BOLTZMANN_CONSTANT : α) / temperature) (link_energy / (Polymers.BOLTZMANN_CONSTANT : α) / temperature) (force / (Polymers.BOLTZMANN_CONSTANT : α) / temperature * link_length) temperature

/-- `src/physics/single_chain/ufjc/morse/thermodynamics/isotensional/asymptotic/reduced/legendre/mod.rs` lines 49-52. -/
def relative_helmholtz_free_energy (number_of_links : Nat) (link_length : α) (link_stiffness : α) (link_energy : α) (force : α) (temperature : α) : α :=
  Polymers.ufjc.morse.thermodynamics.isotensional.asymptotic.reduced.legendre.helmholtz_free_energy number_of_links link_length 1.0 link_stiffness link_energy force temperature - Polymers.ufjc.morse.thermodynamics.isotensional.asymptotic.reduced.legendre.helmholtz_free_energy number_of_links link_length 1.0 link_stiffness link_energy ((Polymers.ZERO : α) * (Polymers.BOLTZMANN_CONSTANT : α) * temperature / link_length) temperature

/-- `src/physics/single_chain/ufjc/morse/thermodynamics/isotensional/asymptotic/reduced/legendre/mod.rs` lines 55-58. -/
def relative_helmholtz_free_energy_per_link (link_length : α) (link_stiffness : α) (link_energy : α) (force : α) (temperature : α) : α :=
  Polymers.ufjc.morse.thermodynamics.isotensional.asymptotic.reduced.legendre.helmholtz_free_energy_per_link link_length 1.0 link_stiffness link_energy force temperature - Polymers.ufjc.morse.thermodynamics.isotensional.asymptotic.reduced.legendre.helmholtz_free_energy_per_link link_length 1.0 link_stiffness link_energy ((Polymers.ZERO : α) * (Polymers.BOLTZMANN_CONSTANT : α) * temperature / link_length) temperature

/-- `src/physics/single_chain/ufjc/morse/thermodynamics/isotensional/asymptotic/reduced/legendre/mod.rs` lines 73-76. -/
def nondimensional_relative_helmholtz_free_energy (number_of_links : Nat) (nondimensional_link_stiffness : α) (nondimensional_link_energy : α) (nondimensional_force : α) : α :=
  Polymers.ufjc.morse.thermodynamics.isotensional.asymptotic.reduced.legendre.nondimensional_helmholtz_free_energy number_of_links 1.0 1.0 nondimensional_link_stiffness nondimensional_link_energy nondimensional_force 300.0 - Polymers.ufjc.morse.thermodynamics.isotensional.asymptotic.reduced.legendre.nondimensional_helmholtz_free_energy number_of_links 1.0 1.0 nondimensional_link_stiffness nondimensional_link_energy (Polymers.ZERO : α) 300.0

/-- `src/physics/single_chain/ufjc/morse/thermodynamics/isotensional/asymptotic/reduced/legendre/mod.rs` lines 79-82. -/
def nondimensional_relative_helmholtz_free_energy_per_link (nondimensional_link_stiffness : α) (nondimensional_link_energy : α) (nondimensional_force : α) : α :=
  Polymers.ufjc.morse.thermodynamics.isotensional.asymptotic.reduced.legendre.nondimensional_helmholtz_free_energy_per_link 1.0 1.0 nondimensional_link_stiffness nondimensional_link_energy nondimensional_force 300.0 - Polymers.ufjc.morse.thermodynamics.isotensional.asymptotic.reduced.legendre.nondimensional_helmholtz_free_energy_per_link 1.0 1.0 nondimensional_link_stiffness nondimensional_link_energy (Polymers.ZERO : α) 300.0

/-- `src/physics/single_chain/ufjc/morse/thermodynamics/isotensional/asymptotic/reduced/legendre/mod.rs` lines 88-98. -/
def MORSEFJC.init (number_of_links : Nat) (link_length : α) (hinge_mass : α) (link_stiffness : α) (link_energy : α) : Polymers.ufjc.morse.thermodynamics.isotensional.asymptotic.reduced.legendre.MORSEFJC α :=
  { hinge_mass := hinge_mass, link_length := link_length, number_of_links := number_of_links, link_stiffness := link_stiffness, link_energy := link_energy }

/-- `src/physics/single_chain/ufjc/morse/thermodynamics/isotensional/asymptotic/reduced/legendre/mod.rs` lines 100-103. -/
def MORSEFJC.helmholtz_free_energy (self : Polymers.ufjc.morse.thermodynamics.isotensional.asymptotic.reduced.legendre.MORSEFJC α) (force : α) (temperature : α) : α :=
  Polymers.ufjc.morse.thermodynamics.isotensional.asymptotic.reduced.legendre.helmholtz_free_energy self.number_of_links self.link_length self.hinge_mass self.link_stiffness self.link_energy force temperature

/-- `src/physics/single_chain/ufjc/morse/thermodynamics/isotensional/asymptotic/reduced/legendre/mod.rs` lines 105-108. -/
def MORSEFJC.helmholtz_free_energy_per_link (self : Polymers.ufjc.morse.thermodynamics.isotensional.asymptotic.reduced.legendre.MORSEFJC α) (force : α) (temperature : α) : α :=
  Polymers.ufjc.morse.thermodynamics.isotensional.asymptotic.reduced.legendre.helmholtz_free_energy_per_link self.link_length self.hinge_mass self.link_stiffness self.link_energy force temperature

/-- `src/physics/single_chain/ufjc/morse/thermodynamics/isotensional/asymptotic/reduced/legendre/mod.rs` lines 110-113. -/
def MORSEFJC.relative_helmholtz_free_energy (self : Polymers.ufjc.morse.thermodynamics.isotensional.asymptotic.reduced.legendre.MORSEFJC α) (force : α) (temperature : α) : α :=
  Polymers.ufjc.morse.thermodynamics.isotensional.asymptotic.reduced.legendre.relative_helmholtz_free_energy self.number_of_links self.link_length self.link_stiffness self.link_energy force temperature

/-- `src/physics/single_chain/ufjc/morse/thermodynamics/isotensional/asymptotic/reduced/legendre/mod.rs` lines 115-118. -/
def MORSEFJC.relative_helmholtz_free_energy_per_link (self : Polymers.ufjc.morse.thermodynamics.isotensional.asymptotic.reduced.legendre.MORSEFJC α) (force : α) (temperature : α) : α :=
  Polymers.ufjc.morse.thermodynamics.isotensional.asymptotic.reduced.legendre.relative_helmholtz_free_energy_per_link self.link_length self.link_stiffness self.link_energy force temperature

/-- `src/physics/single_chain/ufjc/morse/thermodynamics/isotensional/asymptotic/reduced/legendre/mod.rs` lines 120-123. -/
def MORSEFJC.nondimensional_helmholtz_free_energy (self : Polymers.ufjc.morse.thermodynamics.isotensional.asymptotic.reduced.legendre.MORSEFJC α) (nondimensional_force : α) (temperature : α) : α :=
  Polymers.ufjc.morse.thermodynamics.isotensional.asymptotic.reduced.legendre.nondimensional_helmholtz_free_energy self.number_of_links self.link_length self.hinge_mass (self.link_stiffness * Elem.powi self.link_length 2 / (Polymers.BOLTZMANN_CONSTANT : α) / temperature) (self.link_energy / (Polymers.BOLTZMANN_CONSTANT : α) / temperature) nondimensional_force temperature

/-- `src/physics/single_chain/ufjc/morse/thermodynamics/isotensional/asymptotic/reduced/legendre/mod.rs` lines 125-128. -/
def MORSEFJC.nondimensional_helmholtz_free_energy_per_link (self : Polymers.ufjc.morse.thermodynamics.isotensional.asymptotic.reduced.legendre.MORSEFJC α) (nondimensional_force : α) (temperature : α) : α :=
  Polymers.ufjc.morse.thermodynamics.isotensional.asymptotic.reduced.legendre.nondimensional_helmholtz_free_energy_per_link self.link_length self.hinge_mass (self.link_stiffness * Elem.powi self.link_length 2 / (Polymers.BOLTZMANN_CONSTANT : α) / temperature) (self.link_energy / (Polymers.BOLTZMANN_CONSTANT : α) / temperature) nondimensional_force temperature

/-- `src/physics/single_chain/ufjc/morse/thermodynamics/isotensional/asymptotic/reduced/legendre/mod.rs` lines 130-133. -/
def MORSEFJC.nondimensional_relative_helmholtz_free_energy (self : Polymers.ufjc.morse.thermodynamics.isotensional.asymptotic.reduced.legendre.MORSEFJC α) (nondimensional_force : α) (temperature : α) : α :=
  Polymers.ufjc.morse.thermodynamics.isotensional.asymptotic.reduced.legendre.nondimensional_relative_helmholtz_free_energy self.number_of_links (self.link_stiffness * Elem.powi self.link_length 2 / (Polymers.BOLTZMANN_CONSTANT : α) / temperature) (self.link_energy / (Polymers.BOLTZMANN_CONSTANT : α) / temperature) nondimensional_force

/-- `src/physics/single_chain/ufjc/morse/thermodynamics/isotensional/asymptotic/reduced/legendre/mod.rs` lines 135-138. -/
def MORSEFJC.nondimensional_relative_helmholtz_free_energy_per_link (self : Polymers.ufjc.morse.thermodynamics.isotensional.asymptotic.reduced.legendre.MORSEFJC α) (nondimensional_force : α) (temperature : α) : α :=
  Polymers.ufjc.morse.thermodynamics.isotensional.asymptotic.reduced.legendre.nondimensional_relative_helmholtz_free_energy_per_link (self.link_stiffness * Elem.powi self.link_length 2 / (Polymers.BOLTZMANN_CONSTANT : α) / temperature) (self.link_energy / (Polymers.BOLTZMANN_CONSTANT : α) / temperature) nondimensional_force

end Polymers.ufjc.morse.thermodynamics.isotensional.asymptotic.reduced.legendre

namespace Polymers.ufjc.morse.thermodynamics.isometric.asymptotic.legendre

/-- `src/physics/single_chain/ufjc/morse/thermodynamics/isometric/asymptotic/legendre/mod.rs` lines 23-39: struct `MORSEFJC`. -/
structure MORSEFJC (α : Type) where
  /-- field `hinge_mass` -/
  hinge_mass : α
  /-- field `link_length` -/
  link_length : α
  /-- field `number_of_links` -/
  number_of_links : Nat
  /-- field `link_stiffness` -/
  link_stiffness : α
  /-- field `link_energy` -/
  link_energy : α

/-- `src/physics/single_chain/ufjc/morse/thermodynamics/isometric/asymptotic/legendre/mod.rs` lines 48-66. -/
def nondimensional_force (nondimensional_link_stiffness : α) (nondimensional_link_energy : α) (nondimensional_end_to_end_length_per_link : α) : α :=
  let nondimensional_morse_parameter : α := Elem.sqrt (nondimensional_link_stiffness / nondimensional_link_energy / 2.0)
  let c : α := 1.0 / (1.0 + 1.5 * nondimensional_morse_parameter)
  let nondimensional_force_max : α := Elem.sqrt (nondimensional_link_energy * nondimensional_link_stiffness / 8.0)
  let guess : α := if Elem.lt nondimensional_end_to_end_length_per_link 1.0 then (Polymers.math.inverse_langevin nondimensional_end_to_end_length_per_link) else (0.95 * nondimensional_force_max)
  let guess : α := if Elem.lt nondimensional_force_max guess then 0.95 * nondimensional_force_max else guess
  Polymers.math.inverse_newton_raphson_powered nondimensional_end_to_end_length_per_link (fun (nondimensional_force : α) => 1.0 / Elem.tanh nondimensional_force - 1.0 / nondimensional_force + nondimensional_force / nondimensional_link_stiffness * ((Elem.tanh nondimensional_force - 1.0 / Elem.tanh nondimensional_force + 1.0 / nondimensional_force) / (c * Elem.tanh nondimensional_force + nondimensional_force / nondimensional_link_stiffness)) + Elem.ln (2.0 / (1.0 + Elem.sqrt (1.0 - nondimensional_force / nondimensional_force_max))) / nondimensional_morse_parameter) (fun (nondimensional_force : α) => 1.0 / Elem.powi nondimensional_force 2 - 1.0 / Elem.powi (Elem.sinh nondimensional_force) 2 + ((2.0 * c * nondimensional_link_stiffness * nondimensional_force / Elem.tanh nondimensional_force - 2.0 * c * nondimensional_link_stiffness + 2.0 * Elem.powi nondimensional_force 2 - 1.0) / Elem.powi (Elem.sinh nondimensional_force) 2 + Elem.powi nondimensional_force 2 / Elem.powi (Elem.sinh nondimensional_force) 4 - 1.0) / Elem.powi (c * nondimensional_link_stiffness + nondimensional_force / Elem.tanh nondimensional_force) 2 + 0.5 / nondimensional_morse_parameter / (nondimensional_force_max * (Elem.sqrt (1.0 - nondimensional_force / nondimensional_force_max) + 1.0) - nondimensional_force)) guess 1e-6 100 4

/-- `src/physics/single_chain/ufjc/morse/thermodynamics/isometric/asymptotic/legendre/mod.rs` lines 42-45. -/
def force (number_of_links : Nat) (link_length : α) (link_stiffness : α) (link_energy : α) (end_to_end_length : α) (temperature : α) : α :=
  (Polymers.BOLTZMANN_CONSTANT : α) * temperature / link_length * Polymers.ufjc.morse.thermodynamics.isometric.asymptotic.legendre.nondimensional_force (link_stiffness * Elem.powi link_length 2 / (Polymers.BOLTZMANN_CONSTANT : α) / temperature) (link_energy / (Polymers.BOLTZMANN_CONSTANT : α) / temperature) (end_to_end_length / ((number_of_links : α) * link_length))

/-- `src/physics/single_chain/ufjc/morse/thermodynamics/isometric/asymptotic/legendre/mod.rs` lines 99-105. -/
def nondimensional_helmholtz_free_energy_per_link (number_of_links : Nat) (link_length : α) (hinge_mass : α) (nondimensional_link_stiffness : α) (nondimensional_link_energy : α) (nondimensional_end_to_end_length_per_link : α) (temperature : α) : α :=
  let nondimensional_force : α := Polymers.ufjc.morse.thermodynamics.isometric.asymptotic.legendre.nondimensional_force nondimensional_link_stiffness nondimensional_link_energy nondimensional_end_to_end_length_per_link
  let nondimensional_force_max : α := Elem.sqrt (nondimensional_link_energy * nondimensional_link_stiffness / 8.0)
  let nondimensional_morse_parameter : α := Elem.sqrt (nondimensional_link_stiffness / nondimensional_link_energy / 2.0)
  (-Elem.ln (Elem.sinh nondimensional_force / nondimensional_force)) - Elem.ln (1.0 + (1.0 + 1.5 * nondimensional_morse_parameter) * nondimensional_force / Elem.tanh nondimensional_force / nondimensional_link_stiffness) + nondimensional_link_energy * Elem.powi (1.0 - 0.5 * (1.0 + Elem.sqrt (1.0 - nondimensional_force / nondimensional_force_max))) 2 - nondimensional_force / nondimensional_morse_parameter * Elem.ln (2.0 / (1.0 + Elem.sqrt (1.0 - nondimensional_force / nondimensional_force_max))) + nondimensional_force * nondimensional_end_to_end_length_per_link - (1.0 - 1.0 / (number_of_links : α)) * (0.5 * Elem.ln (2.0 * (Elem.pi : α) * Elem.powi link_length 2 / nondimensional_link_stiffness) + Elem.ln (8.0 * Elem.powi (Elem.pi : α) 2 * hinge_mass * Elem.powi link_length 2 * (Polymers.BOLTZMANN_CONSTANT : α) * temperature / Elem.powi (Polymers.PLANCK_CONSTANT : α) 2))

/-- `src/physics/single_chain/ufjc/morse/thermodynamics/isometric/asymptotic/legendre/mod.rs` lines 93-96. -/
def nondimensional_helmholtz_free_energy (number_of_links : Nat) (link_length : α) (hinge_mass : α) (nondimensional_link_stiffness : α) (nondimensional_link_energy : α) (nondimensional_end_to_end_length_per_link : α) (temperature : α) : α :=
  (number_of_links : α) * Polymers.ufjc.morse.thermodynamics.isometric.asymptotic.legendre.nondimensional_helmholtz_free_energy_per_link number_of_links link_length hinge_mass nondimensional_link_stiffness nondimensional_link_energy nondimensional_end_to_end_length_per_link temperature

/-- `src/physics/single_chain/ufjc/morse/thermodynamics/isometric/asymptotic/legendre/mod.rs` lines 69-72. -/
def helmholtz_free_energy (number_of_links : Nat) (link_length : α) (hinge_mass : α) (link_stiffness : α) (link_energy : α) (end_to_end_length : α) (temperature : α) : α :=
  (Polymers.BOLTZMANN_CONSTANT : α) * temperature * Polymers.ufjc.morse.thermodynamics.isometric.asymptotic.legendre.nondimensional_helmholtz_free_energy number_of_links link_length hinge_mass (link_stiffness * Elem.powi link_length 2 / (Polymers.BOLTZMANN_CONSTANT : α) / temperature) (link_energy / (Polymers.BOLTZMANN_CONSTANT : α) / temperature) (end_to_end_length / (number_of_links : α) / link_length) temperature

/-- `src/physics/single_chain/ufjc/morse/thermodynamics/isometric/asymptotic/legendre/mod.rs` lines 75-78. -/
def helmholtz_free_energy_per_link (number_of_links : Nat) (link_length : α) (hinge_mass : α) (link_stiffness : α) (link_energy : α) (end_to_end_length : α) (temperature : α) : α :=
  (Polymers.BOLTZMANN_CONSTANT : α) * temperature * Polymers.ufjc.morse.thermodynamics.isometric.asymptotic.legendre.nondimensional_helmholtz_free_energy_per_link number_of_links link_length hinge_mass (link_stiffness * Elem.powi link_length 2 / (Polymers.BOLTZMANN_CONSTANT : α) / temperature) (link_energy / (Polymers.BOLTZMANN_CONSTANT : α) / temperature) (end_to_end_length / (number_of_links : α) / link_length) temperature

/-- `src/physics/single_chain/ufjc/morse/thermodynamics/isometric/asymptotic/legendre/mod.rs` lines 81-84. -/
def relative_helmholtz_free_energy (number_of_links : Nat) (link_length : α) (link_stiffness : α) (link_energy : α) (end_to_end_length : α) (temperature : α) : α :=
  Polymers.ufjc.morse.thermodynamics.isometric.asymptotic.legendre.helmholtz_free_energy number_of_links link_length 1.0 link_stiffness link_energy end_to_end_length temperature - Polymers.ufjc.morse.thermodynamics.isometric.asymptotic.legendre.helmholtz_free_energy number_of_links link_length 1.0 link_stiffness link_energy ((Polymers.ZERO : α) * (number_of_links : α) * link_length) temperature

/-- `src/physics/single_chain/ufjc/morse/thermodynamics/isometric/asymptotic/legendre/mod.rs` lines 87-90. -/
def relative_helmholtz_free_energy_per_link (number_of_links : Nat) (link_length : α) (link_stiffness : α) (link_energy : α) (end_to_end_length : α) (temperature : α) : α :=
  Polymers.ufjc.morse.thermodynamics.isometric.asymptotic.legendre.helmholtz_free_energy_per_link number_of_links link_length 1.0 link_stiffness link_energy end_to_end_length temperature - Polymers.ufjc.morse.thermodynamics.isometric.asymptotic.legendre.helmholtz_free_energy_per_link number_of_links link_length 1.0 link_stiffness link_energy ((Polymers.ZERO : α) * (number_of_links : α) * link_length) temperature

/-- `src/physics/single_chain/ufjc/morse/thermodynamics/isometric/asymptotic/legendre/mod.rs` lines 108-111. -/
def nondimensional_relative_helmholtz_free_energy (number_of_links : Nat) (nondimensional_link_stiffness : α) (nondimensional_link_energy : α) (nondimensional_end_to_end_length_per_link : α) : α :=
  Polymers.ufjc.morse.thermodynamics.isometric.asymptotic.legendre.nondimensional_helmholtz_free_energy number_of_links 1.0 1.0 nondimensional_link_stiffness nondimensional_link_energy nondimensional_end_to_end_length_per_link 300.0 - Polymers.ufjc.morse.thermodynamics.isometric.asymptotic.legendre.nondimensional_helmholtz_free_energy number_of_links 1.0 1.0 nondimensional_link_stiffness nondimensional_link_energy (Polymers.ZERO : α) 300.0

/-- `src/physics/single_chain/ufjc/morse/thermodynamics/isometric/asymptotic/legendre/mod.rs` lines 114-117. -/
def nondimensional_relative_helmholtz_free_energy_per_link (nondimensional_link_stiffness : α) (nondimensional_link_energy : α) (nondimensional_end_to_end_length_per_link : α) : α :=
  Polymers.ufjc.morse.thermodynamics.isometric.asymptotic.legendre.nondimensional_helmholtz_free_energy_per_link 8 1.0 1.0 nondimensional_link_stiffness nondimensional_link_energy nondimensional_end_to_end_length_per_link 300.0 - Polymers.ufjc.morse.thermodynamics.isometric.asymptotic.legendre.nondimensional_helmholtz_free_energy_per_link 8 1.0 1.0 nondimensional_link_stiffness nondimensional_link_energy (Polymers.ZERO : α) 300.0

/-- `src/physics/single_chain/ufjc/morse/thermodynamics/isometric/asymptotic/legendre/mod.rs` lines 123-133. -/
def MORSEFJC.init (number_of_links : Nat) (link_length : α) (hinge_mass : α) (link_stiffness : α) (link_energy : α) : Polymers.ufjc.morse.thermodynamics.isometric.asymptotic.legendre.MORSEFJC α :=
  { hinge_mass := hinge_mass, link_length := link_length, number_of_links := number_of_links, link_stiffness := link_stiffness, link_energy := link_energy }

/-- `src/physics/single_chain/ufjc/morse/thermodynamics/isometric/asymptotic/legendre/mod.rs` lines 135-138. -/
def MORSEFJC.force (self : Polymers.ufjc.morse.thermodynamics.isometric.asymptotic.legendre.MORSEFJC α) (end_to_end_length : α) (temperature : α) : α :=
  Polymers.ufjc.morse.thermodynamics.isometric.asymptotic.legendre.force self.number_of_links self.link_length self.link_stiffness self.link_energy end_to_end_length temperature

/-- `src/physics/single_chain/ufjc/morse/thermodynamics/isometric/asymptotic/legendre/mod.rs` lines 140-143. -/
def MORSEFJC.nondimensional_force (self : Polymers.ufjc.morse.thermodynamics.isometric.asymptotic.legendre.MORSEFJC α) (nondimensional_end_to_end_length_per_link : α) (temperature : α) : α :=
  Polymers.ufjc.morse.thermodynamics.isometric.asymptotic.legendre.nondimensional_force (self.link_stiffness * Elem.powi self.link_length 2 / (Polymers.BOLTZMANN_CONSTANT : α) / temperature) (self.link_energy / (Polymers.BOLTZMANN_CONSTANT : α) / temperature) nondimensional_end_to_end_length_per_link

/-- `src/physics/single_chain/ufjc/morse/thermodynamics/isometric/asymptotic/legendre/mod.rs` lines 145-148. -/
def MORSEFJC.helmholtz_free_energy (self : Polymers.ufjc.morse.thermodynamics.isometric.asymptotic.legendre.MORSEFJC α) (end_to_end_length : α) (temperature : α) : α :=
  Polymers.ufjc.morse.thermodynamics.isometric.asymptotic.legendre.helmholtz_free_energy self.number_of_links self.link_length self.hinge_mass self.link_stiffness self.link_energy end_to_end_length temperature

/-- `src/physics/single_chain/ufjc/morse/thermodynamics/isometric/asymptotic/legendre/mod.rs` lines 150-153. -/
def MORSEFJC.helmholtz_free_energy_per_link (self : Polymers.ufjc.morse.thermodynamics.isometric.asymptotic.legendre.MORSEFJC α) (end_to_end_length : α) (temperature : α) : α :=
  Polymers.ufjc.morse.thermodynamics.isometric.asymptotic.legendre.helmholtz_free_energy_per_link self.number_of_links self.link_length self.hinge_mass self.link_stiffness self.link_energy end_to_end_length temperature

/-- `src/physics/single_chain/ufjc/morse/thermodynamics/isometric/asymptotic/legendre/mod.rs` lines 155-158. -/
def MORSEFJC.relative_helmholtz_free_energy (self : Polymers.ufjc.morse.thermodynamics.isometric.asymptotic.legendre.MORSEFJC α) (end_to_end_length : α) (temperature : α) : α :=
  Polymers.ufjc.morse.thermodynamics.isometric.asymptotic.legendre.relative_helmholtz_free_energy self.number_of_links self.link_length self.link_stiffness self.link_energy end_to_end_length temperature

/-- `src/physics/single_chain/ufjc/morse/thermodynamics/isometric/asymptotic/legendre/mod.rs` lines 160-163. -/
def MORSEFJC.relative_helmholtz_free_energy_per_link (self : Polymers.ufjc.morse.thermodynamics.isometric.asymptotic.legendre.MORSEFJC α) (end_to_end_length : α) (temperature : α) : α :=
  Polymers.ufjc.morse.thermodynamics.isometric.asymptotic.legendre.relative_helmholtz_free_energy_per_link self.number_of_links self.link_length self.link_stiffness self.link_energy end_to_end_length temperature

/-- `src/physics/single_chain/ufjc/morse/thermodynamics/isometric/asymptotic/legendre/mod.rs` lines 165-168. -/
def MORSEFJC.nondimensional_helmholtz_free_energy (self : Polymers.ufjc.morse.thermodynamics.isometric.asymptotic.legendre.MORSEFJC α) (nondimensional_end_to_end_length_per_link : α) (temperature : α) : α :=
  Polymers.ufjc.morse.thermodynamics.isometric.asymptotic.legendre.nondimensional_helmholtz_free_energy self.number_of_links self.link_length self.hinge_mass (self.link_stiffness * Elem.powi self.link_length 2 / (Polymers.BOLTZMANN_CONSTANT : α) / temperature) (self.link_energy / (Polymers.BOLTZMANN_CONSTANT : α) / temperature) nondimensional_end_to_end_length_per_link temperature

/-- `src/physics/single_chain/ufjc/morse/thermodynamics/isometric/asymptotic/legendre/mod.rs` lines 170-173. -/
def MORSEFJC.nondimensional_helmholtz_free_energy_per_link (self : Polymers.ufjc.morse.thermodynamics.isometric.asymptotic.legendre.MORSEFJC α) (nondimensional_end_to_end_length_per_link : α) (temperature : α) : α :=
  Polymers.ufjc.morse.thermodynamics.isometric.asymptotic.legendre.nondimensional_helmholtz_free_energy_per_link self.number_of_links self.link_length self.hinge_mass (self.link_stiffness * Elem.powi self.link_length 2 / (Polymers.BOLTZMANN_CONSTANT : α) / temperature) (self.link_energy / (Polymers.BOLTZMANN_CONSTANT : α) / temperature) nondimensional_end_to_end_length_per_link temperature

/-- `src/physics/single_chain/ufjc/morse/thermodynamics/isometric/asymptotic/legendre/mod.rs` lines 175-178. -/
def MORSEFJC.nondimensional_relative_helmholtz_free_energy (self : Polymers.ufjc.morse.thermodynamics.isometric.asymptotic.legendre.MORSEFJC α) (nondimensional_end_to_end_length_per_link : α) (temperature : α) : α :=
  Polymers.ufjc.morse.thermodynamics.isometric.asymptotic.legendre.nondimensional_relative_helmholtz_free_energy self.number_of_links (self.link_stiffness * Elem.powi self.link_length 2 / (Polymers.BOLTZMANN_CONSTANT : α) / temperature) (self.link_energy / (Polymers.BOLTZMANN_CONSTANT : α) / temperature) nondimensional_end_to_end_length_per_link

/-- `src/physics/single_chain/ufjc/morse/thermodynamics/isometric/asymptotic/legendre/mod.rs` lines 180-183. -/
def MORSEFJC.nondimensional_relative_helmholtz_free_energy_per_link (self : Polymers.ufjc.morse.thermodynamics.isometric.asymptotic.legendre.MORSEFJC α) (nondimensional_end_to_end_length_per_link : α) (temperature : α) : α :=
  Polymers.ufjc.morse.thermodynamics.isometric.asymptotic.legendre.nondimensional_relative_helmholtz_free_energy_per_link (self.link_stiffness * Elem.powi self.link_length 2 / (Polymers.BOLTZMANN_CONSTANT : α) / temperature) (self.link_energy / (Polymers.BOLTZMANN_CONSTANT : α) / temperature) nondimensional_end_to_end_length_per_link

end Polymers.ufjc.morse.thermodynamics.isometric.asymptotic.legendre

namespace Polymers.ufjc.morse.thermodynamics.isometric.asymptotic.reduced

/-- `src/physics/single_chain/ufjc/morse/thermodynamics/isometric/asymptotic/reduced/mod.rs` lines 10-29: struct `MORSEFJC`. -/
structure MORSEFJC (α : Type) where
  /-- field `hinge_mass` -/
  hinge_mass : α
  /-- field `link_length` -/
  link_length : α
  /-- field `number_of_links` -/
  number_of_links : Nat
  /-- field `link_stiffness` -/
  link_stiffness : α
  /-- field `link_energy` -/
  link_energy : α
  /-- field `legendre` -/
  legendre : Polymers.ufjc.morse.thermodynamics.isometric.asymptotic.reduced.legendre.MORSEFJC α

/-- `src/physics/single_chain/ufjc/morse/thermodynamics/isometric/asymptotic/reduced/mod.rs` lines 35-46. -/
def MORSEFJC.init (number_of_links : Nat) (link_length : α) (hinge_mass : α) (link_stiffness : α) (link_energy : α) : Polymers.ufjc.morse.thermodynamics.isometric.asymptotic.reduced.MORSEFJC α :=
  { hinge_mass := hinge_mass, link_length := link_length, number_of_links := number_of_links, link_stiffness := link_stiffness, link_energy := link_energy, legendre := Polymers.ufjc.morse.thermodynamics.isometric.asymptotic.reduced.legendre.MORSEFJC.init number_of_links link_length hinge_mass link_stiffness link_energy }

end Polymers.ufjc.morse.thermodynamics.isometric.asymptotic.reduced

namespace Polymers.ufjc.morse.thermodynamics.isotensional.asymptotic.legendre

/-- `src/physics/single_chain/ufjc/morse/thermodynamics/isotensional/asymptotic/legendre/mod.rs` lines 18-34: struct `MORSEFJC`. -/
structure MORSEFJC (α : Type) where
  /-- field `hinge_mass` -/
  hinge_mass : α
  /-- field `link_length` -/
  link_length : α
  /-- field `number_of_links` -/
  number_of_links : Nat
  /-- field `link_stiffness` -/
  link_stiffness : α
  /-- field `link_energy` -/
  link_energy : α

/-- `src/physics/single_chain/ufjc/morse/thermodynamics/isotensional/asymptotic/legendre/mod.rs` lines 67-71. -/
def nondimensional_helmholtz_free_energy_per_link (link_length : α) (hinge_mass : α) (nondimensional_link_stiffness : α) (nondimensional_link_energy : α) (nondimensional_force : α) (temperature : α) : α :=
  let nondimensional_morse_parameter : α := Elem.sqrt (nondimensional_link_stiffness / nondimensional_link_energy / 2.0)
  (-Elem.ln (Elem.sinh nondimensional_force / nondimensional_force)) - Elem.ln (1.0 + (1.0 + 1.5 * nondimensional_morse_parameter) * nondimensional_force / Elem.tanh nondimensional_force / nondimensional_link_stiffness) + nondimensional_link_energy * Elem.powi (1.0 - 0.5 * (1.0 + Elem.sqrt (1.0 - nondimensional_force / Elem.sqrt (nondimensional_link_energy * nondimensional_link_stiffness / 8.0)))) 2 - 0.5 * Elem.ln (2.0 * (Elem.pi : α) * Elem.powi link_length 2 / nondimensional_link_stiffness) - Elem.ln (8.0 * Elem.powi (Elem.pi : α) 2 * hinge_mass * Elem.powi link_length 2 * (Polymers.BOLTZMANN_CONSTANT : α) * temperature / Elem.powi (Polymers.PLANCK_CONSTANT : α) 2) + nondimensional_force / Elem.tanh nondimensional_force - 1.0 + Elem.powi nondimensional_force 2 / nondimensional_link_stiffness * ((Elem.tanh nondimensional_force - 1.0 / Elem.tanh nondimensional_force + 1.0 / nondimensional_force) / (Elem.tanh nondimensional_force / (1.0 + 1.5 * nondimensional_morse_parameter) + nondimensional_force / nondimensional_link_stiffness))

/-- `src/physics/single_chain/ufjc/morse/thermodynamics/isotensional/asymptotic/legendre/mod.rs` lines 61-64. -/
def nondimensional_helmholtz_free_energy (number_of_links : Nat) (link_length : α) (hinge_mass : α) (nondimensional_link_stiffness : α) (nondimensional_link_energy : α) (nondimensional_force : α) (temperature : α) : α :=
  (number_of_links : α) * Polymers.ufjc.morse.thermodynamics.isotensional.asymptotic.legendre.nondimensional_helmholtz_free_energy_per_link link_length hinge_mass nondimensional_link_stiffness nondimensional_link_energy nondimensional_force temperature

/-- `src/physics/single_chain/ufjc/morse/thermodynamics/isotensional/asymptotic/legendre/mod.rs` lines 37-40. -/
def helmholtz_free_energy (number_of_links : Nat) (link_length : α) (hinge_mass : α) (link_stiffness : α) (link_energy : α) (force : α) (temperature : α) : α :=
  (Polymers.BOLTZMANN_CONSTANT : α) * temperature * Polymers.ufjc.morse.thermodynamics.isotensional.asymptotic.legendre.nondimensional_helmholtz_free_energy number_of_links link_length hinge_mass (link_stiffness * Elem.powi link_length 2 / (Polymers.BOLTZMANN_CONSTANT : α) / temperature) (link_energy / (Polymers.BOLTZMANN_CONSTANT : α) / temperature) (force / (Polymers.BOLTZMANN_CONSTANT : α) / temperature * link_length) temperature

/-- `src/physics/single_chain/ufjc/morse/thermodynamics/isotensional/asymptotic/legendre/mod.rs` lines 43-46. -/
def helmholtz_free_energy_per_link (link_length : α) (hinge_mass : α) (link_stiffness : α) (link_energy : α) (force : α) (temperature : α) : α :=
  (Polymers.BOLTZMANN_CONSTANT : α) * temperature * Polymers.ufjc.morse.thermodynamics.isotensional.asymptotic.legendre.nondimensional_helmholtz_free_energy_per_link link_length hinge_mass (link_stiffness * Elem.powi link_length 2 / (Polymers.BOLTZMANN_CONSTANT : α) / temperature) (link_energy / (Polymers.BOLTZMANN_CONSTANT : α) / temperature) (force / (Polymers.BOLTZMANN_CONSTANT : α) / temperature * link_length) temperature

/-- `src/physics/single_chain/ufjc/morse/thermodynamics/isotensional/asymptotic/legendre/mod.rs` lines 49-52. -/
def relative_helmholtz_free_energy (number_of_links : Nat) (link_length : α) (link_stiffness : α) (link_energy : α) (force : α) (temperature : α) : α :=
  Polymers.ufjc.morse.thermodynamics.isotensional.asymptotic.legendre.helmholtz_free_energy number_of_links link_length 1.0 link_stiffness link_energy force temperature - Polymers.ufjc.morse.thermodynamics.isotensional.asymptotic.legendre.helmholtz_free_energy number_of_links link_length 1.0 link_stiffness link_energy ((Polymers.ZERO : α) * (Polymers.BOLTZMANN_CONSTANT : α) * temperature / link_length) temperature

/-- `src/physics/single_chain/ufjc/morse/thermodynamics/isotensional/asymptotic/legendre/mod.rs` lines 55-58. -/
def relative_helmholtz_free_energy_per_link (link_length : α) (link_stiffness : α) (link_energy : α) (force : α) (temperature : α) : α :=
  Polymers.ufjc.morse.thermodynamics.isotensional.asymptotic.legendre.helmholtz_free_energy_per_link link_length 1.0 link_stiffness link_energy force temperature - Polymers.ufjc.morse.thermodynamics.isotensional.asymptotic.legendre.helmholtz_free_energy_per_link link_length 1.0 link_stiffness link_energy ((Polymers.ZERO : α) * (Polymers.BOLTZMANN_CONSTANT : α) * temperature / link_length) temperature

/-- `src/physics/single_chain/ufjc/morse/thermodynamics/isotensional/asymptotic/legendre/mod.rs` lines 74-77. -/
def nondimensional_relative_helmholtz_free_energy (number_of_links : Nat) (nondimensional_link_stiffness : α) (nondimensional_link_energy : α) (nondimensional_force : α) : α :=
  Polymers.ufjc.morse.thermodynamics.isotensional.asymptotic.legendre.nondimensional_helmholtz_free_energy number_of_links 1.0 1.0 nondimensional_link_stiffness nondimensional_link_energy nondimensional_force 300.0 - Polymers.ufjc.morse.thermodynamics.isotensional.asymptotic.legendre.nondimensional_helmholtz_free_energy number_of_links 1.0 1.0 nondimensional_link_stiffness nondimensional_link_energy (Polymers.ZERO : α) 300.0

/-- `src/physics/single_chain/ufjc/morse/thermodynamics/isotensional/asymptotic/legendre/mod.rs` lines 80-83. -/
def nondimensional_relative_helmholtz_free_energy_per_link (nondimensional_link_stiffness : α) (nondimensional_link_energy : α) (nondimensional_force : α) : α :=
  Polymers.ufjc.morse.thermodynamics.isotensional.asymptotic.legendre.nondimensional_helmholtz_free_energy_per_link 1.0 1.0 nondimensional_link_stiffness nondimensional_link_energy nondimensional_force 300.0 - Polymers.ufjc.morse.thermodynamics.isotensional.asymptotic.legendre.nondimensional_helmholtz_free_energy_per_link 1.0 1.0 nondimensional_link_stiffness nondimensional_link_energy (Polymers.ZERO : α) 300.0

/-- `src/physics/single_chain/ufjc/morse/thermodynamics/isotensional/asymptotic/legendre/mod.rs` lines 89-99. -/
def MORSEFJC.init (number_of_links : Nat) (link_length : α) (hinge_mass : α) (link_stiffness : α) (link_energy : α) : Polymers.ufjc.morse.thermodynamics.isotensional.asymptotic.legendre.MORSEFJC α :=
  { hinge_mass := hinge_mass, link_length := link_length, number_of_links := number_of_links, link_stiffness := link_stiffness, link_energy := link_energy }

/-- `src/physics/single_chain/ufjc/morse/thermodynamics/isotensional/asymptotic/legendre/mod.rs` lines 101-104. -/
def MORSEFJC.helmholtz_free_energy (self : Polymers.ufjc.morse.thermodynamics.isotensional.asymptotic.legendre.MORSEFJC α) (force : α) (temperature : α) : α :=
  Polymers.ufjc.morse.thermodynamics.isotensional.asymptotic.legendre.helmholtz_free_energy self.number_of_links self.link_length self.hinge_mass self.link_stiffness self.link_energy force temperature

/-- `src/physics/single_chain/ufjc/morse/thermodynamics/isotensional/asymptotic/legendre/mod.rs` lines 106-109. -/
def MORSEFJC.helmholtz_free_energy_per_link (self : Polymers.ufjc.morse.thermodynamics.isotensional.asymptotic.legendre.MORSEFJC α) (force : α) (temperature : α) : α :=
  Polymers.ufjc.morse.thermodynamics.isotensional.asymptotic.legendre.helmholtz_free_energy_per_link self.link_length self.hinge_mass self.link_stiffness self.link_energy force temperature

/-- `src/physics/single_chain/ufjc/morse/thermodynamics/isotensional/asymptotic/legendre/mod.rs` lines 111-114. -/
def MORSEFJC.relative_helmholtz_free_energy (self : Polymers.ufjc.morse.thermodynamics.isotensional.asymptotic.legendre.MORSEFJC α) (force : α) (temperature : α) : α :=
  Polymers.ufjc.morse.thermodynamics.isotensional.asymptotic.legendre.relative_helmholtz_free_energy self.number_of_links self.link_length self.link_stiffness self.link_energy force temperature

/-- `src/physics/single_chain/ufjc/morse/thermodynamics/isotensional/asymptotic/legendre/mod.rs` lines 116-119. -/
def MORSEFJC.relative_helmholtz_free_energy_per_link (self : Polymers.ufjc.morse.thermodynamics.isotensional.asymptotic.legendre.MORSEFJC α) (force : α) (temperature : α) : α :=
  Polymers.ufjc.morse.thermodynamics.isotensional.asymptotic.legendre.relative_helmholtz_free_energy_per_link self.link_length self.link_stiffness self.link_energy force temperature

/-- `src/physics/single_chain/ufjc/morse/thermodynamics/isotensional/asymptotic/legendre/mod.rs` lines 121-124. -/
def MORSEFJC.nondimensional_helmholtz_free_energy (self : Polymers.ufjc.morse.thermodynamics.isotensional.asymptotic.legendre.MORSEFJC α) (nondimensional_force : α) (temperature : α) : α :=
  Polymers.ufjc.morse.thermodynamics.isotensional.asymptotic.legendre.nondimensional_helmholtz_free_energy self.number_of_links self.link_length self.hinge_mass (self.link_stiffness * Elem.powi self.link_length 2 / (Polymers.BOLTZMANN_CONSTANT : α) / temperature) (self.link_energy / (Polymers.BOLTZMANN_CONSTANT : α) / temperature) nondimensional_force temperature

/-- `src/physics/single_chain/ufjc/morse/thermodynamics/isotensional/asymptotic/legendre/mod.rs` lines 126-129. -/
def MORSEFJC.nondimensional_helmholtz_free_energy_per_link (self : Polymers.ufjc.morse.thermodynamics.isotensional.asymptotic.legendre.MORSEFJC α) (nondimensional_force : α) (temperature : α) : α :=
  Polymers.ufjc.morse.thermodynamics.isotensional.asymptotic.legendre.nondimensional_helmholtz_free_energy_per_link self.link_length self.hinge_mass (self.link_stiffness * Elem.powi self.link_length 2 / (Polymers.BOLTZMANN_CONSTANT : α) / temperature) (self.link_energy / (Polymers.BOLTZMANN_CONSTANT : α) / temperature) nondimensional_force temperature

/-- `src/physics/single_chain/ufjc/morse/thermodynamics/isotensional/asymptotic/legendre/mod.rs` lines 131-134. -/
def MORSEFJC.nondimensional_relative_helmholtz_free_energy (self : Polymers.ufjc.morse.thermodynamics.isotensional.asymptotic.legendre.MORSEFJC α) (nondimensional_force : α) (temperature : α) : α :=
  Polymers.ufjc.morse.thermodynamics.isotensional.asymptotic.legendre.nondimensional_relative_helmholtz_free_energy self.number_of_links (self.link_stiffness * Elem.powi self.link_length 2 / (Polymers.BOLTZMANN_CONSTANT : α) / temperature) (self.link_energy / (Polymers.BOLTZMANN_CONSTANT : α) / temperature) nondimensional_force

/-- `src/physics/single_chain/ufjc/morse/thermodynamics/isotensional/asymptotic/legendre/mod.rs` lines 136-139. -/
def MORSEFJC.nondimensional_relative_helmholtz_free_energy_per_link (self : Polymers.ufjc.morse.thermodynamics.isotensional.asymptotic.legendre.MORSEFJC α) (nondimensional_force : α) (temperature : α) : α :=
  Polymers.ufjc.morse.thermodynamics.isotensional.asymptotic.legendre.nondimensional_relative_helmholtz_free_energy_per_link (self.link_stiffness * Elem.powi self.link_length 2 / (Polymers.BOLTZMANN_CONSTANT : α) / temperature) (self.link_energy / (Polymers.BOLTZMANN_CONSTANT : α) / temperature) nondimensional_force

end Polymers.ufjc.morse.thermodynamics.isotensional.asymptotic.legendre

namespace Polymers.ufjc.morse.thermodynamics.isotensional.asymptotic.reduced

/-- `src/physics/single_chain/ufjc/morse/thermodynamics/isotensional/asymptotic/reduced/mod.rs` lines 21-40: struct `MORSEFJC`. -/
structure MORSEFJC (α : Type) where
  /-- field `hinge_mass` -/
  hinge_mass : α
  /-- field `link_length` -/
  link_length : α
  /-- field `number_of_links` -/
  number_of_links : Nat
  /-- field `link_stiffness` -/
  link_stiffness : α
  /-- field `link_energy` -/
  link_energy : α
  /-- field `legendre` -/
  legendre : Polymers.ufjc.morse.thermodynamics.isotensional.asymptotic.reduced.legendre.MORSEFJC α

/-- `src/physics/single_chain/ufjc/morse/thermodynamics/isotensional/asymptotic/reduced/mod.rs` lines 61-64. -/
def nondimensional_end_to_end_length_per_link (nondimensional_link_stiffness : α) (nondimensional_link_energy : α) (nondimensional_force : α) : α :=
  1.0 / Elem.tanh nondimensional_force - 1.0 / nondimensional_force + Elem.sqrt (2.0 * nondimensional_link_energy / nondimensional_link_stiffness) * Elem.ln (2.0 / (1.0 + Elem.sqrt (1.0 - nondimensional_force / Elem.sqrt (nondimensional_link_energy * nondimensional_link_stiffness / 8.0))))

/-- `src/physics/single_chain/ufjc/morse/thermodynamics/isotensional/asymptotic/reduced/mod.rs` lines 55-58. -/
def nondimensional_end_to_end_length (number_of_links : Nat) (nondimensional_link_stiffness : α) (nondimensional_link_energy : α) (nondimensional_force : α) : α :=
  (number_of_links : α) * Polymers.ufjc.morse.thermodynamics.isotensional.asymptotic.reduced.nondimensional_end_to_end_length_per_link nondimensional_link_stiffness nondimensional_link_energy nondimensional_force

/-- `src/physics/single_chain/ufjc/morse/thermodynamics/isotensional/asymptotic/reduced/mod.rs` lines 43-46. -/
def end_to_end_length (number_of_links : Nat) (link_length : α) (link_stiffness : α) (link_energy : α) (force : α) (temperature : α) : α :=
  link_length * Polymers.ufjc.morse.thermodynamics.isotensional.asymptotic.reduced.nondimensional_end_to_end_length number_of_links (link_stiffness * Elem.powi link_length 2 / (Polymers.BOLTZMANN_CONSTANT : α) / temperature) (link_energy / (Polymers.BOLTZMANN_CONSTANT : α) / temperature) (force * link_length / (Polymers.BOLTZMANN_CONSTANT : α) / temperature)

/-- `src/physics/single_chain/ufjc/morse/thermodynamics/isotensional/asymptotic/reduced/mod.rs` lines 49-52. -/
def end_to_end_length_per_link (link_length : α) (link_stiffness : α) (link_energy : α) (force : α) (temperature : α) : α :=
  link_length * Polymers.ufjc.morse.thermodynamics.isotensional.asymptotic.reduced.nondimensional_end_to_end_length_per_link (link_stiffness * Elem.powi link_length 2 / (Polymers.BOLTZMANN_CONSTANT : α) / temperature) (link_energy / (Polymers.BOLTZMANN_CONSTANT : α) / temperature) (force * link_length / (Polymers.BOLTZMANN_CONSTANT : α) / temperature)

/-- `src/physics/single_chain/ufjc/morse/thermodynamics/isotensional/asymptotic/reduced/mod.rs` lines 97-101. -/
def nondimensional_gibbs_free_energy_per_link (link_length : α) (hinge_mass : α) (nondimensional_link_stiffness : α) (nondimensional_link_energy : α) (nondimensional_force : α) (temperature : α) : α :=
  let nondimensional_force_max : α := Elem.sqrt (nondimensional_link_energy * nondimensional_link_stiffness / 8.0)
  (-Elem.ln (Elem.sinh nondimensional_force / nondimensional_force)) + nondimensional_link_energy * Elem.powi (1.0 - 0.5 * (1.0 + Elem.sqrt (1.0 - nondimensional_force / nondimensional_force_max))) 2 - nondimensional_force * Elem.sqrt (2.0 * nondimensional_link_energy / nondimensional_link_stiffness) * Elem.ln (2.0 / (1.0 + Elem.sqrt (1.0 - nondimensional_force / nondimensional_force_max))) - 0.5 * Elem.ln (2.0 * (Elem.pi : α) * Elem.powi link_length 2 / nondimensional_link_stiffness) - Elem.ln (8.0 * Elem.powi (Elem.pi : α) 2 * hinge_mass * Elem.powi link_length 2 * (Polymers.BOLTZMANN_CONSTANT : α) * temperature / Elem.powi (Polymers.PLANCK_CONSTANT : α) 2)

/-- `src/physics/single_chain/ufjc/morse/thermodynamics/isotensional/asymptotic/reduced/mod.rs` lines 91-94. -/
def nondimensional_gibbs_free_energy (number_of_links : Nat) (link_length : α) (hinge_mass : α) (nondimensional_link_stiffness : α) (nondimensional_link_energy : α) (nondimensional_force : α) (temperature : α) : α :=
  (number_of_links : α) * Polymers.ufjc.morse.thermodynamics.isotensional.asymptotic.reduced.nondimensional_gibbs_free_energy_per_link link_length hinge_mass nondimensional_link_stiffness nondimensional_link_energy nondimensional_force temperature

/-- `src/physics/single_chain/ufjc/morse/thermodynamics/isotensional/asymptotic/reduced/mod.rs` lines 67-70. -/
def gibbs_free_energy (number_of_links : Nat) (link_length : α) (hinge_mass : α) (link_stiffness : α) (link_energy : α) (force : α) (temperature : α) : α :=
  (Polymers.BOLTZMANN_CONSTANT : α) * temperature * Polymers.ufjc.morse.thermodynamics.isotensional.asymptotic.reduced.nondimensional_gibbs_free_energy number_of_links link_length hinge_mass (link_stiffness * Elem.powi link_length 2 / (Polymers.BOLTZMANN_CONSTANT : α) / temperature) (link_energy / (Polymers.BOLTZMANN_CONSTANT : α) / temperature) (force * link_length / (Polymers.BOLTZMANN_CONSTANT : α) / temperature) temperature

/-- `src/physics/single_chain/ufjc/morse/thermodynamics/isotensional/asymptotic/reduced/mod.rs` lines 73-76. -/
def gibbs_free_energy_per_link (link_length : α) (hinge_mass : α) (link_stiffness : α) (link_energy : α) (force : α) (temperature : α) : α :=
  (Polymers.BOLTZMANN_CONSTANT : α) * temperature * Polymers.ufjc.morse.thermodynamics.isotensional.asymptotic.reduced.nondimensional_gibbs_free_energy_per_link link_length hinge_mass (link_stiffness * Elem.powi link_length 2 / (Polymers.BOLTZMANN_CONSTANT : α) / temperature) (link_energy / (Polymers.BOLTZMANN_CONSTANT : α) / temperature) (force * link_length / (Polymers.BOLTZMANN_CONSTANT : α) / temperature) temperature

/-- `src/physics/single_chain/ufjc/morse/thermodynamics/isotensional/asymptotic/reduced/mod.rs` lines 79-82. -/
def relative_gibbs_free_energy (number_of_links : Nat) (link_length : α) (link_stiffness : α) (link_energy : α) (force : α) (temperature : α) : α :=
  Polymers.ufjc.morse.thermodynamics.isotensional.asymptotic.reduced.gibbs_free_energy number_of_links link_length 1.0 link_stiffness link_energy force temperature - Polymers.ufjc.morse.thermodynamics.isotensional.asymptotic.reduced.gibbs_free_energy number_of_links link_length 1.0 link_stiffness link_energy ((Polymers.ZERO : α) * (Polymers.BOLTZMANN_CONSTANT : α) * temperature / link_length) temperature

/-- `src/physics/single_chain/ufjc/morse/thermodynamics/isotensional/asymptotic/reduced/mod.rs` lines 85-88. -/
def relative_gibbs_free_energy_per_link (link_length : α) (link_stiffness : α) (link_energy : α) (force : α) (temperature : α) : α :=
  Polymers.ufjc.morse.thermodynamics.isotensional.asymptotic.reduced.gibbs_free_energy_per_link link_length 1.0 link_stiffness link_energy force temperature - Polymers.ufjc.morse.thermodynamics.isotensional.asymptotic.reduced.gibbs_free_energy_per_link link_length 1.0 link_stiffness link_energy ((Polymers.ZERO : α) * (Polymers.BOLTZMANN_CONSTANT : α) * temperature / link_length) temperature

/-- `src/physics/single_chain/ufjc/morse/thermodynamics/isotensional/asymptotic/reduced/mod.rs` lines 104-107. -/
def nondimensional_relative_gibbs_free_energy (number_of_links : Nat) (nondimensional_link_stiffness : α) (nondimensional_link_energy : α) (nondimensional_force : α) : α :=
  Polymers.ufjc.morse.thermodynamics.isotensional.asymptotic.reduced.nondimensional_gibbs_free_energy number_of_links 1.0 1.0 nondimensional_link_stiffness nondimensional_link_energy nondimensional_force 300.0 - Polymers.ufjc.morse.thermodynamics.isotensional.asymptotic.reduced.nondimensional_gibbs_free_energy number_of_links 1.0 1.0 nondimensional_link_stiffness nondimensional_link_energy (Polymers.ZERO : α) 300.0

/-- `src/physics/single_chain/ufjc/morse/thermodynamics/isotensional/asymptotic/reduced/mod.rs` lines 110-113. -/
def nondimensional_relative_gibbs_free_energy_per_link (nondimensional_link_stiffness : α) (nondimensional_link_energy : α) (nondimensional_force : α) : α :=
  Polymers.ufjc.morse.thermodynamics.isotensional.asymptotic.reduced.nondimensional_gibbs_free_energy_per_link 1.0 1.0 nondimensional_link_stiffness nondimensional_link_energy nondimensional_force 300.0 - Polymers.ufjc.morse.thermodynamics.isotensional.asymptotic.reduced.nondimensional_gibbs_free_energy_per_link 1.0 1.0 nondimensional_link_stiffness nondimensional_link_energy (Polymers.ZERO : α) 300.0

/-- `src/physics/single_chain/ufjc/morse/thermodynamics/isotensional/asymptotic/reduced/mod.rs` lines 119-130. -/
def MORSEFJC.init (number_of_links : Nat) (link_length : α) (hinge_mass : α) (link_stiffness : α) (link_energy : α) : Polymers.ufjc.morse.thermodynamics.isotensional.asymptotic.reduced.MORSEFJC α :=
  { hinge_mass := hinge_mass, link_length := link_length, number_of_links := number_of_links, link_stiffness := link_stiffness, link_energy := link_energy, legendre := Polymers.ufjc.morse.thermodynamics.isotensional.asymptotic.reduced.legendre.MORSEFJC.init number_of_links link_length hinge_mass link_stiffness link_energy }

/-- `src/physics/single_chain/ufjc/morse/thermodynamics/isotensional/asymptotic/reduced/mod.rs` lines 132-135. -/
def MORSEFJC.end_to_end_length (self : Polymers.ufjc.morse.thermodynamics.isotensional.asymptotic.reduced.MORSEFJC α) (force : α) (temperature : α) : α :=
  Polymers.ufjc.morse.thermodynamics.isotensional.asymptotic.reduced.end_to_end_length self.number_of_links self.link_length self.link_stiffness self.link_energy force temperature

/-- `src/physics/single_chain/ufjc/morse/thermodynamics/isotensional/asymptotic/reduced/mod.rs` lines 137-140. -/
def MORSEFJC.end_to_end_length_per_link (self : Polymers.ufjc.morse.thermodynamics.isotensional.asymptotic.reduced.MORSEFJC α) (force : α) (temperature : α) : α :=
  Polymers.ufjc.morse.thermodynamics.isotensional.asymptotic.reduced.end_to_end_length_per_link self.link_length self.link_stiffness self.link_energy force temperature

/-- `src/physics/single_chain/ufjc/morse/thermodynamics/isotensional/asymptotic/reduced/mod.rs` lines 142-145. -/
def MORSEFJC.nondimensional_end_to_end_length (self : Polymers.ufjc.morse.thermodynamics.isotensional.asymptotic.reduced.MORSEFJC α) (nondimensional_force : α) (temperature : α) : α :=
  Polymers.ufjc.morse.thermodynamics.isotensional.asymptotic.reduced.nondimensional_end_to_end_length self.number_of_links (self.link_stiffness * Elem.powi self.link_length 2 / (Polymers.BOLTZMANN_CONSTANT : α) / temperature) (self.link_energy / (Polymers.BOLTZMANN_CONSTANT : α) / temperature) nondimensional_force

/-- `src/physics/single_chain/ufjc/morse/thermodynamics/isotensional/asymptotic/reduced/mod.rs` lines 147-150. -/
def MORSEFJC.nondimensional_end_to_end_length_per_link (self : Polymers.ufjc.morse.thermodynamics.isotensional.asymptotic.reduced.MORSEFJC α) (nondimensional_force : α) (temperature : α) : α :=
  Polymers.ufjc.morse.thermodynamics.isotensional.asymptotic.reduced.nondimensional_end_to_end_length_per_link (self.link_stiffness * Elem.powi self.link_length 2 / (Polymers.BOLTZMANN_CONSTANT : α) / temperature) (self.link_energy / (Polymers.BOLTZMANN_CONSTANT : α) / temperature) nondimensional_force

/-- `src/physics/single_chain/ufjc/morse/thermodynamics/isotensional/asymptotic/reduced/mod.rs` lines 152-155. -/
def MORSEFJC.gibbs_free_energy (self : Polymers.ufjc.morse.thermodynamics.isotensional.asymptotic.reduced.MORSEFJC α) (force : α) (temperature : α) : α :=
  Polymers.ufjc.morse.thermodynamics.isotensional.asymptotic.reduced.gibbs_free_energy self.number_of_links self.link_length self.hinge_mass self.link_stiffness self.link_energy force temperature

/-- `src/physics/single_chain/ufjc/morse/thermodynamics/isotensional/asymptotic/reduced/mod.rs` lines 157-160. -/
def MORSEFJC.gibbs_free_energy_per_link (self : Polymers.ufjc.morse.thermodynamics.isotensional.asymptotic.reduced.MORSEFJC α) (force : α) (temperature : α) : α :=
  Polymers.ufjc.morse.thermodynamics.isotensional.asymptotic.reduced.gibbs_free_energy_per_link self.link_length self.hinge_mass self.link_stiffness self.link_energy force temperature

/-- `src/physics/single_chain/ufjc/morse/thermodynamics/isotensional/asymptotic/reduced/mod.rs` lines 162-165. -/
def MORSEFJC.relative_gibbs_free_energy (self : Polymers.ufjc.morse.thermodynamics.isotensional.asymptotic.reduced.MORSEFJC α) (force : α) (temperature : α) : α :=
  Polymers.ufjc.morse.thermodynamics.isotensional.asymptotic.reduced.relative_gibbs_free_energy self.number_of_links self.link_length self.link_stiffness self.link_energy force temperature

/-- `src/physics/single_chain/ufjc/morse/thermodynamics/isotensional/asymptotic/reduced/mod.rs` lines 167-170. -/
def MORSEFJC.relative_gibbs_free_energy_per_link (self : Polymers.ufjc.morse.thermodynamics.isotensional.asymptotic.reduced.MORSEFJC α) (force : α) (temperature : α) : α :=
  Polymers.ufjc.morse.thermodynamics.isotensional.asymptotic.reduced.relative_gibbs_free_energy_per_link self.link_length self.link_stiffness self.link_energy force temperature

/-- `src/physics/single_chain/ufjc/morse/thermodynamics/isotensional/asymptotic/reduced/mod.rs` lines 172-175. -/
def MORSEFJC.nondimensional_gibbs_free_energy (self : Polymers.ufjc.morse.thermodynamics.isotensional.asymptotic.reduced.MORSEFJC α) (nondimensional_force : α) (temperature : α) : α :=
  Polymers.ufjc.morse.thermodynamics.isotensional.asymptotic.reduced.nondimensional_gibbs_free_energy self.number_of_links self.link_length self.hinge_mass (self.link_stiffness * Elem.powi self.link_length 2 / (Polymers.BOLTZMANN_CONSTANT : α) / temperature) (self.link_energy / (Polymers.BOLTZMANN_CONSTANT : α) / temperature) nondimensional_force temperature

/-- `src/physics/single_chain/ufjc/morse/thermodynamics/isotensional/asymptotic/reduced/mod.rs` lines 177-180. -/
def MORSEFJC.nondimensional_gibbs_free_energy_per_link (self : Polymers.ufjc.morse.thermodynamics.isotensional.asymptotic.reduced.MORSEFJC α) (nondimensional_force : α) (temperature : α) : α :=
  Polymers.ufjc.morse.thermodynamics.isotensional.asymptotic.reduced.nondimensional_gibbs_free_energy_per_link self.link_length self.hinge_mass (self.link_stiffness * Elem.powi self.link_length 2 / (Polymers.BOLTZMANN_CONSTANT : α) / temperature) (self.link_energy / (Polymers.BOLTZMANN_CONSTANT : α) / temperature) nondimensional_force temperature

/-- `src/physics/single_chain/ufjc/morse/thermodynamics/isotensional/asymptotic/reduced/mod.rs` lines 182-185. -/
def MORSEFJC.nondimensional_relative_gibbs_free_energy (self : Polymers.ufjc.morse.thermodynamics.isotensional.asymptotic.reduced.MORSEFJC α) (nondimensional_force : α) (temperature : α) : α :=
  Polymers.ufjc.morse.thermodynamics.isotensional.asymptotic.reduced.nondimensional_relative_gibbs_free_energy self.number_of_links (self.link_stiffness * Elem.powi self.link_length 2 / (Polymers.BOLTZMANN_CONSTANT : α) / temperature) (self.link_energy / (Polymers.BOLTZMANN_CONSTANT : α) / temperature) nondimensional_force

/-- `src/physics/single_chain/ufjc/morse/thermodynamics/isotensional/asymptotic/reduced/mod.rs` lines 187-190. -/
def MORSEFJC.nondimensional_relative_gibbs_free_energy_per_link (self : Polymers.ufjc.morse.thermodynamics.isotensional.asymptotic.reduced.MORSEFJC α) (nondimensional_force : α) (temperature : α) : α :=
  Polymers.ufjc.morse.thermodynamics.isotensional.asymptotic.reduced.nondimensional_relative_gibbs_free_energy_per_link (self.link_stiffness * Elem.powi self.link_length 2 / (Polymers.BOLTZMANN_CONSTANT : α) / temperature) (self.link_energy / (Polymers.BOLTZMANN_CONSTANT : α) / temperature) nondimensional_force

end Polymers.ufjc.morse.thermodynamics.isotensional.asymptotic.reduced

namespace Polymers.ufjc.morse.thermodynamics.isometric.asymptotic

/-- `src/physics/single_chain/ufjc/morse/thermodynamics/isometric/asymptotic/mod.rs` lines 13-35: struct `MORSEFJC`. -/
structure MORSEFJC (α : Type) where
  /-- field `hinge_mass` -/
  hinge_mass : α
  /-- field `link_length` -/
  link_length : α
  /-- field `number_of_links` -/
  number_of_links : Nat
  /-- field `link_stiffness` -/
  link_stiffness : α
  /-- field `link_energy` -/
  link_energy : α
  /-- field `reduced` -/
  reduced : Polymers.ufjc.morse.thermodynamics.isometric.asymptotic.reduced.MORSEFJC α
  /-- field `legendre` -/
  legendre : Polymers.ufjc.morse.thermodynamics.isometric.asymptotic.legendre.MORSEFJC α

/-- `src/physics/single_chain/ufjc/morse/thermodynamics/isometric/asymptotic/mod.rs` lines 41-53. -/
def MORSEFJC.init (number_of_links : Nat) (link_length : α) (hinge_mass : α) (link_stiffness : α) (link_energy : α) : Polymers.ufjc.morse.thermodynamics.isometric.asymptotic.MORSEFJC α :=
  { hinge_mass := hinge_mass, link_length := link_length, number_of_links := number_of_links, link_stiffness := link_stiffness, link_energy := link_energy, reduced := Polymers.ufjc.morse.thermodynamics.isometric.asymptotic.reduced.MORSEFJC.init number_of_links link_length hinge_mass link_stiffness link_energy, legendre := Polymers.ufjc.morse.thermodynamics.isometric.asymptotic.legendre.MORSEFJC.init number_of_links link_length hinge_mass link_stiffness link_energy }

end Polymers.ufjc.morse.thermodynamics.isometric.asymptotic

namespace Polymers.ufjc.morse.thermodynamics.isotensional.asymptotic

/-- `src/physics/single_chain/ufjc/morse/thermodynamics/isotensional/asymptotic/mod.rs` lines 24-46: struct `MORSEFJC`. -/
structure MORSEFJC (α : Type) where
  /-- field `hinge_mass` -/
  hinge_mass : α
  /-- field `link_length` -/
  link_length : α
  /-- field `number_of_links` -/
  number_of_links : Nat
  /-- field `link_stiffness` -/
  link_stiffness : α
  /-- field `link_energy` -/
  link_energy : α
  /-- field `reduced` -/
  reduced : Polymers.ufjc.morse.thermodynamics.isotensional.asymptotic.reduced.MORSEFJC α
  /-- field `legendre` -/
  legendre : Polymers.ufjc.morse.thermodynamics.isotensional.asymptotic.legendre.MORSEFJC α

/-- `src/physics/single_chain/ufjc/morse/thermodynamics/isotensional/asymptotic/mod.rs` lines 67-71. -/
def nondimensional_end_to_end_length_per_link (nondimensional_link_stiffness : α) (nondimensional_link_energy : α) (nondimensional_force : α) : α :=
  let nondimensional_morse_parameter : α := Elem.sqrt (nondimensional_link_stiffness / nondimensional_link_energy / 2.0)
  1.0 / Elem.tanh nondimensional_force - 1.0 / nondimensional_force + nondimensional_force / nondimensional_link_stiffness * ((Elem.tanh nondimensional_force - 1.0 / Elem.tanh nondimensional_force + 1.0 / nondimensional_force) / (Elem.tanh nondimensional_force / (1.0 + 1.5 * nondimensional_morse_parameter) + nondimensional_force / nondimensional_link_stiffness)) + Elem.ln (2.0 / (1.0 + Elem.sqrt (1.0 - nondimensional_force / Elem.sqrt (nondimensional_link_energy * nondimensional_link_stiffness / 8.0)))) / nondimensional_morse_parameter

/-- `src/physics/single_chain/ufjc/morse/thermodynamics/isotensional/asymptotic/mod.rs` lines 61-64. -/
def nondimensional_end_to_end_length (number_of_links : Nat) (nondimensional_link_stiffness : α) (nondimensional_link_energy : α) (nondimensional_force : α) : α :=
  (number_of_links : α) * Polymers.ufjc.morse.thermodynamics.isotensional.asymptotic.nondimensional_end_to_end_length_per_link nondimensional_link_stiffness nondimensional_link_energy nondimensional_force

/-- `src/physics/single_chain/ufjc/morse/thermodynamics/isotensional/asymptotic/mod.rs` lines 49-52. -/
def end_to_end_length (number_of_links : Nat) (link_length : α) (link_stiffness : α) (link_energy : α) (force : α) (temperature : α) : α :=
  link_length * Polymers.ufjc.morse.thermodynamics.isotensional.asymptotic.nondimensional_end_to_end_length number_of_links (link_stiffness * Elem.powi link_length 2 / (Polymers.BOLTZMANN_CONSTANT : α) / temperature) (link_energy / (Polymers.BOLTZMANN_CONSTANT : α) / temperature) (force * link_length / (Polymers.BOLTZMANN_CONSTANT : α) / temperature)

/-- `src/physics/single_chain/ufjc/morse/thermodynamics/isotensional/asymptotic/mod.rs` lines 55-58. -/
def end_to_end_length_per_link (link_length : α) (link_stiffness : α) (link_energy : α) (force : α) (temperature : α) : α :=
  link_length * Polymers.ufjc.morse.thermodynamics.isotensional.asymptotic.nondimensional_end_to_end_length_per_link (link_stiffness * Elem.powi link_length 2 / (Polymers.BOLTZMANN_CONSTANT : α) / temperature) (link_energy / (Polymers.BOLTZMANN_CONSTANT : α) / temperature) (force * link_length / (Polymers.BOLTZMANN_CONSTANT : α) / temperature)

/-- `src/physics/single_chain/ufjc/morse/thermodynamics/isotensional/asymptotic/mod.rs` lines 104-109. -/
def nondimensional_gibbs_free_energy_per_link (link_length : α) (hinge_mass : α) (nondimensional_link_stiffness : α) (nondimensional_link_energy : α) (nondimensional_force : α) (temperature : α) : α :=
  let nondimensional_force_max : α := Elem.sqrt (nondimensional_link_energy * nondimensional_link_stiffness / 8.0)
  let nondimensional_morse_parameter : α := Elem.sqrt (nondimensional_link_stiffness / nondimensional_link_energy / 2.0)
  (-Elem.ln (Elem.sinh nondimensional_force / nondimensional_force)) - Elem.ln (1.0 + (1.0 + 1.5 * nondimensional_morse_parameter) * nondimensional_force / Elem.tanh nondimensional_force / nondimensional_link_stiffness) + nondimensional_link_energy * Elem.powi (1.0 - 0.5 * (1.0 + Elem.sqrt (1.0 - nondimensional_force / nondimensional_force_max))) 2 - nondimensional_force / nondimensional_morse_parameter * Elem.ln (2.0 / (1.0 + Elem.sqrt (1.0 - nondimensional_force / nondimensional_force_max))) - 0.5 * Elem.ln (2.0 * (Elem.pi : α) * Elem.powi link_length 2 / nondimensional_link_stiffness) - Elem.ln (8.0 * Elem.powi (Elem.pi : α) 2 * hinge_mass * Elem.powi link_length 2 * (Polymers.BOLTZMANN_CONSTANT : α) * temperature / Elem.powi (Polymers.PLANCK_CONSTANT : α) 2)

/-- `src/physics/single_chain/ufjc/morse/thermodynamics/isotensional/asymptotic/mod.rs` lines 98-101. -/
def nondimensional_gibbs_free_energy (number_of_links : Nat) (link_length : α) (hinge_mass : α) (nondimensional_link_stiffness : α) (nondimensional_link_energy : α) (nondimensional_force : α) (temperature : α) : α :=
  (number_of_links : α) * Polymers.ufjc.morse.thermodynamics.isotensional.asymptotic.nondimensional_gibbs_free_energy_per_link link_length hinge_mass nondimensional_link_stiffness nondimensional_link_energy nondimensional_force temperature

/-- `src/physics/single_chain/ufjc/morse/thermodynamics/isotensional/asymptotic/mod.rs` lines 74-77. -/
def gibbs_free_energy (number_of_links : Nat) (link_length : α) (hinge_mass : α) (link_stiffness : α) (link_energy : α) (force : α) (temperature : α) : α :=
  (Polymers.BOLTZMANN_CONSTANT : α) * temperature * Polymers.ufjc.morse.thermodynamics.isotensional.asymptotic.nondimensional_gibbs_free_energy number_of_links link_length hinge_mass (link_stiffness * Elem.powi link_length 2 / (Polymers.BOLTZMANN_CONSTANT : α) / temperature) (link_energy / (Polymers.BOLTZMANN_CONSTANT : α) / temperature) (force * link_length / (Polymers.BOLTZMANN_CONSTANT : α) / temperature) temperature

/-- `src/physics/single_chain/ufjc/morse/thermodynamics/isotensional/asymptotic/mod.rs` lines 80-83. -/
def gibbs_free_energy_per_link (link_length : α) (hinge_mass : α) (link_stiffness : α) (link_energy : α) (force : α) (temperature : α) : α :=
  (Polymers.BOLTZMANN_CONSTANT : α) * temperature * Polymers.ufjc.morse.thermodynamics.isotensional.asymptotic.nondimensional_gibbs_free_energy_per_link link_length hinge_mass (link_stiffness * Elem.powi link_length 2 / (Polymers.BOLTZMANN_CONSTANT : α) / temperature) (link_energy / (Polymers.BOLTZMANN_CONSTANT : α) / temperature) (force * link_length / (Polymers.BOLTZMANN_CONSTANT : α) / temperature) temperature

/-- `src/physics/single_chain/ufjc/morse/thermodynamics/isotensional/asymptotic/mod.rs` lines 86-89. -/
def relative_gibbs_free_energy (number_of_links : Nat) (link_length : α) (link_stiffness : α) (link_energy : α) (force : α) (temperature : α) : α :=
  Polymers.ufjc.morse.thermodynamics.isotensional.asymptotic.gibbs_free_energy number_of_links link_length 1.0 link_stiffness link_energy force temperature - Polymers.ufjc.morse.thermodynamics.isotensional.asymptotic.gibbs_free_energy number_of_links link_length 1.0 link_stiffness link_energy ((Polymers.ZERO : α) * (Polymers.BOLTZMANN_CONSTANT : α) * temperature / link_length) temperature

/-- `src/physics/single_chain/ufjc/morse/thermodynamics/isotensional/asymptotic/mod.rs` lines 92-95. -/
def relative_gibbs_free_energy_per_link (link_length : α) (link_stiffness : α) (link_energy : α) (force : α) (temperature : α) : α :=
  Polymers.ufjc.morse.thermodynamics.isotensional.asymptotic.gibbs_free_energy_per_link link_length 1.0 link_stiffness link_energy force temperature - Polymers.ufjc.morse.thermodynamics.isotensional.asymptotic.gibbs_free_energy_per_link link_length 1.0 link_stiffness link_energy ((Polymers.ZERO : α) * (Polymers.BOLTZMANN_CONSTANT : α) * temperature / link_length) temperature

/-- `src/physics/single_chain/ufjc/morse/thermodynamics/isotensional/asymptotic/mod.rs` lines 112-115. -/
def nondimensional_relative_gibbs_free_energy (number_of_links : Nat) (nondimensional_link_stiffness : α) (nondimensional_link_energy : α) (nondimensional_force : α) : α :=
  Polymers.ufjc.morse.thermodynamics.isotensional.asymptotic.nondimensional_gibbs_free_energy number_of_links 1.0 1.0 nondimensional_link_stiffness nondimensional_link_energy nondimensional_force 300.0 - Polymers.ufjc.morse.thermodynamics.isotensional.asymptotic.nondimensional_gibbs_free_energy number_of_links 1.0 1.0 nondimensional_link_stiffness nondimensional_link_energy (Polymers.ZERO : α) 300.0

/-- `src/physics/single_chain/ufjc/morse/thermodynamics/isotensional/asymptotic/mod.rs` lines 118-121. -/
def nondimensional_relative_gibbs_free_energy_per_link (nondimensional_link_stiffness : α) (nondimensional_link_energy : α) (nondimensional_force : α) : α :=
  Polymers.ufjc.morse.thermodynamics.isotensional.asymptotic.nondimensional_gibbs_free_energy_per_link 1.0 1.0 nondimensional_link_stiffness nondimensional_link_energy nondimensional_force 300.0 - Polymers.ufjc.morse.thermodynamics.isotensional.asymptotic.nondimensional_gibbs_free_energy_per_link 1.0 1.0 nondimensional_link_stiffness nondimensional_link_energy (Polymers.ZERO : α) 300.0

/-- `src/physics/single_chain/ufjc/morse/thermodynamics/isotensional/asymptotic/mod.rs` lines 127-139. -/
def MORSEFJC.init (number_of_links : Nat) (link_length : α) (hinge_mass : α) (link_stiffness : α) (link_energy : α) : Polymers.ufjc.morse.thermodynamics.isotensional.asymptotic.MORSEFJC α :=
  { hinge_mass := hinge_mass, link_length := link_length, number_of_links := number_of_links, link_stiffness := link_stiffness, link_energy := link_energy, reduced := Polymers.ufjc.morse.thermodynamics.isotensional.asymptotic.reduced.MORSEFJC.init number_of_links link_length hinge_mass link_stiffness link_energy, legendre := Polymers.ufjc.morse.thermodynamics.isotensional.asymptotic.legendre.MORSEFJC.init number_of_links link_length hinge_mass link_stiffness link_energy }

/-- `src/physics/single_chain/ufjc/morse/thermodynamics/isotensional/asymptotic/mod.rs` lines 141-144. -/
def MORSEFJC.end_to_end_length (self : Polymers.ufjc.morse.thermodynamics.isotensional.asymptotic.MORSEFJC α) (force : α) (temperature : α) : α :=
  Polymers.ufjc.morse.thermodynamics.isotensional.asymptotic.end_to_end_length self.number_of_links self.link_length self.link_stiffness self.link_energy force temperature

/-- `src/physics/single_chain/ufjc/morse/thermodynamics/isotensional/asymptotic/mod.rs` lines 146-149. -/
def MORSEFJC.end_to_end_length_per_link (self : Polymers.ufjc.morse.thermodynamics.isotensional.asymptotic.MORSEFJC α) (force : α) (temperature : α) : α :=
  Polymers.ufjc.morse.thermodynamics.isotensional.asymptotic.end_to_end_length_per_link self.link_length self.link_stiffness self.link_energy force temperature

/-- `src/physics/single_chain/ufjc/morse/thermodynamics/isotensional/asymptotic/mod.rs` lines 151-154. -/
def MORSEFJC.nondimensional_end_to_end_length (self : Polymers.ufjc.morse.thermodynamics.isotensional.asymptotic.MORSEFJC α) (nondimensional_force : α) (temperature : α) : α :=
  Polymers.ufjc.morse.thermodynamics.isotensional.asymptotic.nondimensional_end_to_end_length self.number_of_links (self.link_stiffness * Elem.powi self.link_length 2 / (Polymers.BOLTZMANN_CONSTANT : α) / temperature) (self.link_energy / (Polymers.BOLTZMANN_CONSTANT : α) / temperature) nondimensional_force

/-- `src/physics/single_chain/ufjc/morse/thermodynamics/isotensional/asymptotic/mod.rs` lines 156-159. -/
def MORSEFJC.nondimensional_end_to_end_length_per_link (self : Polymers.ufjc.morse.thermodynamics.isotensional.asymptotic.MORSEFJC α) (nondimensional_force : α) (temperature : α) : α :=
  Polymers.ufjc.morse.thermodynamics.isotensional.asymptotic.nondimensional_end_to_end_length_per_link (self.link_stiffness * Elem.powi self.link_length 2 / (Polymers.BOLTZMANN_CONSTANT : α) / temperature) (self.link_energy / (Polymers.BOLTZMANN_CONSTANT : α) / temperature) nondimensional_force

/-- `src/physics/single_chain/ufjc/morse/thermodynamics/isotensional/asymptotic/mod.rs` lines 161-164. -/
def MORSEFJC.gibbs_free_energy (self : Polymers.ufjc.morse.thermodynamics.isotensional.asymptotic.MORSEFJC α) (force : α) (temperature : α) : α :=
  Polymers.ufjc.morse.thermodynamics.isotensional.asymptotic.gibbs_free_energy self.number_of_links self.link_length self.hinge_mass self.link_stiffness self.link_energy force temperature

/-- `src/physics/single_chain/ufjc/morse/thermodynamics/isotensional/asymptotic/mod.rs` lines 166-169. -/
def MORSEFJC.gibbs_free_energy_per_link (self : Polymers.ufjc.morse.thermodynamics.isotensional.asymptotic.MORSEFJC α) (force : α) (temperature : α) : α :=
  Polymers.ufjc.morse.thermodynamics.isotensional.asymptotic.gibbs_free_energy_per_link self.link_length self.hinge_mass self.link_stiffness self.link_energy force temperature

/-- `src/physics/single_chain/ufjc/morse/thermodynamics/isotensional/asymptotic/mod.rs` lines 171-174. -/
def MORSEFJC.relative_gibbs_free_energy (self : Polymers.ufjc.morse.thermodynamics.isotensional.asymptotic.MORSEFJC α) (force : α) (temperature : α) : α :=
  Polymers.ufjc.morse.thermodynamics.isotensional.asymptotic.relative_gibbs_free_energy self.number_of_links self.link_length self.link_stiffness self.link_energy force temperature

/-- `src/physics/single_chain/ufjc/morse/thermodynamics/isotensional/asymptotic/mod.rs` lines 176-179. -/
def MORSEFJC.relative_gibbs_free_energy_per_link (self : Polymers.ufjc.morse.thermodynamics.isotensional.asymptotic.MORSEFJC α) (force : α) (temperature : α) : α :=
  Polymers.ufjc.morse.thermodynamics.isotensional.asymptotic.relative_gibbs_free_energy_per_link self.link_length self.link_stiffness self.link_energy force temperature

/-- `src/physics/single_chain/ufjc/morse/thermodynamics/isotensional/asymptotic/mod.rs` lines 181-184. -/
def MORSEFJC.nondimensional_gibbs_free_energy (self : Polymers.ufjc.morse.thermodynamics.isotensional.asymptotic.MORSEFJC α) (nondimensional_force : α) (temperature : α) : α :=
  Polymers.ufjc.morse.thermodynamics.isotensional.asymptotic.nondimensional_gibbs_free_energy self.number_of_links self.link_length self.hinge_mass (self.link_stiffness * Elem.powi self.link_length 2 / (Polymers.BOLTZMANN_CONSTANT : α) / temperature) (self.link_energy / (Polymers.BOLTZMANN_CONSTANT : α) / temperature) nondimensional_force temperature

/-- `src/physics/single_chain/ufjc/morse/thermodynamics/isotensional/asymptotic/mod.rs` lines 186-189. -/
def MORSEFJC.nondimensional_gibbs_free_energy_per_link (self : Polymers.ufjc.morse.thermodynamics.isotensional.asymptotic.MORSEFJC α) (nondimensional_force : α) (temperature : α) : α :=
  Polymers.ufjc.morse.thermodynamics.isotensional.asymptotic.nondimensional_gibbs_free_energy_per_link self.link_length self.hinge_mass (self.link_stiffness * Elem.powi self.link_length 2 / (Polymers.BOLTZMANN_CONSTANT : α) / temperature) (self.link_energy / (Polymers.BOLTZMANN_CONSTANT : α) / temperature) nondimensional_force temperature

/-- `src/physics/single_chain/ufjc/morse/thermodynamics/isotensional/asymptotic/mod.rs` lines 191-194. -/
def MORSEFJC.nondimensional_relative_gibbs_free_energy (self : Polymers.ufjc.morse.thermodynamics.isotensional.asymptotic.MORSEFJC α) (nondimensional_force : α) (temperature : α) : α :=
  Polymers.ufjc.morse.thermodynamics.isotensional.asymptotic.nondimensional_relative_gibbs_free_energy self.number_of_links (self.link_stiffness * Elem.powi self.link_length 2 / (Polymers.BOLTZMANN_CONSTANT : α) / temperature) (self.link_energy / (Polymers.BOLTZMANN_CONSTANT : α) / temperature) nondimensional_force

/-- `src/physics/single_chain/ufjc/morse/thermodynamics/isotensional/asymptotic/mod.rs` lines 196-199. -/
def MORSEFJC.nondimensional_relative_gibbs_free_energy_per_link (self : Polymers.ufjc.morse.thermodynamics.isotensional.asymptotic.MORSEFJC α) (nondimensional_force : α) (temperature : α) : α :=
  Polymers.ufjc.morse.thermodynamics.isotensional.asymptotic.nondimensional_relative_gibbs_free_energy_per_link (self.link_stiffness * Elem.powi self.link_length 2 / (Polymers.BOLTZMANN_CONSTANT : α) / temperature) (self.link_energy / (Polymers.BOLTZMANN_CONSTANT : α) / temperature) nondimensional_force

end Polymers.ufjc.morse.thermodynamics.isotensional.asymptotic

namespace Polymers.ufjc.morse.thermodynamics.isotensional.legendre

/-- `src/physics/single_chain/ufjc/morse/thermodynamics/isotensional/legendre/mod.rs` lines 23-39: struct `MORSEFJC`. -/
structure MORSEFJC (α : Type) where
  /-- field `hinge_mass` -/
  hinge_mass : α
  /-- field `link_length` -/
  link_length : α
  /-- field `number_of_links` -/
  number_of_links : Nat
  /-- field `link_stiffness` -/
  link_stiffness : α
  /-- field `link_energy` -/
  link_energy : α

/-- `src/physics/single_chain/ufjc/morse/thermodynamics/isotensional/legendre/mod.rs` lines 72-93. -/
def nondimensional_helmholtz_free_energy_per_link (link_length : α) (hinge_mass : α) (nondimensional_link_stiffness : α) (nondimensional_link_energy : α) (nondimensional_force : α) (temperature : α) : α :=
  let nondimensional_morse_parameter : α := Elem.sqrt (nondimensional_link_stiffness / nondimensional_link_energy / 2.0)
  let nondimensional_link_stretch_max : α := 1.0 + Elem.ln 2.0 / nondimensional_morse_parameter
  let rescaled_partition_function_integrand : α → α := fun (nondimensional_link_stretch : α) => (let exponent_1 : α := nondimensional_force * nondimensional_link_stretch - nondimensional_link_energy * Elem.powi (1.0 - Elem.exp ((-nondimensional_morse_parameter) * (nondimensional_link_stretch - 1.0))) 2 + Elem.ln nondimensional_link_stretch - Elem.ln nondimensional_force; let exponent_2 : α := exponent_1 - 2.0 * nondimensional_force * nondimensional_link_stretch; Elem.exp exponent_1 - Elem.exp exponent_2)
  let rescaled_partition_function : α := Polymers.math.integrate_1d rescaled_partition_function_integrand (Polymers.ZERO : α) nondimensional_link_stretch_max Polymers.POINTS
  let nondimensional_end_to_end_length_per_link_integrand : α → α := fun (nondimensional_link_stretch : α) => (let exponent_1 : α := nondimensional_force * nondimensional_link_stretch - nondimensional_link_energy * Elem.powi (1.0 - Elem.exp ((-nondimensional_morse_parameter) * (nondimensional_link_stretch - 1.0))) 2 + 2.0 * Elem.ln nondimensional_link_stretch - Elem.ln nondimensional_force; let exponent_2 : α := exponent_1 - 2.0 * nondimensional_force * nondimensional_link_stretch; let exponent_3 : α := exponent_1 - Elem.ln nondimensional_link_stretch - Elem.ln nondimensional_force; let exponent_4 : α := exponent_3 - 2.0 * nondimensional_force * nondimensional_link_stretch; (Elem.exp exponent_1 + Elem.exp exponent_2 - Elem.exp exponent_3 + Elem.exp exponent_4) / rescaled_partition_function)
  let nondimensional_end_to_end_length_per_link : α := Polymers.math.integrate_1d nondimensional_end_to_end_length_per_link_integrand (Polymers.ZERO : α) nondimensional_link_stretch_max Polymers.POINTS
  (-Elem.ln rescaled_partition_function) - Elem.ln (8.0 * Elem.powi (Elem.pi : α) 2 * hinge_mass * Elem.powi link_length 2 * (Polymers.BOLTZMANN_CONSTANT : α) * temperature / Elem.powi (Polymers.PLANCK_CONSTANT : α) 2) + nondimensional_force * nondimensional_end_to_end_length_per_link

/-- `src/physics/single_chain/ufjc/morse/thermodynamics/isotensional/legendre/mod.rs` lines 66-69. -/
def nondimensional_helmholtz_free_energy (number_of_links : Nat) (link_length : α) (hinge_mass : α) (nondimensional_link_stiffness : α) (nondimensional_link_energy : α) (nondimensional_force : α) (temperature : α) : α :=
  (number_of_links : α) * Polymers.ufjc.morse.thermodynamics.isotensional.legendre.nondimensional_helmholtz_free_energy_per_link link_length hinge_mass nondimensional_link_stiffness nondimensional_link_energy nondimensional_force temperature

/-- `src/physics/single_chain/ufjc/morse/thermodynamics/isotensional/legendre/mod.rs` lines 42-45. -/
def helmholtz_free_energy (number_of_links : Nat) (link_length : α) (hinge_mass : α) (link_stiffness : α) (link_energy : α) (force : α) (temperature : α) : α :=
  (Polymers.BOLTZMANN_CONSTANT : α) * temperature * Polymers.ufjc.morse.thermodynamics.isotensional.legendre.nondimensional_helmholtz_free_energy number_of_links link_length hinge_mass (link_stiffness * Elem.powi link_length 2 / (Polymers.BOLTZMANN_CONSTANT : α) / temperature) (link_energy / (Polymers.BOLTZMANN_CONSTANT : α) / temperature) (force / (Polymers.BOLTZMANN_CONSTANT : α) / temperature * link_length) temperature

/-- `src/physics/single_chain/ufjc/morse/thermodynamics/isotensional/legendre/mod.rs` lines 48-51. -/
def helmholtz_free_energy_per_link (link_length : α) (hinge_mass : α) (link_stiffness : α) (link_energy : α) (force : α) (temperature : α) : α :=
  (Polymers.BOLTZMANN_CONSTANT : α) * temperature * Polymers.ufjc.morse.thermodynamics.isotensional.legendre.nondimensional_helmholtz_free_energy_per_link link_length hinge_mass (link_stiffness * Elem.powi link_length 2 / (Polymers.BOLTZMANN_CONSTANT : α) / temperature) (link_energy / (Polymers.BOLTZMANN_CONSTANT : α) / temperature) (force / (Polymers.BOLTZMANN_CONSTANT : α) / temperature * link_length) temperature

/-- `src/physics/single_chain/ufjc/morse/thermodynamics/isotensional/legendre/mod.rs` lines 54-57. -/
def relative_helmholtz_free_energy (number_of_links : Nat) (link_length : α) (link_stiffness : α) (link_energy : α) (force : α) (temperature : α) : α :=
  Polymers.ufjc.morse.thermodynamics.isotensional.legendre.helmholtz_free_energy number_of_links link_length 1.0 link_stiffness link_energy force temperature - Polymers.ufjc.morse.thermodynamics.isotensional.legendre.helmholtz_free_energy number_of_links link_length 1.0 link_stiffness link_energy ((Polymers.ZERO : α) * (Polymers.BOLTZMANN_CONSTANT : α) * temperature / link_length) temperature

/-- `src/physics/single_chain/ufjc/morse/thermodynamics/isotensional/legendre/mod.rs` lines 60-63. -/
def relative_helmholtz_free_energy_per_link (link_length : α) (link_stiffness : α) (link_energy : α) (force : α) (temperature : α) : α :=
  Polymers.ufjc.morse.thermodynamics.isotensional.legendre.helmholtz_free_energy_per_link link_length 1.0 link_stiffness link_energy force temperature - Polymers.ufjc.morse.thermodynamics.isotensional.legendre.helmholtz_free_energy_per_link link_length 1.0 link_stiffness link_energy ((Polymers.ZERO : α) * (Polymers.BOLTZMANN_CONSTANT : α) * temperature / link_length) temperature

/-- `src/physics/single_chain/ufjc/morse/thermodynamics/isotensional/legendre/mod.rs` lines 96-99. -/
def nondimensional_relative_helmholtz_free_energy (number_of_links : Nat) (nondimensional_link_stiffness : α) (nondimensional_link_energy : α) (nondimensional_force : α) : α :=
  Polymers.ufjc.morse.thermodynamics.isotensional.legendre.nondimensional_helmholtz_free_energy number_of_links 1.0 1.0 nondimensional_link_stiffness nondimensional_link_energy nondimensional_force 300.0 - Polymers.ufjc.morse.thermodynamics.isotensional.legendre.nondimensional_helmholtz_free_energy number_of_links 1.0 1.0 nondimensional_link_stiffness nondimensional_link_energy (Polymers.ZERO : α) 300.0

/-- `src/physics/single_chain/ufjc/morse/thermodynamics/isotensional/legendre/mod.rs` lines 102-105. -/
def nondimensional_relative_helmholtz_free_energy_per_link (nondimensional_link_stiffness : α) (nondimensional_link_energy : α) (nondimensional_force : α) : α :=
  Polymers.ufjc.morse.thermodynamics.isotensional.legendre.nondimensional_helmholtz_free_energy_per_link 1.0 1.0 nondimensional_link_stiffness nondimensional_link_energy nondimensional_force 300.0 - Polymers.ufjc.morse.thermodynamics.isotensional.legendre.nondimensional_helmholtz_free_energy_per_link 1.0 1.0 nondimensional_link_stiffness nondimensional_link_energy (Polymers.ZERO : α) 300.0

/-- `src/physics/single_chain/ufjc/morse/thermodynamics/isotensional/legendre/mod.rs` lines 111-121. -/
def MORSEFJC.init (number_of_links : Nat) (link_length : α) (hinge_mass : α) (link_stiffness : α) (link_energy : α) : Polymers.ufjc.morse.thermodynamics.isotensional.legendre.MORSEFJC α :=
  { hinge_mass := hinge_mass, link_length := link_length, number_of_links := number_of_links, link_stiffness := link_stiffness, link_energy := link_energy }

/-- `src/physics/single_chain/ufjc/morse/thermodynamics/isotensional/legendre/mod.rs` lines 123-126. -/
def MORSEFJC.helmholtz_free_energy (self : Polymers.ufjc.morse.thermodynamics.isotensional.legendre.MORSEFJC α) (force : α) (temperature : α) : α :=
  Polymers.ufjc.morse.thermodynamics.isotensional.legendre.helmholtz_free_energy self.number_of_links self.link_length self.hinge_mass self.link_stiffness self.link_energy force temperature

/-- `src/physics/single_chain/ufjc/morse/thermodynamics/isotensional/legendre/mod.rs` lines 128-131. -/
def MORSEFJC.helmholtz_free_energy_per_link (self : Polymers.ufjc.morse.thermodynamics.isotensional.legendre.MORSEFJC α) (force : α) (temperature : α) : α :=
  Polymers.ufjc.morse.thermodynamics.isotensional.legendre.helmholtz_free_energy_per_link self.link_length self.hinge_mass self.link_stiffness self.link_energy force temperature

/-- `src/physics/single_chain/ufjc/morse/thermodynamics/isotensional/legendre/mod.rs` lines 133-136. -/
def MORSEFJC.relative_helmholtz_free_energy (self : Polymers.ufjc.morse.thermodynamics.isotensional.legendre.MORSEFJC α) (force : α) (temperature : α) : α :=
  Polymers.ufjc.morse.thermodynamics.isotensional.legendre.relative_helmholtz_free_energy self.number_of_links self.link_length self.link_stiffness self.link_energy force temperature

/-- `src/physics/single_chain/ufjc/morse/thermodynamics/isotensional/legendre/mod.rs` lines 138-141. -/
def MORSEFJC.relative_helmholtz_free_energy_per_link (self : Polymers.ufjc.morse.thermodynamics.isotensional.legendre.MORSEFJC α) (force : α) (temperature : α) : α :=
  Polymers.ufjc.morse.thermodynamics.isotensional.legendre.relative_helmholtz_free_energy_per_link self.link_length self.link_stiffness self.link_energy force temperature

/-- `src/physics/single_chain/ufjc/morse/thermodynamics/isotensional/legendre/mod.rs` lines 143-146. -/
def MORSEFJC.nondimensional_helmholtz_free_energy (self : Polymers.ufjc.morse.thermodynamics.isotensional.legendre.MORSEFJC α) (nondimensional_force : α) (temperature : α) : α :=
  Polymers.ufjc.morse.thermodynamics.isotensional.legendre.nondimensional_helmholtz_free_energy self.number_of_links self.link_length self.hinge_mass (self.link_stiffness * Elem.powi self.link_length 2 / (Polymers.BOLTZMANN_CONSTANT : α) / temperature) (self.link_energy / (Polymers.BOLTZMANN_CONSTANT : α) / temperature) nondimensional_force temperature

/-- `src/physics/single_chain/ufjc/morse/thermodynamics/isotensional/legendre/mod.rs` lines 148-151. -/
def MORSEFJC.nondimensional_helmholtz_free_energy_per_link (self : Polymers.ufjc.morse.thermodynamics.isotensional.legendre.MORSEFJC α) (nondimensional_force : α) (temperature : α) : α :=
  Polymers.ufjc.morse.thermodynamics.isotensional.legendre.nondimensional_helmholtz_free_energy_per_link self.link_length self.hinge_mass (self.link_stiffness * Elem.powi self.link_length 2 / (Polymers.BOLTZMANN_CONSTANT : α) / temperature) (self.link_energy / (Polymers.BOLTZMANN_CONSTANT : α) / temperature) nondimensional_force temperature

/-- `src/physics/single_chain/ufjc/morse/thermodynamics/isotensional/legendre/mod.rs` lines 153-156. -/
def MORSEFJC.nondimensional_relative_helmholtz_free_energy (self : Polymers.ufjc.morse.thermodynamics.isotensional.legendre.MORSEFJC α) (nondimensional_force : α) (temperature : α) : α :=
  Polymers.ufjc.morse.thermodynamics.isotensional.legendre.nondimensional_relative_helmholtz_free_energy self.number_of_links (self.link_stiffness * Elem.powi self.link_length 2 / (Polymers.BOLTZMANN_CONSTANT : α) / temperature) (self.link_energy / (Polymers.BOLTZMANN_CONSTANT : α) / temperature) nondimensional_force

/-- `src/physics/single_chain/ufjc/morse/thermodynamics/isotensional/legendre/mod.rs` lines 158-161. -/
def MORSEFJC.nondimensional_relative_helmholtz_free_energy_per_link (self : Polymers.ufjc.morse.thermodynamics.isotensional.legendre.MORSEFJC α) (nondimensional_force : α) (temperature : α) : α :=
  Polymers.ufjc.morse.thermodynamics.isotensional.legendre.nondimensional_relative_helmholtz_free_energy_per_link (self.link_stiffness * Elem.powi self.link_length 2 / (Polymers.BOLTZMANN_CONSTANT : α) / temperature) (self.link_energy / (Polymers.BOLTZMANN_CONSTANT : α) / temperature) nondimensional_force

end Polymers.ufjc.morse.thermodynamics.isotensional.legendre

namespace Polymers.ufjc.morse.thermodynamics.isometric

/-- `src/physics/single_chain/ufjc/morse/thermodynamics/isometric/mod.rs` lines 10-29: struct `MORSEFJC`. -/
structure MORSEFJC (α : Type) where
  /-- field `hinge_mass` -/
  hinge_mass : α
  /-- field `link_length` -/
  link_length : α
  /-- field `number_of_links` -/
  number_of_links : Nat
  /-- field `link_stiffness` -/
  link_stiffness : α
  /-- field `link_energy` -/
  link_energy : α
  /-- field `asymptotic` -/
  asymptotic : Polymers.ufjc.morse.thermodynamics.isometric.asymptotic.MORSEFJC α

/-- `src/physics/single_chain/ufjc/morse/thermodynamics/isometric/mod.rs` lines 35-46. -/
def MORSEFJC.init (number_of_links : Nat) (link_length : α) (hinge_mass : α) (link_stiffness : α) (link_energy : α) : Polymers.ufjc.morse.thermodynamics.isometric.MORSEFJC α :=
  { hinge_mass := hinge_mass, link_length := link_length, number_of_links := number_of_links, link_stiffness := link_stiffness, link_energy := link_energy, asymptotic := Polymers.ufjc.morse.thermodynamics.isometric.asymptotic.MORSEFJC.init number_of_links link_length hinge_mass link_stiffness link_energy }

end Polymers.ufjc.morse.thermodynamics.isometric

namespace Polymers.ufjc.morse.thermodynamics.isotensional

/-- `src/physics/single_chain/ufjc/morse/thermodynamics/isotensional/mod.rs` lines 29-51: struct `MORSEFJC`. -/
structure MORSEFJC (α : Type) where
  /-- field `hinge_mass` -/
  hinge_mass : α
  /-- field `link_length` -/
  link_length : α
  /-- field `number_of_links` -/
  number_of_links : Nat
  /-- field `link_stiffness` -/
  link_stiffness : α
  /-- field `link_energy` -/
  link_energy : α
  /-- field `asymptotic` -/
  asymptotic : Polymers.ufjc.morse.thermodynamics.isotensional.asymptotic.MORSEFJC α
  /-- field `legendre` -/
  legendre : Polymers.ufjc.morse.thermodynamics.isotensional.legendre.MORSEFJC α

/-- `src/physics/single_chain/ufjc/morse/thermodynamics/isotensional/mod.rs` lines 72-92. -/
def nondimensional_end_to_end_length_per_link (nondimensional_link_stiffness : α) (nondimensional_link_energy : α) (nondimensional_force : α) : α :=
  let nondimensional_morse_parameter : α := Elem.sqrt (nondimensional_link_stiffness / nondimensional_link_energy / 2.0)
  let nondimensional_link_stretch_max : α := 1.0 + Elem.ln 2.0 / nondimensional_morse_parameter
  let rescaled_partition_function_integrand : α → α := fun (nondimensional_link_stretch : α) => (let exponent_1 : α := nondimensional_force * nondimensional_link_stretch - nondimensional_link_energy * Elem.powi (1.0 - Elem.exp ((-nondimensional_morse_parameter) * (nondimensional_link_stretch - 1.0))) 2 + Elem.ln nondimensional_link_stretch - Elem.ln nondimensional_force; let exponent_2 : α := exponent_1 - 2.0 * nondimensional_force * nondimensional_link_stretch; Elem.exp exponent_1 - Elem.exp exponent_2)
  let rescaled_partition_function : α := Polymers.math.integrate_1d rescaled_partition_function_integrand (Polymers.ZERO : α) nondimensional_link_stretch_max Polymers.POINTS
  let nondimensional_end_to_end_length_per_link_integrand : α → α := fun (nondimensional_link_stretch : α) => (let exponent_1 : α := nondimensional_force * nondimensional_link_stretch - nondimensional_link_energy * Elem.powi (1.0 - Elem.exp ((-nondimensional_morse_parameter) * (nondimensional_link_stretch - 1.0))) 2 + 2.0 * Elem.ln nondimensional_link_stretch - Elem.ln nondimensional_force; let exponent_2 : α := exponent_1 - 2.0 * nondimensional_force * nondimensional_link_stretch; let exponent_3 : α := exponent_1 - Elem.ln nondimensional_link_stretch - Elem.ln nondimensional_force; let exponent_4 : α := exponent_3 - 2.0 * nondimensional_force * nondimensional_link_stretch; (Elem.exp exponent_1 + Elem.exp exponent_2 - Elem.exp exponent_3 + Elem.exp exponent_4) / rescaled_partition_function)
  Polymers.math.integrate_1d nondimensional_end_to_end_length_per_link_integrand (Polymers.ZERO : α) nondimensional_link_stretch_max Polymers.POINTS

/-- `src/physics/single_chain/ufjc/morse/thermodynamics/isotensional/mod.rs` lines 66-69. -/
def nondimensional_end_to_end_length (number_of_links : Nat) (nondimensional_link_stiffness : α) (nondimensional_link_energy : α) (nondimensional_force : α) : α :=
  (number_of_links : α) * Polymers.ufjc.morse.thermodynamics.isotensional.nondimensional_end_to_end_length_per_link nondimensional_link_stiffness nondimensional_link_energy nondimensional_force

/-- `src/physics/single_chain/ufjc/morse/thermodynamics/isotensional/mod.rs` lines 54-57. -/
def end_to_end_length (number_of_links : Nat) (link_length : α) (link_stiffness : α) (link_energy : α) (force : α) (temperature : α) : α :=
  link_length * Polymers.ufjc.morse.thermodynamics.isotensional.nondimensional_end_to_end_length number_of_links (link_stiffness * Elem.powi link_length 2 / (Polymers.BOLTZMANN_CONSTANT : α) / temperature) (link_energy / (Polymers.BOLTZMANN_CONSTANT : α) / temperature) (force * link_length / (Polymers.BOLTZMANN_CONSTANT : α) / temperature)

/-- `src/physics/single_chain/ufjc/morse/thermodynamics/isotensional/mod.rs` lines 60-63. -/
def end_to_end_length_per_link (link_length : α) (link_stiffness : α) (link_energy : α) (force : α) (temperature : α) : α :=
  link_length * Polymers.ufjc.morse.thermodynamics.isotensional.nondimensional_end_to_end_length_per_link (link_stiffness * Elem.powi link_length 2 / (Polymers.BOLTZMANN_CONSTANT : α) / temperature) (link_energy / (Polymers.BOLTZMANN_CONSTANT : α) / temperature) (force * link_length / (Polymers.BOLTZMANN_CONSTANT : α) / temperature)

/-- `src/physics/single_chain/ufjc/morse/thermodynamics/isotensional/mod.rs` lines 125-137. -/
def nondimensional_gibbs_free_energy_per_link (link_length : α) (hinge_mass : α) (nondimensional_link_stiffness : α) (nondimensional_link_energy : α) (nondimensional_force : α) (temperature : α) : α :=
  let nondimensional_morse_parameter : α := Elem.sqrt (nondimensional_link_stiffness / nondimensional_link_energy / 2.0)
  let nondimensional_link_stretch_max : α := 1.0 + Elem.ln 2.0 / nondimensional_morse_parameter
  let rescaled_partition_function_integrand : α → α := fun (nondimensional_link_stretch : α) => (let exponent_1 : α := nondimensional_force * nondimensional_link_stretch - nondimensional_link_energy * Elem.powi (1.0 - Elem.exp ((-nondimensional_morse_parameter) * (nondimensional_link_stretch - 1.0))) 2 + Elem.ln nondimensional_link_stretch - Elem.ln nondimensional_force; let exponent_2 : α := exponent_1 - 2.0 * nondimensional_force * nondimensional_link_stretch; Elem.exp exponent_1 - Elem.exp exponent_2)
  let rescaled_partition_function : α := Polymers.math.integrate_1d rescaled_partition_function_integrand (Polymers.ZERO : α) nondimensional_link_stretch_max Polymers.POINTS
  (-Elem.ln rescaled_partition_function) - Elem.ln (8.0 * Elem.powi (Elem.pi : α) 2 * hinge_mass * Elem.powi link_length 2 * (Polymers.BOLTZMANN_CONSTANT : α) * temperature / Elem.powi (Polymers.PLANCK_CONSTANT : α) 2)

/-- `src/physics/single_chain/ufjc/morse/thermodynamics/isotensional/mod.rs` lines 119-122. -/
def nondimensional_gibbs_free_energy (number_of_links : Nat) (link_length : α) (hinge_mass : α) (nondimensional_link_stiffness : α) (nondimensional_link_energy : α) (nondimensional_force : α) (temperature : α) : α :=
  (number_of_links : α) * Polymers.ufjc.morse.thermodynamics.isotensional.nondimensional_gibbs_free_energy_per_link link_length hinge_mass nondimensional_link_stiffness nondimensional_link_energy nondimensional_force temperature

/-- `src/physics/single_chain/ufjc/morse/thermodynamics/isotensional/mod.rs` lines 95-98. -/
def gibbs_free_energy (number_of_links : Nat) (link_length : α) (hinge_mass : α) (link_stiffness : α) (link_energy : α) (force : α) (temperature : α) : α :=
  (Polymers.BOLTZMANN_CONSTANT : α) * temperature * Polymers.ufjc.morse.thermodynamics.isotensional.nondimensional_gibbs_free_energy number_of_links link_length hinge_mass (link_stiffness * Elem.powi link_length 2 / (Polymers.BOLTZMANN_CONSTANT : α) / temperature) (link_energy / (Polymers.BOLTZMANN_CONSTANT : α) / temperature) (force * link_length / (Polymers.BOLTZMANN_CONSTANT : α) / temperature) temperature

/-- `src/physics/single_chain/ufjc/morse/thermodynamics/isotensional/mod.rs` lines 101-104. -/
def gibbs_free_energy_per_link (link_length : α) (hinge_mass : α) (link_stiffness : α) (link_energy : α) (force : α) (temperature : α) : α :=
  (Polymers.BOLTZMANN_CONSTANT : α) * temperature * Polymers.ufjc.morse.thermodynamics.isotensional.nondimensional_gibbs_free_energy_per_link link_length hinge_mass (link_stiffness * Elem.powi link_length 2 / (Polymers.BOLTZMANN_CONSTANT : α) / temperature) (link_energy / (Polymers.BOLTZMANN_CONSTANT : α) / temperature) (force * link_length / (Polymers.BOLTZMANN_CONSTANT : α) / temperature) temperature

/-- `src/physics/single_chain/ufjc/morse/thermodynamics/isotensional/mod.rs` lines 107-110. -/
def relative_gibbs_free_energy (number_of_links : Nat) (link_length : α) (link_stiffness : α) (link_energy : α) (force : α) (temperature : α) : α :=
  Polymers.ufjc.morse.thermodynamics.isotensional.gibbs_free_energy number_of_links link_length 1.0 link_stiffness link_energy force temperature - Polymers.ufjc.morse.thermodynamics.isotensional.gibbs_free_energy number_of_links link_length 1.0 link_stiffness link_energy ((Polymers.ZERO : α) * (Polymers.BOLTZMANN_CONSTANT : α) * temperature / link_length) temperature

/-- `src/physics/single_chain/ufjc/morse/thermodynamics/isotensional/mod.rs` lines 113-116. -/
def relative_gibbs_free_energy_per_link (link_length : α) (link_stiffness : α) (link_energy : α) (force : α) (temperature : α) : α :=
  Polymers.ufjc.morse.thermodynamics.isotensional.gibbs_free_energy_per_link link_length 1.0 link_stiffness link_energy force temperature - Polymers.ufjc.morse.thermodynamics.isotensional.gibbs_free_energy_per_link link_length 1.0 link_stiffness link_energy ((Polymers.ZERO : α) * (Polymers.BOLTZMANN_CONSTANT : α) * temperature / link_length) temperature

/-- `src/physics/single_chain/ufjc/morse/thermodynamics/isotensional/mod.rs` lines 140-143. -/
def nondimensional_relative_gibbs_free_energy (number_of_links : Nat) (nondimensional_link_stiffness : α) (nondimensional_link_energy : α) (nondimensional_force : α) : α :=
  Polymers.ufjc.morse.thermodynamics.isotensional.nondimensional_gibbs_free_energy number_of_links 1.0 1.0 nondimensional_link_stiffness nondimensional_link_energy nondimensional_force 300.0 - Polymers.ufjc.morse.thermodynamics.isotensional.nondimensional_gibbs_free_energy number_of_links 1.0 1.0 nondimensional_link_stiffness nondimensional_link_energy (Polymers.ZERO : α) 300.0

/-- `src/physics/single_chain/ufjc/morse/thermodynamics/isotensional/mod.rs` lines 146-149. -/
def nondimensional_relative_gibbs_free_energy_per_link (nondimensional_link_stiffness : α) (nondimensional_link_energy : α) (nondimensional_force : α) : α :=
  Polymers.ufjc.morse.thermodynamics.isotensional.nondimensional_gibbs_free_energy_per_link 1.0 1.0 nondimensional_link_stiffness nondimensional_link_energy nondimensional_force 300.0 - Polymers.ufjc.morse.thermodynamics.isotensional.nondimensional_gibbs_free_energy_per_link 1.0 1.0 nondimensional_link_stiffness nondimensional_link_energy (Polymers.ZERO : α) 300.0

/-- `src/physics/single_chain/ufjc/morse/thermodynamics/isotensional/mod.rs` lines 155-167. -/
def MORSEFJC.init (number_of_links : Nat) (link_length : α) (hinge_mass : α) (link_stiffness : α) (link_energy : α) : Polymers.ufjc.morse.thermodynamics.isotensional.MORSEFJC α :=
  { hinge_mass := hinge_mass, link_length := link_length, number_of_links := number_of_links, link_stiffness := link_stiffness, link_energy := link_energy, asymptotic := Polymers.ufjc.morse.thermodynamics.isotensional.asymptotic.MORSEFJC.init number_of_links link_length hinge_mass link_stiffness link_energy, legendre := Polymers.ufjc.morse.thermodynamics.isotensional.legendre.MORSEFJC.init number_of_links link_length hinge_mass link_stiffness link_energy }

/-- `src/physics/single_chain/ufjc/morse/thermodynamics/isotensional/mod.rs` lines 169-172. -/
def MORSEFJC.end_to_end_length (self : Polymers.ufjc.morse.thermodynamics.isotensional.MORSEFJC α) (force : α) (temperature : α) : α :=
  Polymers.ufjc.morse.thermodynamics.isotensional.end_to_end_length self.number_of_links self.link_length self.link_stiffness self.link_energy force temperature

/-- `src/physics/single_chain/ufjc/morse/thermodynamics/isotensional/mod.rs` lines 174-177. -/
def MORSEFJC.end_to_end_length_per_link (self : Polymers.ufjc.morse.thermodynamics.isotensional.MORSEFJC α) (force : α) (temperature : α) : α :=
  Polymers.ufjc.morse.thermodynamics.isotensional.end_to_end_length_per_link self.link_length self.link_stiffness self.link_energy force temperature

/-- `src/physics/single_chain/ufjc/morse/thermodynamics/isotensional/mod.rs` lines 179-182. -/
def MORSEFJC.nondimensional_end_to_end_length (self : Polymers.ufjc.morse.thermodynamics.isotensional.MORSEFJC α) (nondimensional_force : α) (temperature : α) : α :=
  Polymers.ufjc.morse.thermodynamics.isotensional.nondimensional_end_to_end_length self.number_of_links (self.link_stiffness * Elem.powi self.link_length 2 / (Polymers.BOLTZMANN_CONSTANT : α) / temperature) (self.link_energy / (Polymers.BOLTZMANN_CONSTANT : α) / temperature) nondimensional_force

/-- `src/physics/single_chain/ufjc/morse/thermodynamics/isotensional/mod.rs` lines 184-187. -/
def MORSEFJC.nondimensional_end_to_end_length_per_link (self : Polymers.ufjc.morse.thermodynamics.isotensional.MORSEFJC α) (nondimensional_force : α) (temperature : α) : α :=
  Polymers.ufjc.morse.thermodynamics.isotensional.nondimensional_end_to_end_length_per_link (self.link_stiffness * Elem.powi self.link_length 2 / (Polymers.BOLTZMANN_CONSTANT : α) / temperature) (self.link_energy / (Polymers.BOLTZMANN_CONSTANT : α) / temperature) nondimensional_force

/-- `src/physics/single_chain/ufjc/morse/thermodynamics/isotensional/mod.rs` lines 189-192. -/
def MORSEFJC.gibbs_free_energy (self : Polymers.ufjc.morse.thermodynamics.isotensional.MORSEFJC α) (force : α) (temperature : α) : α :=
  Polymers.ufjc.morse.thermodynamics.isotensional.gibbs_free_energy self.number_of_links self.link_length self.hinge_mass self.link_stiffness self.link_energy force temperature

/-- `src/physics/single_chain/ufjc/morse/thermodynamics/isotensional/mod.rs` lines 194-197. -/
def MORSEFJC.gibbs_free_energy_per_link (self : Polymers.ufjc.morse.thermodynamics.isotensional.MORSEFJC α) (force : α) (temperature : α) : α :=
  Polymers.ufjc.morse.thermodynamics.isotensional.gibbs_free_energy_per_link self.link_length self.hinge_mass self.link_stiffness self.link_energy force temperature

/-- `src/physics/single_chain/ufjc/morse/thermodynamics/isotensional/mod.rs` lines 199-202. -/
def MORSEFJC.relative_gibbs_free_energy (self : Polymers.ufjc.morse.thermodynamics.isotensional.MORSEFJC α) (force : α) (temperature : α) : α :=
  Polymers.ufjc.morse.thermodynamics.isotensional.relative_gibbs_free_energy self.number_of_links self.link_length self.link_stiffness self.link_energy force temperature

/-- `src/physics/single_chain/ufjc/morse/thermodynamics/isotensional/mod.rs` lines 204-207. -/
def MORSEFJC.relative_gibbs_free_energy_per_link (self : Polymers.ufjc.morse.thermodynamics.isotensional.MORSEFJC α) (force : α) (temperature : α) : α :=
  Polymers.ufjc.morse.thermodynamics.isotensional.relative_gibbs_free_energy_per_link self.link_length self.link_stiffness self.link_energy force temperature

/-- `src/physics/single_chain/ufjc/morse/thermodynamics/isotensional/mod.rs` lines 209-212. -/
def MORSEFJC.nondimensional_gibbs_free_energy (self : Polymers.ufjc.morse.thermodynamics.isotensional.MORSEFJC α) (nondimensional_force : α) (temperature : α) : α :=
  Polymers.ufjc.morse.thermodynamics.isotensional.nondimensional_gibbs_free_energy self.number_of_links self.link_length self.hinge_mass (self.link_stiffness * Elem.powi self.link_length 2 / (Polymers.BOLTZMANN_CONSTANT : α) / temperature) (self.link_energy / (Polymers.BOLTZMANN_CONSTANT : α) / temperature) nondimensional_force temperature

/-- `src/physics/single_chain/ufjc/morse/thermodynamics/isotensional/mod.rs` lines 214-217. -/
def MORSEFJC.nondimensional_gibbs_free_energy_per_link (self : Polymers.ufjc.morse.thermodynamics.isotensional.MORSEFJC α) (nondimensional_force : α) (temperature : α) : α :=
  Polymers.ufjc.morse.thermodynamics.isotensional.nondimensional_gibbs_free_energy_per_link self.link_length self.hinge_mass (self.link_stiffness * Elem.powi self.link_length 2 / (Polymers.BOLTZMANN_CONSTANT : α) / temperature) (self.link_energy / (Polymers.BOLTZMANN_CONSTANT : α) / temperature) nondimensional_force temperature

/-- `src/physics/single_chain/ufjc/morse/thermodynamics/isotensional/mod.rs` lines 219-222. -/
def MORSEFJC.nondimensional_relative_gibbs_free_energy (self : Polymers.ufjc.morse.thermodynamics.isotensional.MORSEFJC α) (nondimensional_force : α) (temperature : α) : α :=
  Polymers.ufjc.morse.thermodynamics.isotensional.nondimensional_relative_gibbs_free_energy self.number_of_links (self.link_stiffness * Elem.powi self.link_length 2 / (Polymers.BOLTZMANN_CONSTANT : α) / temperature) (self.link_energy / (Polymers.BOLTZMANN_CONSTANT : α) / temperature) nondimensional_force

/-- `src/physics/single_chain/ufjc/morse/thermodynamics/isotensional/mod.rs` lines 224-227. -/
def MORSEFJC.nondimensional_relative_gibbs_free_energy_per_link (self : Polymers.ufjc.morse.thermodynamics.isotensional.MORSEFJC α) (nondimensional_force : α) (temperature : α) : α :=
  Polymers.ufjc.morse.thermodynamics.isotensional.nondimensional_relative_gibbs_free_energy_per_link (self.link_stiffness * Elem.powi self.link_length 2 / (Polymers.BOLTZMANN_CONSTANT : α) / temperature) (self.link_energy / (Polymers.BOLTZMANN_CONSTANT : α) / temperature) nondimensional_force

end Polymers.ufjc.morse.thermodynamics.isotensional

namespace Polymers.ufjc.morse.thermodynamics

/-- `src/physics/single_chain/ufjc/morse/thermodynamics/mod.rs` lines 13-35: struct `MORSEFJC`. -/
structure MORSEFJC (α : Type) where
  /-- field `hinge_mass` -/
  hinge_mass : α
  /-- field `link_length` -/
  link_length : α
  /-- field `number_of_links` -/
  number_of_links : Nat
  /-- field `link_stiffness` -/
  link_stiffness : α
  /-- field `link_energy` -/
  link_energy : α
  /-- field `isometric` -/
  isometric : Polymers.ufjc.morse.thermodynamics.isometric.MORSEFJC α
  /-- field `isotensional` -/
  isotensional : Polymers.ufjc.morse.thermodynamics.isotensional.MORSEFJC α

/-- `src/physics/single_chain/ufjc/morse/thermodynamics/mod.rs` lines 41-53. -/
def MORSEFJC.init (number_of_links : Nat) (link_length : α) (hinge_mass : α) (link_stiffness : α) (link_energy : α) : Polymers.ufjc.morse.thermodynamics.MORSEFJC α :=
  { hinge_mass := hinge_mass, link_length := link_length, number_of_links := number_of_links, link_stiffness := link_stiffness, link_energy := link_energy, isometric := Polymers.ufjc.morse.thermodynamics.isometric.MORSEFJC.init number_of_links link_length hinge_mass link_stiffness link_energy, isotensional := Polymers.ufjc.morse.thermodynamics.isotensional.MORSEFJC.init number_of_links link_length hinge_mass link_stiffness link_energy }

end Polymers.ufjc.morse.thermodynamics

namespace Polymers.ufjc.morse

/-- `src/physics/single_chain/ufjc/morse/mod.rs` lines 10-29: struct `MORSEFJC`. -/
structure MORSEFJC (α : Type) where
  /-- field `hinge_mass` -/
  hinge_mass : α
  /-- field `link_length` -/
  link_length : α
  /-- field `number_of_links` -/
  number_of_links : Nat
  /-- field `link_stiffness` -/
  link_stiffness : α
  /-- field `link_energy` -/
  link_energy : α
  /-- field `thermodynamics` -/
  thermodynamics : Polymers.ufjc.morse.thermodynamics.MORSEFJC α

/-- `src/physics/single_chain/ufjc/morse/mod.rs` lines 35-46. -/
def MORSEFJC.init (number_of_links : Nat) (link_length : α) (hinge_mass : α) (link_stiffness : α) (link_energy : α) : Polymers.ufjc.morse.MORSEFJC α :=
  { hinge_mass := hinge_mass, link_length := link_length, number_of_links := number_of_links, link_stiffness := link_stiffness, link_energy := link_energy, thermodynamics := Polymers.ufjc.morse.thermodynamics.MORSEFJC.init number_of_links link_length hinge_mass link_stiffness link_energy }

end Polymers.ufjc.morse
