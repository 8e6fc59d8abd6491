/- Generated by tools/rust2lean.py from /repo/src/physics/single_chain/ufjc/log_squared ; do not edit by hand. -/
import Verif.Model.Math

set_option linter.unusedVariables false

open Polymers

variable {α : Type} [Add α] [Sub α] [Mul α] [Div α] [Neg α] [OfScientific α] [NatCast α] [Elem α]

namespace Polymers.ufjc.log_squared.thermodynamics.isometric.asymptotic.reduced.legendre

/-- `src/physics/single_chain/ufjc/log_squared/thermodynamics/isometric/asymptotic/reduced/legendre/mod.rs` lines 24-37: struct `LOGSQUAREDFJC`. -/
structure LOGSQUAREDFJC (α : Type) where
  /-- field `hinge_mass` -/
  hinge_mass : α
  /-- field `link_length` -/
  link_length : α
  /-- field `number_of_links` -/
  number_of_links : Nat
  /-- field `link_stiffness` -/
  link_stiffness : α

/-- `src/physics/single_chain/ufjc/log_squared/thermodynamics/isometric/asymptotic/reduced/legendre/mod.rs` lines 46-62. -/
def nondimensional_force (nondimensional_link_stiffness : α) (nondimensional_end_to_end_length_per_link : α) : α :=
  let nondimensional_force_max : α := nondimensional_link_stiffness / Elem.exp 1.0
  let guess : α := if Elem.lt nondimensional_end_to_end_length_per_link 1.0 then (Polymers.math.inverse_langevin nondimensional_end_to_end_length_per_link) else (0.95 * nondimensional_force_max)
  let guess : α := if Elem.lt nondimensional_force_max guess then 0.95 * nondimensional_force_max else guess
  Polymers.math.inverse_newton_raphson_powered nondimensional_end_to_end_length_per_link (fun (nondimensional_force : α) => 1.0 / Elem.tanh nondimensional_force - 1.0 / nondimensional_force + 1.0 / Elem.exp (Polymers.math.lambert_w ((-nondimensional_force) / nondimensional_link_stiffness)) - 1.0) (fun (nondimensional_force : α) => 1.0 / Elem.powi nondimensional_force 2 - 1.0 / Elem.powi (Elem.sinh nondimensional_force) 2 + nondimensional_link_stiffness / Elem.powi nondimensional_force 2 * Elem.powi (Polymers.math.lambert_w ((-nondimensional_force) / nondimensional_link_stiffness)) 2 / (Polymers.math.lambert_w ((-nondimensional_force) / nondimensional_link_stiffness) + 1.0)) guess 1e-6 100 4

/-- `src/physics/single_chain/ufjc/log_squared/thermodynamics/isometric/asymptotic/reduced/legendre/mod.rs` lines 40-43. -/
def force (number_of_links : Nat) (link_length : α) (link_stiffness : α) (end_to_end_length : α) (temperature : α) : α :=
  (Polymers.BOLTZMANN_CONSTANT : α) * temperature / link_length * Polymers.ufjc.log_squared.thermodynamics.isometric.asymptotic.reduced.legendre.nondimensional_force (link_stiffness * Elem.powi link_length 2 / (Polymers.BOLTZMANN_CONSTANT : α) / temperature) (end_to_end_length / ((number_of_links : α) * link_length))

/-- `src/physics/single_chain/ufjc/log_squared/thermodynamics/isometric/asymptotic/reduced/legendre/mod.rs` lines 95-100. -/
def nondimensional_helmholtz_free_energy_per_link (number_of_links : Nat) (link_length : α) (hinge_mass : α) (nondimensional_link_stiffness : α) (nondimensional_end_to_end_length_per_link : α) (temperature : α) : α :=
  let nondimensional_force : α := Polymers.ufjc.log_squared.thermodynamics.isometric.asymptotic.reduced.legendre.nondimensional_force nondimensional_link_stiffness nondimensional_end_to_end_length_per_link
  let lambda : α := 1.0 / Elem.exp (Polymers.math.lambert_w ((-nondimensional_force) / nondimensional_link_stiffness))
  (-Elem.ln (Elem.sinh nondimensional_force / nondimensional_force)) + 0.5 * nondimensional_link_stiffness * Elem.powi (Elem.ln lambda) 2 - nondimensional_force * (lambda - 1.0) + nondimensional_force * nondimensional_end_to_end_length_per_link - (1.0 - 1.0 / (number_of_links : α)) * (0.5 * Elem.ln (2.0 * (Elem.pi : α) * Elem.powi link_length 2 / nondimensional_link_stiffness) + Elem.ln (8.0 * Elem.powi (Elem.pi : α) 2 * hinge_mass * Elem.powi link_length 2 * (Polymers.BOLTZMANN_CONSTANT : α) * temperature / Elem.powi (Polymers.PLANCK_CONSTANT : α) 2))

/-- `src/physics/single_chain/ufjc/log_squared/thermodynamics/isometric/asymptotic/reduced/legendre/mod.rs` lines 89-92. -/
def nondimensional_helmholtz_free_energy (number_of_links : Nat) (link_length : α) (hinge_mass : α) (nondimensional_link_stiffness : α) (nondimensional_end_to_end_length_per_link : α) (temperature : α) : α :=
  (number_of_links : α) * Polymers.ufjc.log_squared.thermodynamics.isometric.asymptotic.reduced.legendre.nondimensional_helmholtz_free_energy_per_link number_of_links link_length hinge_mass nondimensional_link_stiffness nondimensional_end_to_end_length_per_link temperature

/-- `src/physics/single_chain/ufjc/log_squared/thermodynamics/isometric/asymptotic/reduced/legendre/mod.rs` lines 65-68. -/
def helmholtz_free_energy (number_of_links : Nat) (link_length : α) (hinge_mass : α) (link_stiffness : α) (end_to_end_length : α) (temperature : α) : α :=
  (Polymers.BOLTZMANN_CONSTANT : α) * temperature * Polymers.ufjc.log_squared.thermodynamics.isometric.asymptotic.reduced.legendre.nondimensional_helmholtz_free_energy number_of_links link_length hinge_mass (link_stiffness * Elem.powi link_length 2 / (Polymers.BOLTZMANN_CONSTANT : α) / temperature) (end_to_end_length / (number_of_links : α) / link_length) temperature

/-- `src/physics/single_chain/ufjc/log_squared/thermodynamics/isometric/asymptotic/reduced/legendre/mod.rs` lines 71-74. -/
def helmholtz_free_energy_per_link (number_of_links : Nat) (link_length : α) (hinge_mass : α) (link_stiffness : α) (end_to_end_length : α) (temperature : α) : α :=
  (Polymers.BOLTZMANN_CONSTANT : α) * temperature * Polymers.ufjc.log_squared.thermodynamics.isometric.asymptotic.reduced.legendre.nondimensional_helmholtz_free_energy_per_link number_of_links link_length hinge_mass (link_stiffness * Elem.powi link_length 2 / (Polymers.BOLTZMANN_CONSTANT : α) / temperature) (end_to_end_length / (number_of_links : α) / link_length) temperature

/-- `src/physics/single_chain/ufjc/log_squared/thermodynamics/isometric/asymptotic/reduced/legendre/mod.rs` lines 77-80. -/
def relative_helmholtz_free_energy (number_of_links : Nat) (link_length : α) (link_stiffness : α) (end_to_end_length : α) (temperature : α) : α :=
  Polymers.ufjc.log_squared.thermodynamics.isometric.asymptotic.reduced.legendre.helmholtz_free_energy number_of_links link_length 1.0 link_stiffness end_to_end_length temperature - Polymers.ufjc.log_squared.thermodynamics.isometric.asymptotic.reduced.legendre.helmholtz_free_energy number_of_links link_length 1.0 link_stiffness ((Polymers.ZERO : α) * (number_of_links : α) * link_length) temperature

/-- `src/physics/single_chain/ufjc/log_squared/thermodynamics/isometric/asymptotic/reduced/legendre/mod.rs` lines 83-86. -/
def relative_helmholtz_free_energy_per_link (number_of_links : Nat) (link_length : α) (link_stiffness : α) (end_to_end_length : α) (temperature : α) : α :=
  Polymers.ufjc.log_squared.thermodynamics.isometric.asymptotic.reduced.legendre.helmholtz_free_energy_per_link number_of_links link_length 1.0 link_stiffness end_to_end_length temperature - Polymers.ufjc.log_squared.thermodynamics.isometric.asymptotic.reduced.legendre.helmholtz_free_energy_per_link number_of_links link_length 1.0 link_stiffness ((Polymers.ZERO : α) * (number_of_links : α) * link_length) temperature

/-- `src/physics/single_chain/ufjc/log_squared/thermodynamics/isometric/asymptotic/reduced/legendre/mod.rs` lines 103-106. -/
def nondimensional_relative_helmholtz_free_energy (number_of_links : Nat) (nondimensional_link_stiffness : α) (nondimensional_end_to_end_length_per_link : α) : α :=
  Polymers.ufjc.log_squared.thermodynamics.isometric.asymptotic.reduced.legendre.nondimensional_helmholtz_free_energy number_of_links 1.0 1.0 nondimensional_link_stiffness nondimensional_end_to_end_length_per_link 300.0 - Polymers.ufjc.log_squared.thermodynamics.isometric.asymptotic.reduced.legendre.nondimensional_helmholtz_free_energy number_of_links 1.0 1.0 nondimensional_link_stiffness (Polymers.ZERO : α) 300.0

/-- `src/physics/single_chain/ufjc/log_squared/thermodynamics/isometric/asymptotic/reduced/legendre/mod.rs` lines 109-112. -/
def nondimensional_relative_helmholtz_free_energy_per_link (nondimensional_link_stiffness : α) (nondimensional_end_to_end_length_per_link : α) : α :=
  Polymers.ufjc.log_squared.thermodynamics.isometric.asymptotic.reduced.legendre.nondimensional_helmholtz_free_energy_per_link 8 1.0 1.0 nondimensional_link_stiffness nondimensional_end_to_end_length_per_link 300.0 - Polymers.ufjc.log_squared.thermodynamics.isometric.asymptotic.reduced.legendre.nondimensional_helmholtz_free_energy_per_link 8 1.0 1.0 nondimensional_link_stiffness (Polymers.ZERO : α) 300.0

/-- `src/physics/single_chain/ufjc/log_squared/thermodynamics/isometric/asymptotic/reduced/legendre/mod.rs` lines 118-127. -/
def LOGSQUAREDFJC.init (number_of_links : Nat) (link_length : α) (hinge_mass : α) (link_stiffness : α) : Polymers.ufjc.log_squared.thermodynamics.isometric.asymptotic.reduced.legendre.LOGSQUAREDFJC α :=
  { hinge_mass := hinge_mass, link_length := link_length, number_of_links := number_of_links, link_stiffness := link_stiffness }

/-- `src/physics/single_chain/ufjc/log_squared/thermodynamics/isometric/asymptotic/reduced/legendre/mod.rs` lines 129-132. -/
def LOGSQUAREDFJC.force (self : Polymers.ufjc.log_squared.thermodynamics.isometric.asymptotic.reduced.legendre.LOGSQUAREDFJC α) (end_to_end_length : α) (temperature : α) : α :=
  Polymers.ufjc.log_squared.thermodynamics.isometric.asymptotic.reduced.legendre.force self.number_of_links self.link_length self.link_stiffness end_to_end_length temperature

/-- `src/physics/single_chain/ufjc/log_squared/thermodynamics/isometric/asymptotic/reduced/legendre/mod.rs` lines 134-137. -/
def LOGSQUAREDFJC.nondimensional_force (self : Polymers.ufjc.log_squared.thermodynamics.isometric.asymptotic.reduced.legendre.LOGSQUAREDFJC α) (nondimensional_end_to_end_length_per_link : α) (temperature : α) : α :=
  Polymers.ufjc.log_squared.thermodynamics.isometric.asymptotic.reduced.legendre.nondimensional_force (self.link_stiffness * Elem.powi self.link_length 2 / (Polymers.BOLTZMANN_CONSTANT : α) / temperature) nondimensional_end_to_end_length_per_link

/-- `src/physics/single_chain/ufjc/log_squared/thermodynamics/isometric/asymptotic/reduced/legendre/mod.rs` lines 139-142. -/
def LOGSQUAREDFJC.helmholtz_free_energy (self : Polymers.ufjc.log_squared.thermodynamics.isometric.asymptotic.reduced.legendre.LOGSQUAREDFJC α) (end_to_end_length : α) (temperature : α) : α :=
  Polymers.ufjc.log_squared.thermodynamics.isometric.asymptotic.reduced.legendre.helmholtz_free_energy self.number_of_links self.link_length self.hinge_mass self.link_stiffness end_to_end_length temperature

/-- `src/physics/single_chain/ufjc/log_squared/thermodynamics/isometric/asymptotic/reduced/legendre/mod.rs` lines 144-147. -/
def LOGSQUAREDFJC.helmholtz_free_energy_per_link (self : Polymers.ufjc.log_squared.thermodynamics.isometric.asymptotic.reduced.legendre.LOGSQUAREDFJC α) (end_to_end_length : α) (temperature : α) : α :=
  Polymers.ufjc.log_squared.thermodynamics.isometric.asymptotic.reduced.legendre.helmholtz_free_energy_per_link self.number_of_links self.link_length self.hinge_mass self.link_stiffness end_to_end_length temperature

/-- `src/physics/single_chain/ufjc/log_squared/thermodynamics/isometric/asymptotic/reduced/legendre/mod.rs` lines 149-152. -/
def LOGSQUAREDFJC.relative_helmholtz_free_energy (self : Polymers.ufjc.log_squared.thermodynamics.isometric.asymptotic.reduced.legendre.LOGSQUAREDFJC α) (end_to_end_length : α) (temperature : α) : α :=
  Polymers.ufjc.log_squared.thermodynamics.isometric.asymptotic.reduced.legendre.relative_helmholtz_free_energy self.number_of_links self.link_length self.link_stiffness end_to_end_length temperature

/-- `src/physics/single_chain/ufjc/log_squared/thermodynamics/isometric/asymptotic/reduced/legendre/mod.rs` lines 154-157. -/
def LOGSQUAREDFJC.relative_helmholtz_free_energy_per_link (self : Polymers.ufjc.log_squared.thermodynamics.isometric.asymptotic.reduced.legendre.LOGSQUAREDFJC α) (end_to_end_length : α) (temperature : α) : α :=
  Polymers.ufjc.log_squared.thermodynamics.isometric.asymptotic.reduced.legendre.relative_helmholtz_free_energy_per_link self.number_of_links self.link_length self.link_stiffness end_to_end_length temperature

/-- `src/physics/single_chain/ufjc/log_squared/thermodynamics/isometric/asymptotic/reduced/legendre/mod.rs` lines 159-162. -/
def LOGSQUAREDFJC.nondimensional_helmholtz_free_energy (self : Polymers.ufjc.log_squared.thermodynamics.isometric.asymptotic.reduced.legendre.LOGSQUAREDFJC α) (nondimensional_end_to_end_length_per_link : α) (temperature : α) : α :=
  Polymers.ufjc.log_squared.thermodynamics.isometric.asymptotic.reduced.legendre.nondimensional_helmholtz_free_energy self.number_of_links self.link_length self.hinge_mass (self.link_stiffness * Elem.powi self.link_length 2 / (Polymers.BOLTZMANN_CONSTANT : α) / temperature) nondimensional_end_to_end_length_per_link temperature

/-- `src/physics/single_chain/ufjc/log_squared/thermodynamics/isometric/asymptotic/reduced/legendre/mod.rs` lines 164-167. -/
def LOGSQUAREDFJC.nondimensional_helmholtz_free_energy_per_link (self : Polymers.ufjc.log_squared.thermodynamics.isometric.asymptotic.reduced.legendre.LOGSQUAREDFJC α) (nondimensional_end_to_end_length_per_link : α) (temperature : α) : α :=
  Polymers.ufjc.log_squared.thermodynamics.isometric.asymptotic.reduced.legendre.nondimensional_helmholtz_free_energy_per_link self.number_of_links self.link_length self.hinge_mass (self.link_stiffness * Elem.powi self.link_length 2 / (Polymers.BOLTZMANN_CONSTANT : α) / temperature) nondimensional_end_to_end_length_per_link temperature

/-- `src/physics/single_chain/ufjc/log_squared/thermodynamics/isometric/asymptotic/reduced/legendre/mod.rs` lines 169-172. -/
def LOGSQUAREDFJC.nondimensional_relative_helmholtz_free_energy (self : Polymers.ufjc.log_squared.thermodynamics.isometric.asymptotic.reduced.legendre.LOGSQUAREDFJC α) (nondimensional_end_to_end_length_per_link : α) (temperature : α) : α :=
  Polymers.ufjc.log_squared.thermodynamics.isometric.asymptotic.reduced.legendre.nondimensional_relative_helmholtz_free_energy self.number_of_links (self.link_stiffness * Elem.powi self.link_length 2 / (Polymers.BOLTZMANN_CONSTANT : α) / temperature) nondimensional_end_to_end_length_per_link

/-- `src/physics/single_chain/ufjc/log_squared/thermodynamics/isometric/asymptotic/reduced/legendre/mod.rs` lines 174-177. -/
def LOGSQUAREDFJC.nondimensional_relative_helmholtz_free_energy_per_link (self : Polymers.ufjc.log_squared.thermodynamics.isometric.asymptotic.reduced.legendre.LOGSQUAREDFJC α) (nondimensional_end_to_end_length_per_link : α) (temperature : α) : α :=
  Polymers.ufjc.log_squared.thermodynamics.isometric.asymptotic.reduced.legendre.nondimensional_relative_helmholtz_free_energy_per_link (self.link_stiffness * Elem.powi self.link_length 2 / (Polymers.BOLTZMANN_CONSTANT : α) / temperature) nondimensional_end_to_end_length_per_link

end Polymers.ufjc.log_squared.thermodynamics.isometric.asymptotic.reduced.legendre

namespace Polymers.ufjc.log_squared.thermodynamics.isotensional.asymptotic.reduced.legendre

/-- `src/physics/single_chain/ufjc/log_squared/thermodynamics/isotensional/asymptotic/reduced/legendre/mod.rs` lines 19-32: struct `LOGSQUAREDFJC`. -/
structure LOGSQUAREDFJC (α : Type) where
  /-- field `hinge_mass` -/
  hinge_mass : α
  /-- field `link_length` -/
  link_length : α
  /-- field `number_of_links` -/
  number_of_links : Nat
  /-- field `link_stiffness` -/
  link_stiffness : α

/-- `src/physics/single_chain/ufjc/log_squared/thermodynamics/isotensional/asymptotic/reduced/legendre/mod.rs` lines 65-68. -/
def nondimensional_helmholtz_free_energy_per_link (link_length : α) (hinge_mass : α) (nondimensional_link_stiffness : α) (nondimensional_force : α) (temperature : α) : α :=
  (-Elem.ln (Elem.sinh nondimensional_force / nondimensional_force)) + 0.5 * nondimensional_link_stiffness * Elem.powi (Elem.ln (1.0 / Elem.exp (Polymers.math.lambert_w ((-nondimensional_force) / nondimensional_link_stiffness)))) 2 - 0.5 * Elem.ln (2.0 * (Elem.pi : α) * Elem.powi link_length 2 / nondimensional_link_stiffness) - Elem.ln (8.0 * Elem.powi (Elem.pi : α) 2 * hinge_mass * Elem.powi link_length 2 * (Polymers.BOLTZMANN_CONSTANT : α) * temperature / Elem.powi (Polymers.PLANCK_CONSTANT : α) 2) + nondimensional_force / Elem.tanh nondimensional_force - 1.0

/-- `src/physics/single_chain/ufjc/log_squared/thermodynamics/isotensional/asymptotic/reduced/legendre/mod.rs` lines 59-62. -/
def nondimensional_helmholtz_free_energy (number_of_links : Nat) (link_length : α) (hinge_mass : α) (nondimensional_link_stiffness : α) (nondimensional_force : α) (temperature : α) : α :=
  (number_of_links : α) * Polymers.ufjc.log_squared.thermodynamics.isotensional.asymptotic.reduced.legendre.nondimensional_helmholtz_free_energy_per_link link_length hinge_mass nondimensional_link_stiffness nondimensional_force temperature

/-- `src/physics/single_chain/ufjc/log_squared/thermodynamics/isotensional/asymptotic/reduced/legendre/mod.rs` lines 35-38. -/
def helmholtz_free_energy (number_of_links : Nat) (link_length : α) (hinge_mass : α) (link_stiffness : α) (force : α) (temperature : α) : α :=
  (Polymers.BOLTZMANN_CONSTANT : α) * temperature * Polymers.ufjc.log_squared.thermodynamics.isotensional.asymptotic.reduced.legendre.nondimensional_helmholtz_free_energy number_of_links link_length hinge_mass (link_stiffness * Elem.powi link_length 2 / (Polymers.BOLTZMANN_CONSTANT : α) / temperature) (force / (Polymers.BOLTZMANN_CONSTANT : α) / temperature * link_length) temperature

/-- `src/physics/single_chain/ufjc/log_squared/thermodynamics/isotensional/asymptotic/reduced/legendre/mod.rs` lines 41-44. -/
def helmholtz_free_energy_per_link (link_length : α) (hinge_mass : α) (link_stiffness : α) (force : α) (temperature : α) : α :=
  (Polymers.BOLTZMANN_CONSTANT : α) * temperature * Polymers.ufjc.log_squared.thermodynamics.isotensional.asymptotic.reduced.legendre.nondimensional_helmholtz_free_energy_per_link link_length hinge_mass (link_stiffness * Elem.powi link_length 2 / (Polymers.BOLTZMANN_CONSTANT : α) / temperature) (force / (Polymers.BOLTZMANN_CONSTANT : α) / temperature * link_length) temperature

/-- `src/physics/single_chain/ufjc/log_squared/thermodynamics/isotensional/asymptotic/reduced/legendre/mod.rs` lines 47-50. -/
def relative_helmholtz_free_energy (number_of_links : Nat) (link_length : α) (link_stiffness : α) (force : α) (temperature : α) : α :=
  Polymers.ufjc.log_squared.thermodynamics.isotensional.asymptotic.reduced.legendre.helmholtz_free_energy number_of_links link_length 1.0 link_stiffness force temperature - Polymers.ufjc.log_squared.thermodynamics.isotensional.asymptotic.reduced.legendre.helmholtz_free_energy number_of_links link_length 1.0 link_stiffness ((Polymers.ZERO : α) * (Polymers.BOLTZMANN_CONSTANT : α) * temperature / link_length) temperature

/-- `src/physics/single_chain/ufjc/log_squared/thermodynamics/isotensional/asymptotic/reduced/legendre/mod.rs` lines 53-56. -/
def relative_helmholtz_free_energy_per_link (link_length : α) (link_stiffness : α) (force : α) (temperature : α) : α :=
  Polymers.ufjc.log_squared.thermodynamics.isotensional.asymptotic.reduced.legendre.helmholtz_free_energy_per_link link_length 1.0 link_stiffness force temperature - Polymers.ufjc.log_squared.thermodynamics.isotensional.asymptotic.reduced.legendre.helmholtz_free_energy_per_link link_length 1.0 link_stiffness ((Polymers.ZERO : α) * (Polymers.BOLTZMANN_CONSTANT : α) * temperature / link_length) temperature

/-- `src/physics/single_chain/ufjc/log_squared/thermodynamics/isotensional/asymptotic/reduced/legendre/mod.rs` lines 71-74. -/
def nondimensional_relative_helmholtz_free_energy (number_of_links : Nat) (nondimensional_link_stiffness : α) (nondimensional_force : α) : α :=
  Polymers.ufjc.log_squared.thermodynamics.isotensional.asymptotic.reduced.legendre.nondimensional_helmholtz_free_energy number_of_links 1.0 1.0 nondimensional_link_stiffness nondimensional_force 300.0 - Polymers.ufjc.log_squared.thermodynamics.isotensional.asymptotic.reduced.legendre.nondimensional_helmholtz_free_energy number_of_links 1.0 1.0 nondimensional_link_stiffness (Polymers.ZERO : α) 300.0

/-- `src/physics/single_chain/ufjc/log_squared/thermodynamics/isotensional/asymptotic/reduced/legendre/mod.rs` lines 77-80. -/
def nondimensional_relative_helmholtz_free_energy_per_link (nondimensional_link_stiffness : α) (nondimensional_force : α) : α :=
  Polymers.ufjc.log_squared.thermodynamics.isotensional.asymptotic.reduced.legendre.nondimensional_helmholtz_free_energy_per_link 1.0 1.0 nondimensional_link_stiffness nondimensional_force 300.0 - Polymers.ufjc.log_squared.thermodynamics.isotensional.asymptotic.reduced.legendre.nondimensional_helmholtz_free_energy_per_link 1.0 1.0 nondimensional_link_stiffness (Polymers.ZERO : α) 300.0

/-- `src/physics/single_chain/ufjc/log_squared/thermodynamics/isotensional/asymptotic/reduced/legendre/mod.rs` lines 86-95. -/
def LOGSQUAREDFJC.init (number_of_links : Nat) (link_length : α) (hinge_mass : α) (link_stiffness : α) : Polymers.ufjc.log_squared.thermodynamics.isotensional.asymptotic.reduced.legendre.LOGSQUAREDFJC α :=
  { hinge_mass := hinge_mass, link_length := link_length, number_of_links := number_of_links, link_stiffness := link_stiffness }

/-- `src/physics/single_chain/ufjc/log_squared/thermodynamics/isotensional/asymptotic/reduced/legendre/mod.rs` lines 97-100. -/
def LOGSQUAREDFJC.helmholtz_free_energy (self : Polymers.ufjc.log_squared.thermodynamics.isotensional.asymptotic.reduced.legendre.LOGSQUAREDFJC α) (force : α) (temperature : α) : α :=
  Polymers.ufjc.log_squared.thermodynamics.isotensional.asymptotic.reduced.legendre.helmholtz_free_energy self.number_of_links self.link_length self.hinge_mass self.link_stiffness force temperature

/-- `src/physics/single_chain/ufjc/log_squared/thermodynamics/isotensional/asymptotic/reduced/legendre/mod.rs` lines 102-105. -/
def LOGSQUAREDFJC.helmholtz_free_energy_per_link (self : Polymers.ufjc.log_squared.thermodynamics.isotensional.asymptotic.reduced.legendre.LOGSQUAREDFJC α) (force : α) (temperature : α) : α :=
  Polymers.ufjc.log_squared.thermodynamics.isotensional.asymptotic.reduced.legendre.helmholtz_free_energy_per_link self.link_length self.hinge_mass self.link_stiffness force temperature

/-- `src/physics/single_chain/ufjc/log_squared/thermodynamics/isotensional/asymptotic/reduced/legendre/mod.rs` lines 107-110. -/
def LOGSQUAREDFJC.relative_helmholtz_free_energy (self : Polymers.ufjc.log_squared.thermodynamics.isotensional.asymptotic.reduced.legendre.LOGSQUAREDFJC α) (force : α) (temperature : α) : α :=
  Polymers.ufjc.log_squared.thermodynamics.isotensional.asymptotic.reduced.legendre.relative_helmholtz_free_energy self.number_of_links self.link_length self.link_stiffness force temperature

/-- `src/physics/single_chain/ufjc/log_squared/thermodynamics/isotensional/asymptotic/reduced/legendre/mod.rs` lines 112-115. -/
def LOGSQUAREDFJC.relative_helmholtz_free_energy_per_link (self : Polymers.ufjc.log_squared.thermodynamics.isotensional.asymptotic.reduced.legendre.LOGSQUAREDFJC α) (force : α) (temperature : α) : α :=
  Polymers.ufjc.log_squared.thermodynamics.isotensional.asymptotic.reduced.legendre.relative_helmholtz_free_energy_per_link self.link_length self.link_stiffness force temperature

/-- `src/physics/single_chain/ufjc/log_squared/thermodynamics/isotensional/asymptotic/reduced/legendre/mod.rs` lines 117-120. -/
def LOGSQUAREDFJC.nondimensional_helmholtz_free_energy (self : Polymers.ufjc.log_squared.thermodynamics.isotensional.asymptotic.reduced.legendre.LOGSQUAREDFJC α) (nondimensional_force : α) (temperature : α) : α :=
  Polymers.ufjc.log_squared.thermodynamics.isotensional.asymptotic.reduced.legendre.nondimensional_helmholtz_free_energy self.number_of_links self.link_length self.hinge_mass (self.link_stiffness * Elem.powi self.link_length 2 / (Polymers.BOLTZMANN_CONSTANT : α) / temperature) nondimensional_force temperature

/-- `src/physics/single_chain/ufjc/log_squared/thermodynamics/isotensional/asymptotic/reduced/legendre/mod.rs` lines 122-125. -/
def LOGSQUAREDFJC.nondimensional_helmholtz_free_energy_per_link (self : Polymers.ufjc.log_squared.thermodynamics.isotensional.asymptotic.reduced.legendre.LOGSQUAREDFJC α) (nondimensional_force : α) (temperature : α) : α :=
  Polymers.ufjc.log_squared.thermodynamics.isotensional.asymptotic.reduced.legendre.nondimensional_helmholtz_free_energy_per_link self.link_length self.hinge_mass (self.link_stiffness * Elem.powi self.link_length 2 / (Polymers.BOLTZMANN_CONSTANT : α) / temperature) nondimensional_force temperature

/-- `src/physics/single_chain/ufjc/log_squared/thermodynamics/isotensional/asymptotic/reduced/legendre/mod.rs` lines 127-130. -/
def LOGSQUAREDFJC.nondimensional_relative_helmholtz_free_energy (self : Polymers.ufjc.log_squared.thermodynamics.isotensional.asymptotic.reduced.legendre.LOGSQUAREDFJC α) (nondimensional_force : α) (temperature : α) : α :=
  Polymers.ufjc.log_squared.thermodynamics.isotensional.asymptotic.reduced.legendre.nondimensional_relative_helmholtz_free_energy self.number_of_links (self.link_stiffness * Elem.powi self.link_length 2 / (Polymers.BOLTZMANN_CONSTANT : α) / temperature) nondimensional_force

/-- `src/physics/single_chain/ufjc/log_squared/thermodynamics/isotensional/asymptotic/reduced/legendre/mod.rs` lines 132-135. -/
def LOGSQUAREDFJC.nondimensional_relative_helmholtz_free_energy_per_link (self : Polymers.ufjc.log_squared.thermodynamics.isotensional.asymptotic.reduced.legendre.LOGSQUAREDFJC α) (nondimensional_force : α) (temperature : α) : α :=
  Polymers.ufjc.log_squared.thermodynamics.isotensional.asymptotic.reduced.legendre.nondimensional_relative_helmholtz_free_energy_per_link (self.link_stiffness * Elem.powi self.link_length 2 / (Polymers.BOLTZMANN_CONSTANT : α) / temperature) nondimensional_force

end Polymers.ufjc.log_squared.thermodynamics.isotensional.asymptotic.reduced.legendre

namespace Polymers.ufjc.log_squared.thermodynamics.isometric.asymptotic.legendre

/-- `src/physics/single_chain/ufjc/log_squared/thermodynamics/isometric/asymptotic/legendre/mod.rs` lines 24-37: struct `LOGSQUAREDFJC`. -/
structure LOGSQUAREDFJC (α : Type) where
  /-- field `hinge_mass` -/
  hinge_mass : α
  /-- field `link_length` -/
  link_length : α
  /-- field `number_of_links` -/
  number_of_links : Nat
  /-- field `link_stiffness` -/
  link_stiffness : α

/-- `src/physics/single_chain/ufjc/log_squared/thermodynamics/isometric/asymptotic/legendre/mod.rs` lines 46-63. -/
def nondimensional_force (nondimensional_link_stiffness : α) (nondimensional_end_to_end_length_per_link : α) : α :=
  let c : α := 0.4
  let nondimensional_force_max : α := nondimensional_link_stiffness / Elem.exp 1.0
  let guess : α := if Elem.lt nondimensional_end_to_end_length_per_link 1.0 then (Polymers.math.inverse_langevin nondimensional_end_to_end_length_per_link) else (0.95 * nondimensional_force_max)
  let guess : α := if Elem.lt nondimensional_force_max guess then 0.95 * nondimensional_force_max else guess
  Polymers.math.inverse_newton_raphson_powered nondimensional_end_to_end_length_per_link (fun (nondimensional_force : α) => 1.0 / Elem.tanh nondimensional_force - 1.0 / nondimensional_force + nondimensional_force / nondimensional_link_stiffness * ((Elem.tanh nondimensional_force - 1.0 / Elem.tanh nondimensional_force + 1.0 / nondimensional_force) / (0.4 * Elem.tanh nondimensional_force + nondimensional_force / nondimensional_link_stiffness)) + 1.0 / Elem.exp (Polymers.math.lambert_w ((-nondimensional_force) / nondimensional_link_stiffness)) - 1.0) (fun (nondimensional_force : α) => 1.0 / Elem.powi nondimensional_force 2 - 1.0 / Elem.powi (Elem.sinh nondimensional_force) 2 + ((2.0 * c * nondimensional_link_stiffness * nondimensional_force / Elem.tanh nondimensional_force - 2.0 * c * nondimensional_link_stiffness + 2.0 * Elem.powi nondimensional_force 2 - 1.0) / Elem.powi (Elem.sinh nondimensional_force) 2 + Elem.powi nondimensional_force 2 / Elem.powi (Elem.sinh nondimensional_force) 4 - 1.0) / Elem.powi (c * nondimensional_link_stiffness + nondimensional_force / Elem.tanh nondimensional_force) 2 + nondimensional_link_stiffness / Elem.powi nondimensional_force 2 * Elem.powi (Polymers.math.lambert_w ((-nondimensional_force) / nondimensional_link_stiffness)) 2 / (Polymers.math.lambert_w ((-nondimensional_force) / nondimensional_link_stiffness) + 1.0)) guess 1e-6 100 4

/-- `src/physics/single_chain/ufjc/log_squared/thermodynamics/isometric/asymptotic/legendre/mod.rs` lines 40-43. -/
def force (number_of_links : Nat) (link_length : α) (link_stiffness : α) (end_to_end_length : α) (temperature : α) : α :=
  (Polymers.BOLTZMANN_CONSTANT : α) * temperature / link_length * Polymers.ufjc.log_squared.thermodynamics.isometric.asymptotic.legendre.nondimensional_force (link_stiffness * Elem.powi link_length 2 / (Polymers.BOLTZMANN_CONSTANT : α) / temperature) (end_to_end_length / ((number_of_links : α) * link_length))

/-- `src/physics/single_chain/ufjc/log_squared/thermodynamics/isometric/asymptotic/legendre/mod.rs` lines 96-101. -/
def nondimensional_helmholtz_free_energy_per_link (number_of_links : Nat) (link_length : α) (hinge_mass : α) (nondimensional_link_stiffness : α) (nondimensional_end_to_end_length_per_link : α) (temperature : α) : α :=
  let nondimensional_force : α := Polymers.ufjc.log_squared.thermodynamics.isometric.asymptotic.legendre.nondimensional_force nondimensional_link_stiffness nondimensional_end_to_end_length_per_link
  let lambda : α := 1.0 / Elem.exp (Polymers.math.lambert_w ((-nondimensional_force) / nondimensional_link_stiffness))
  (-Elem.ln (Elem.sinh nondimensional_force / nondimensional_force)) - Elem.ln (1.0 + nondimensional_force / Elem.tanh nondimensional_force / nondimensional_link_stiffness / 0.4) + 0.5 * nondimensional_link_stiffness * Elem.powi (Elem.ln lambda) 2 - nondimensional_force * (lambda - 1.0) + nondimensional_force * nondimensional_end_to_end_length_per_link - (1.0 - 1.0 / (number_of_links : α)) * (0.5 * Elem.ln (2.0 * (Elem.pi : α) * Elem.powi link_length 2 / nondimensional_link_stiffness) + Elem.ln (8.0 * Elem.powi (Elem.pi : α) 2 * hinge_mass * Elem.powi link_length 2 * (Polymers.BOLTZMANN_CONSTANT : α) * temperature / Elem.powi (Polymers.PLANCK_CONSTANT : α) 2))

/-- `src/physics/single_chain/ufjc/log_squared/thermodynamics/isometric/asymptotic/legendre/mod.rs` lines 90-93. -/
def nondimensional_helmholtz_free_energy (number_of_links : Nat) (link_length : α) (hinge_mass : α) (nondimensional_link_stiffness : α) (nondimensional_end_to_end_length_per_link : α) (temperature : α) : α :=
  (number_of_links : α) * Polymers.ufjc.log_squared.thermodynamics.isometric.asymptotic.legendre.nondimensional_helmholtz_free_energy_per_link number_of_links link_length hinge_mass nondimensional_link_stiffness nondimensional_end_to_end_length_per_link temperature

/-- `src/physics/single_chain/ufjc/log_squared/thermodynamics/isometric/asymptotic/legendre/mod.rs` lines 66-69. -/
def helmholtz_free_energy (number_of_links : Nat) (link_length : α) (hinge_mass : α) (link_stiffness : α) (end_to_end_length : α) (temperature : α) : α :=
  (Polymers.BOLTZMANN_CONSTANT : α) * temperature * Polymers.ufjc.log_squared.thermodynamics.isometric.asymptotic.legendre.nondimensional_helmholtz_free_energy number_of_links link_length hinge_mass (link_stiffness * Elem.powi link_length 2 / (Polymers.BOLTZMANN_CONSTANT : α) / temperature) (end_to_end_length / (number_of_links : α) / link_length) temperature

/-- `src/physics/single_chain/ufjc/log_squared/thermodynamics/isometric/asymptotic/legendre/mod.rs` lines 72-75. -/
def helmholtz_free_energy_per_link (number_of_links : Nat) (link_length : α) (hinge_mass : α) (link_stiffness : α) (end_to_end_length : α) (temperature : α) : α :=
  (Polymers.BOLTZMANN_CONSTANT : α) * temperature * Polymers.ufjc.log_squared.thermodynamics.isometric.asymptotic.legendre.nondimensional_helmholtz_free_energy_per_link number_of_links link_length hinge_mass (link_stiffness * Elem.powi link_length 2 / (Polymers.BOLTZMANN_CONSTANT : α) / temperature) (end_to_end_length / (number_of_links : α) / link_length) temperature

/-- `src/physics/single_chain/ufjc/log_squared/thermodynamics/isometric/asymptotic/legendre/mod.rs` lines 78-81. -/
def relative_helmholtz_free_energy (number_of_links : Nat) (link_length : α) (link_stiffness : α) (end_to_end_length : α) (temperature : α) : α :=
  Polymers.ufjc.log_squared.thermodynamics.isometric.asymptotic.legendre.helmholtz_free_energy number_of_links link_length 1.0 link_stiffness end_to_end_length temperature - Polymers.ufjc.log_squared.thermodynamics.isometric.asymptotic.legendre.helmholtz_free_energy number_of_links link_length 1.0 link_stiffness ((Polymers.ZERO : α) * (number_of_links : α) * link_length) temperature

/-- `src/physics/single_chain/ufjc/log_squared/thermodynamics/isometric/asymptotic/legendre/mod.rs` lines 84-87. -/
def relative_helmholtz_free_energy_per_link (number_of_links : Nat) (link_length : α) (link_stiffness : α) (end_to_end_length : α) (temperature : α) : α :=
  Polymers.ufjc.log_squared.thermodynamics.isometric.asymptotic.legendre.helmholtz_free_energy_per_link number_of_links link_length 1.0 link_stiffness end_to_end_length temperature - Polymers.ufjc.log_squared.thermodynamics.isometric.asymptotic.legendre.helmholtz_free_energy_per_link number_of_links link_length 1.0 link_stiffness ((Polymers.ZERO : α) * (number_of_links : α) * link_length) temperature

/-- `src/physics/single_chain/ufjc/log_squared/thermodynamics/isometric/asymptotic/legendre/mod.rs` lines 104-107. -/
def nondimensional_relative_helmholtz_free_energy (number_of_links : Nat) (nondimensional_link_stiffness : α) (nondimensional_end_to_end_length_per_link : α) : α :=
  Polymers.ufjc.log_squared.thermodynamics.isometric.asymptotic.legendre.nondimensional_helmholtz_free_energy number_of_links 1.0 1.0 nondimensional_link_stiffness nondimensional_end_to_end_length_per_link 300.0 - Polymers.ufjc.log_squared.thermodynamics.isometric.asymptotic.legendre.nondimensional_helmholtz_free_energy number_of_links 1.0 1.0 nondimensional_link_stiffness (Polymers.ZERO : α) 300.0

/-- `src/physics/single_chain/ufjc/log_squared/thermodynamics/isometric/asymptotic/legendre/mod.rs` lines 110-113. -/
def nondimensional_relative_helmholtz_free_energy_per_link (nondimensional_link_stiffness : α) (nondimensional_end_to_end_length_per_link : α) : α :=
  Polymers.ufjc.log_squared.thermodynamics.isometric.asymptotic.legendre.nondimensional_helmholtz_free_energy_per_link 8 1.0 1.0 nondimensional_link_stiffness nondimensional_end_to_end_length_per_link 300.0 - Polymers.ufjc.log_squared.thermodynamics.isometric.asymptotic.legendre.nondimensional_helmholtz_free_energy_per_link 8 1.0 1.0 nondimensional_link_stiffness (Polymers.ZERO : α) 300.0

/-- `src/physics/single_chain/ufjc/log_squared/thermodynamics/isometric/asymptotic/legendre/mod.rs` lines 119-128. -/
def LOGSQUAREDFJC.init (number_of_links : Nat) (link_length : α) (hinge_mass : α) (link_stiffness : α) : Polymers.ufjc.log_squared.thermodynamics.isometric.asymptotic.legendre.LOGSQUAREDFJC α :=
  { hinge_mass := hinge_mass, link_length := link_length, number_of_links := number_of_links, link_stiffness := link_stiffness }

/-- `src/physics/single_chain/ufjc/log_squared/thermodynamics/isometric/asymptotic/legendre/mod.rs` lines 130-133. -/
def LOGSQUAREDFJC.force (self : Polymers.ufjc.log_squared.thermodynamics.isometric.asymptotic.legendre.LOGSQUAREDFJC α) (end_to_end_length : α) (temperature : α) : α :=
  Polymers.ufjc.log_squared.thermodynamics.isometric.asymptotic.legendre.force self.number_of_links self.link_length self.link_stiffness end_to_end_length temperature

/-- `src/physics/single_chain/ufjc/log_squared/thermodynamics/isometric/asymptotic/legendre/mod.rs` lines 135-138. -/
def LOGSQUAREDFJC.nondimensional_force (self : Polymers.ufjc.log_squared.thermodynamics.isometric.asymptotic.legendre.LOGSQUAREDFJC α) (nondimensional_end_to_end_length_per_link : α) (temperature : α) : α :=
  Polymers.ufjc.log_squared.thermodynamics.isometric.asymptotic.legendre.nondimensional_force (self.link_stiffness * Elem.powi self.link_length 2 / (Polymers.BOLTZMANN_CONSTANT : α) / temperature) nondimensional_end_to_end_length_per_link

/-- `src/physics/single_chain/ufjc/log_squared/thermodynamics/isometric/asymptotic/legendre/mod.rs` lines 140-143. -/
def LOGSQUAREDFJC.helmholtz_free_energy (self : Polymers.ufjc.log_squared.thermodynamics.isometric.asymptotic.legendre.LOGSQUAREDFJC α) (end_to_end_length : α) (temperature : α) : α :=
  Polymers.ufjc.log_squared.thermodynamics.isometric.asymptotic.legendre.helmholtz_free_energy self.number_of_links self.link_length self.hinge_mass self.link_stiffness end_to_end_length temperature

/-- `src/physics/single_chain/ufjc/log_squared/thermodynamics/isometric/asymptotic/legendre/mod.rs` lines 145-148. -/
def LOGSQUAREDFJC.helmholtz_free_energy_per_link (self : Polymers.ufjc.log_squared.thermodynamics.isometric.asymptotic.legendre.LOGSQUAREDFJC α) (end_to_end_length : α) (temperature : α) : α :=
  Polymers.ufjc.log_squared.thermodynamics.isometric.asymptotic.legendre.helmholtz_free_energy_per_link self.number_of_links self.link_length self.hinge_mass self.link_stiffness end_to_end_length temperature

/-- `src/physics/single_chain/ufjc/log_squared/thermodynamics/isometric/asymptotic/legendre/mod.rs` lines 150-153. -/
def LOGSQUAREDFJC.relative_helmholtz_free_energy (self : Polymers.ufjc.log_squared.thermodynamics.isometric.asymptotic.legendre.LOGSQUAREDFJC α) (end_to_end_length : α) (temperature : α) : α :=
  Polymers.ufjc.log_squared.thermodynamics.isometric.asymptotic.legendre.relative_helmholtz_free_energy self.number_of_links self.link_length self.link_stiffness end_to_end_length temperature

/-- `src/physics/single_chain/ufjc/log_squared/thermodynamics/isometric/asymptotic/legendre/mod.rs` lines 155-158. -/
def LOGSQUAREDFJC.relative_helmholtz_free_energy_per_link (self : Polymers.ufjc.log_squared.thermodynamics.isometric.asymptotic.legendre.LOGSQUAREDFJC α) (end_to_end_length : α) (temperature : α) : α :=
  Polymers.ufjc.log_squared.thermodynamics.isometric.asymptotic.legendre.relative_helmholtz_free_energy_per_link self.number_of_links self.link_length self.link_stiffness end_to_end_length temperature

/-- `src/physics/single_chain/ufjc/log_squared/thermodynamics/isometric/asymptotic/legendre/mod.rs` lines 160-163. -/
def LOGSQUAREDFJC.nondimensional_helmholtz_free_energy (self : Polymers.ufjc.log_squared.thermodynamics.isometric.asymptotic.legendre.LOGSQUAREDFJC α) (nondimensional_end_to_end_length_per_link : α) (temperature : α) : α :=
  Polymers.ufjc.log_squared.thermodynamics.isometric.asymptotic.legendre.nondimensional_helmholtz_free_energy self.number_of_links self.link_length self.hinge_mass (self.link_stiffness * Elem.powi self.link_length 2 / (Polymers.BOLTZMANN_CONSTANT : α) / temperature) nondimensional_end_to_end_length_per_link temperature

/-- `src/physics/single_chain/ufjc/log_squared/thermodynamics/isometric/asymptotic/legendre/mod.rs` lines 165-168. -/
def LOGSQUAREDFJC.nondimensional_helmholtz_free_energy_per_link (self : Polymers.ufjc.log_squared.thermodynamics.isometric.asymptotic.legendre.LOGSQUAREDFJC α) (nondimensional_end_to_end_length_per_link : α) (temperature : α) : α :=
  Polymers.ufjc.log_squared.thermodynamics.isometric.asymptotic.legendre.nondimensional_helmholtz_free_energy_per_link self.number_of_links self.link_length self.hinge_mass (self.link_stiffness * Elem.powi self.link_length 2 / (Polymers.BOLTZMANN_CONSTANT : α) / temperature) nondimensional_end_to_end_length_per_link temperature

/-- `src/physics/single_chain/ufjc/log_squared/thermodynamics/isometric/asymptotic/legendre/mod.rs` lines 170-173. -/
def LOGSQUAREDFJC.nondimensional_relative_helmholtz_free_energy (self : Polymers.ufjc.log_squared.thermodynamics.isometric.asymptotic.legendre.LOGSQUAREDFJC α) (nondimensional_end_to_end_length_per_link : α) (temperature : α) : α :=
  Polymers.ufjc.log_squared.thermodynamics.isometric.asymptotic.legendre.nondimensional_relative_helmholtz_free_energy self.number_of_links (self.link_stiffness * Elem.powi self.link_length 2 / (Polymers.BOLTZMANN_CONSTANT : α) / temperature) nondimensional_end_to_end_length_per_link

/-- `src/physics/single_chain/ufjc/log_squared/thermodynamics/isometric/asymptotic/legendre/mod.rs` lines 175-178. -/
def LOGSQUAREDFJC.nondimensional_relative_helmholtz_free_energy_per_link (self : Polymers.ufjc.log_squared.thermodynamics.isometric.asymptotic.legendre.LOGSQUAREDFJC α) (nondimensional_end_to_end_length_per_link : α) (temperature : α) : α :=
  Polymers.ufjc.log_squared.thermodynamics.isometric.asymptotic.legendre.nondimensional_relative_helmholtz_free_energy_per_link (self.link_stiffness * Elem.powi self.link_length 2 / (Polymers.BOLTZMANN_CONSTANT : α) / temperature) nondimensional_end_to_end_length_per_link

end Polymers.ufjc.log_squared.thermodynamics.isometric.asymptotic.legendre

namespace Polymers.ufjc.log_squared.thermodynamics.isometric.asymptotic.reduced

/-- `src/physics/single_chain/ufjc/log_squared/thermodynamics/isometric/asymptotic/reduced/mod.rs` lines 10-26: struct `LOGSQUAREDFJC`. -/
structure LOGSQUAREDFJC (α : Type) where
  /-- field `hinge_mass` -/
  hinge_mass : α
  /-- field `link_length` -/
  link_length : α
  /-- field `number_of_links` -/
  number_of_links : Nat
  /-- field `link_stiffness` -/
  link_stiffness : α
  /-- field `legendre` -/
  legendre : Polymers.ufjc.log_squared.thermodynamics.isometric.asymptotic.reduced.legendre.LOGSQUAREDFJC α

/-- `src/physics/single_chain/ufjc/log_squared/thermodynamics/isometric/asymptotic/reduced/mod.rs` lines 32-42. -/
def LOGSQUAREDFJC.init (number_of_links : Nat) (link_length : α) (hinge_mass : α) (link_stiffness : α) : Polymers.ufjc.log_squared.thermodynamics.isometric.asymptotic.reduced.LOGSQUAREDFJC α :=
  { hinge_mass := hinge_mass, link_length := link_length, number_of_links := number_of_links, link_stiffness := link_stiffness, legendre := Polymers.ufjc.log_squared.thermodynamics.isometric.asymptotic.reduced.legendre.LOGSQUAREDFJC.init number_of_links link_length hinge_mass link_stiffness }

end Polymers.ufjc.log_squared.thermodynamics.isometric.asymptotic.reduced

namespace Polymers.ufjc.log_squared.thermodynamics.isotensional.asymptotic.legendre

/-- `src/physics/single_chain/ufjc/log_squared/thermodynamics/isotensional/asymptotic/legendre/mod.rs` lines 19-32: struct `LOGSQUAREDFJC`. -/
structure LOGSQUAREDFJC (α : Type) where
  /-- field `hinge_mass` -/
  hinge_mass : α
  /-- field `link_length` -/
  link_length : α
  /-- field `number_of_links` -/
  number_of_links : Nat
  /-- field `link_stiffness` -/
  link_stiffness : α

/-- `src/physics/single_chain/ufjc/log_squared/thermodynamics/isotensional/asymptotic/legendre/mod.rs` lines 65-68. -/
def nondimensional_helmholtz_free_energy_per_link (link_length : α) (hinge_mass : α) (nondimensional_link_stiffness : α) (nondimensional_force : α) (temperature : α) : α :=
  (-Elem.ln (Elem.sinh nondimensional_force / nondimensional_force)) - Elem.ln (1.0 + nondimensional_force / Elem.tanh nondimensional_force / nondimensional_link_stiffness / 0.4) + 0.5 * nondimensional_link_stiffness * Elem.powi (Elem.ln (1.0 / Elem.exp (Polymers.math.lambert_w ((-nondimensional_force) / nondimensional_link_stiffness)))) 2 - 0.5 * Elem.ln (2.0 * (Elem.pi : α) * Elem.powi link_length 2 / nondimensional_link_stiffness) - Elem.ln (8.0 * Elem.powi (Elem.pi : α) 2 * hinge_mass * Elem.powi link_length 2 * (Polymers.BOLTZMANN_CONSTANT : α) * temperature / Elem.powi (Polymers.PLANCK_CONSTANT : α) 2) + nondimensional_force / Elem.tanh nondimensional_force - 1.0 + Elem.powi nondimensional_force 2 / nondimensional_link_stiffness * ((Elem.tanh nondimensional_force - 1.0 / Elem.tanh nondimensional_force + 1.0 / nondimensional_force) / (0.4 * Elem.tanh nondimensional_force + nondimensional_force / nondimensional_link_stiffness))

/-- `src/physics/single_chain/ufjc/log_squared/thermodynamics/isotensional/asymptotic/legendre/mod.rs` lines 59-62. -/
def nondimensional_helmholtz_free_energy (number_of_links : Nat) (link_length : α) (hinge_mass : α) (nondimensional_link_stiffness : α) (nondimensional_force : α) (temperature : α) : α :=
  (number_of_links : α) * Polymers.ufjc.log_squared.thermodynamics.isotensional.asymptotic.legendre.nondimensional_helmholtz_free_energy_per_link link_length hinge_mass nondimensional_link_stiffness nondimensional_force temperature

/-- `src/physics/single_chain/ufjc/log_squared/thermodynamics/isotensional/asymptotic/legendre/mod.rs` lines 35-38. -/
def helmholtz_free_energy (number_of_links : Nat) (link_length : α) (hinge_mass : α) (link_stiffness : α) (force : α) (temperature : α) : α :=
  (Polymers.BOLTZMANN_CONSTANT : α) * temperature * Polymers.ufjc.log_squared.thermodynamics.isotensional.asymptotic.legendre.nondimensional_helmholtz_free_energy number_of_links link_length hinge_mass (link_stiffness * Elem.powi link_length 2 / (Polymers.BOLTZMANN_CONSTANT : α) / temperature) (force / (Polymers.BOLTZMANN_CONSTANT : α) / temperature * link_length) temperature

/-- `src/physics/single_chain/ufjc/log_squared/thermodynamics/isotensional/asymptotic/legendre/mod.rs` lines 41-44. -/
def helmholtz_free_energy_per_link (link_length : α) (hinge_mass : α) (link_stiffness : α) (force : α) (temperature : α) : α :=
  (Polymers.BOLTZMANN_CONSTANT : α) * temperature * Polymers.ufjc.log_squared.thermodynamics.isotensional.asymptotic.legendre.nondimensional_helmholtz_free_energy_per_link link_length hinge_mass (link_stiffness * Elem.powi link_length 2 / (Polymers.BOLTZMANN_CONSTANT : α) / temperature) (force / (Polymers.BOLTZMANN_CONSTANT : α) / temperature * link_length) temperature

/-- `src/physics/single_chain/ufjc/log_squared/thermodynamics/isotensional/asymptotic/legendre/mod.rs` lines 47-50. -/
def relative_helmholtz_free_energy (number_of_links : Nat) (link_length : α) (link_stiffness : α) (force : α) (temperature : α) : α :=
  Polymers.ufjc.log_squared.thermodynamics.isotensional.asymptotic.legendre.helmholtz_free_energy number_of_links link_length 1.0 link_stiffness force temperature - Polymers.ufjc.log_squared.thermodynamics.isotensional.asymptotic.legendre.helmholtz_free_energy number_of_links link_length 1.0 link_stiffness ((Polymers.ZERO : α) * (Polymers.BOLTZMANN_CONSTANT : α) * temperature / link_length) temperature

/-- `src/physics/single_chain/ufjc/log_squared/thermodynamics/isotensional/asymptotic/legendre/mod.rs` lines 53-56. -/
def relative_helmholtz_free_energy_per_link (link_length : α) (link_stiffness : α) (force : α) (temperature : α) : α :=
  Polymers.ufjc.log_squared.thermodynamics.isotensional.asymptotic.legendre.helmholtz_free_energy_per_link link_length 1.0 link_stiffness force temperature - Polymers.ufjc.log_squared.thermodynamics.isotensional.asymptotic.legendre.helmholtz_free_energy_per_link link_length 1.0 link_stiffness ((Polymers.ZERO : α) * (Polymers.BOLTZMANN_CONSTANT : α) * temperature / link_length) temperature

/-- `src/physics/single_chain/ufjc/log_squared/thermodynamics/isotensional/asymptotic/legendre/mod.rs` lines 71-74. -/
def nondimensional_relative_helmholtz_free_energy (number_of_links : Nat) (nondimensional_link_stiffness : α) (nondimensional_force : α) : α :=
  Polymers.ufjc.log_squared.thermodynamics.isotensional.asymptotic.legendre.nondimensional_helmholtz_free_energy number_of_links 1.0 1.0 nondimensional_link_stiffness nondimensional_force 300.0 - Polymers.ufjc.log_squared.thermodynamics.isotensional.asymptotic.legendre.nondimensional_helmholtz_free_energy number_of_links 1.0 1.0 nondimensional_link_stiffness (Polymers.ZERO : α) 300.0

/-- `src/physics/single_chain/ufjc/log_squared/thermodynamics/isotensional/asymptotic/legendre/mod.rs` lines 77-80. -/
def nondimensional_relative_helmholtz_free_energy_per_link (nondimensional_link_stiffness : α) (nondimensional_force : α) : α :=
  Polymers.ufjc.log_squared.thermodynamics.isotensional.asymptotic.legendre.nondimensional_helmholtz_free_energy_per_link 1.0 1.0 nondimensional_link_stiffness nondimensional_force 300.0 - Polymers.ufjc.log_squared.thermodynamics.isotensional.asymptotic.legendre.nondimensional_helmholtz_free_energy_per_link 1.0 1.0 nondimensional_link_stiffness (Polymers.ZERO : α) 300.0

/-- `src/physics/single_chain/ufjc/log_squared/thermodynamics/isotensional/asymptotic/legendre/mod.rs` lines 86-95. -/
def LOGSQUAREDFJC.init (number_of_links : Nat) (link_length : α) (hinge_mass : α) (link_stiffness : α) : Polymers.ufjc.log_squared.thermodynamics.isotensional.asymptotic.legendre.LOGSQUAREDFJC α :=
  { hinge_mass := hinge_mass, link_length := link_length, number_of_links := number_of_links, link_stiffness := link_stiffness }

/-- `src/physics/single_chain/ufjc/log_squared/thermodynamics/isotensional/asymptotic/legendre/mod.rs` lines 97-100. -/
def LOGSQUAREDFJC.helmholtz_free_energy (self : Polymers.ufjc.log_squared.thermodynamics.isotensional.asymptotic.legendre.LOGSQUAREDFJC α) (force : α) (temperature : α) : α :=
  Polymers.ufjc.log_squared.thermodynamics.isotensional.asymptotic.legendre.helmholtz_free_energy self.number_of_links self.link_length self.hinge_mass self.link_stiffness force temperature

/-- `src/physics/single_chain/ufjc/log_squared/thermodynamics/isotensional/asymptotic/legendre/mod.rs` lines 102-105. -/
def LOGSQUAREDFJC.helmholtz_free_energy_per_link (self : Polymers.ufjc.log_squared.thermodynamics.isotensional.asymptotic.legendre.LOGSQUAREDFJC α) (force : α) (temperature : α) : α :=
  Polymers.ufjc.log_squared.thermodynamics.isotensional.asymptotic.legendre.helmholtz_free_energy_per_link self.link_length self.hinge_mass self.link_stiffness force temperature

/-- `src/physics/single_chain/ufjc/log_squared/thermodynamics/isotensional/asymptotic/legendre/mod.rs` lines 107-110. -/
def LOGSQUAREDFJC.relative_helmholtz_free_energy (self : Polymers.ufjc.log_squared.thermodynamics.isotensional.asymptotic.legendre.LOGSQUAREDFJC α) (force : α) (temperature : α) : α :=
  Polymers.ufjc.log_squared.thermodynamics.isotensional.asymptotic.legendre.relative_helmholtz_free_energy self.number_of_links self.link_length self.link_stiffness force temperature

/-- `src/physics/single_chain/ufjc/log_squared/thermodynamics/isotensional/asymptotic/legendre/mod.rs` lines 112-115. -/
def LOGSQUAREDFJC.relative_helmholtz_free_energy_per_link (self : Polymers.ufjc.log_squared.thermodynamics.isotensional.asymptotic.legendre.LOGSQUAREDFJC α) (force : α) (temperature : α) : α :=
  Polymers.ufjc.log_squared.thermodynamics.isotensional.asymptotic.legendre.relative_helmholtz_free_energy_per_link self.link_length self.link_stiffness force temperature

/-- `src/physics/single_chain/ufjc/log_squared/thermodynamics/isotensional/asymptotic/legendre/mod.rs` lines 117-120. -/
def LOGSQUAREDFJC.nondimensional_helmholtz_free_energy (self : Polymers.ufjc.log_squared.thermodynamics.isotensional.asymptotic.legendre.LOGSQUAREDFJC α) (nondimensional_force : α) (temperature : α) : α :=
  Polymers.ufjc.log_squared.thermodynamics.isotensional.asymptotic.legendre.nondimensional_helmholtz_free_energy self.number_of_links self.link_length self.hinge_mass (self.link_stiffness * Elem.powi self.link_length 2 / (Polymers.BOLTZMANN_CONSTANT : α) / temperature) nondimensional_force temperature

/-- `src/physics/single_chain/ufjc/log_squared/thermodynamics/isotensional/asymptotic/legendre/mod.rs` lines 122-125. -/
def LOGSQUAREDFJC.nondimensional_helmholtz_free_energy_per_link (self : Polymers.ufjc.log_squared.thermodynamics.isotensional.asymptotic.legendre.LOGSQUAREDFJC α) (nondimensional_force : α) (temperature : α) : α :=
  Polymers.ufjc.log_squared.thermodynamics.isotensional.asymptotic.legendre.nondimensional_helmholtz_free_energy_per_link self.link_length self.hinge_mass (self.link_stiffness * Elem.powi self.link_length 2 / (Polymers.BOLTZMANN_CONSTANT : α) / temperature) nondimensional_force temperature

/-- `src/physics/single_chain/ufjc/log_squared/thermodynamics/isotensional/asymptotic/legendre/mod.rs` lines 127-130. -/
def LOGSQUAREDFJC.nondimensional_relative_helmholtz_free_energy (self : Polymers.ufjc.log_squared.thermodynamics.isotensional.asymptotic.legendre.LOGSQUAREDFJC α) (nondimensional_force : α) (temperature : α) : α :=
  Polymers.ufjc.log_squared.thermodynamics.isotensional.asymptotic.legendre.nondimensional_relative_helmholtz_free_energy self.number_of_links (self.link_stiffness * Elem.powi self.link_length 2 / (Polymers.BOLTZMANN_CONSTANT : α) / temperature) nondimensional_force

/-- `src/physics/single_chain/ufjc/log_squared/thermodynamics/isotensional/asymptotic/legendre/mod.rs` lines 132-135. -/
def LOGSQUAREDFJC.nondimensional_relative_helmholtz_free_energy_per_link (self : Polymers.ufjc.log_squared.thermodynamics.isotensional.asymptotic.legendre.LOGSQUAREDFJC α) (nondimensional_force : α) (temperature : α) : α :=
  Polymers.ufjc.log_squared.thermodynamics.isotensional.asymptotic.legendre.nondimensional_relative_helmholtz_free_energy_per_link (self.link_stiffness * Elem.powi self.link_length 2 / (Polymers.BOLTZMANN_CONSTANT : α) / temperature) nondimensional_force

end Polymers.ufjc.log_squared.thermodynamics.isotensional.asymptotic.legendre

namespace Polymers.ufjc.log_squared.thermodynamics.isotensional.asymptotic.reduced

/-- `src/physics/single_chain/ufjc/log_squared/thermodynamics/isotensional/asymptotic/reduced/mod.rs` lines 22-38: struct `LOGSQUAREDFJC`. -/
structure LOGSQUAREDFJC (α : Type) where
  /-- field `hinge_mass` -/
  hinge_mass : α
  /-- field `link_length` -/
  link_length : α
  /-- field `number_of_links` -/
  number_of_links : Nat
  /-- field `link_stiffness` -/
  link_stiffness : α
  /-- field `legendre` -/
  legendre : Polymers.ufjc.log_squared.thermodynamics.isotensional.asymptotic.reduced.legendre.LOGSQUAREDFJC α

/-- `src/physics/single_chain/ufjc/log_squared/thermodynamics/isotensional/asymptotic/reduced/mod.rs` lines 59-62. -/
def nondimensional_end_to_end_length_per_link (nondimensional_link_stiffness : α) (nondimensional_force : α) : α :=
  1.0 / Elem.tanh nondimensional_force - 1.0 / nondimensional_force + 1.0 / Elem.exp (Polymers.math.lambert_w ((-nondimensional_force) / nondimensional_link_stiffness)) - 1.0

/-- `src/physics/single_chain/ufjc/log_squared/thermodynamics/isotensional/asymptotic/reduced/mod.rs` lines 53-56. -/
def nondimensional_end_to_end_length (number_of_links : Nat) (nondimensional_link_stiffness : α) (nondimensional_force : α) : α :=
  (number_of_links : α) * Polymers.ufjc.log_squared.thermodynamics.isotensional.asymptotic.reduced.nondimensional_end_to_end_length_per_link nondimensional_link_stiffness nondimensional_force

/-- `src/physics/single_chain/ufjc/log_squared/thermodynamics/isotensional/asymptotic/reduced/mod.rs` lines 41-44. -/
def end_to_end_length (number_of_links : Nat) (link_length : α) (link_stiffness : α) (force : α) (temperature : α) : α :=
  link_length * Polymers.ufjc.log_squared.thermodynamics.isotensional.asymptotic.reduced.nondimensional_end_to_end_length number_of_links (link_stiffness * Elem.powi link_length 2 / (Polymers.BOLTZMANN_CONSTANT : α) / temperature) (force * link_length / (Polymers.BOLTZMANN_CONSTANT : α) / temperature)

/-- `src/physics/single_chain/ufjc/log_squared/thermodynamics/isotensional/asymptotic/reduced/mod.rs` lines 47-50. -/
def end_to_end_length_per_link (link_length : α) (link_stiffness : α) (force : α) (temperature : α) : α :=
  link_length * Polymers.ufjc.log_squared.thermodynamics.isotensional.asymptotic.reduced.nondimensional_end_to_end_length_per_link (link_stiffness * Elem.powi link_length 2 / (Polymers.BOLTZMANN_CONSTANT : α) / temperature) (force * link_length / (Polymers.BOLTZMANN_CONSTANT : α) / temperature)

/-- `src/physics/single_chain/ufjc/log_squared/thermodynamics/isotensional/asymptotic/reduced/mod.rs` lines 95-99. -/
def nondimensional_gibbs_free_energy_per_link (link_length : α) (hinge_mass : α) (nondimensional_link_stiffness : α) (nondimensional_force : α) (temperature : α) : α :=
  let lambda : α := 1.0 / Elem.exp (Polymers.math.lambert_w ((-nondimensional_force) / nondimensional_link_stiffness))
  (-Elem.ln (Elem.sinh nondimensional_force / nondimensional_force)) + 0.5 * nondimensional_link_stiffness * Elem.powi (Elem.ln lambda) 2 - nondimensional_force * (lambda - 1.0) - 0.5 * Elem.ln (2.0 * (Elem.pi : α) * Elem.powi link_length 2 / nondimensional_link_stiffness) - Elem.ln (8.0 * Elem.powi (Elem.pi : α) 2 * hinge_mass * Elem.powi link_length 2 * (Polymers.BOLTZMANN_CONSTANT : α) * temperature / Elem.powi (Polymers.PLANCK_CONSTANT : α) 2)

/-- `src/physics/single_chain/ufjc/log_squared/thermodynamics/isotensional/asymptotic/reduced/mod.rs` lines 89-92. -/
def nondimensional_gibbs_free_energy (number_of_links : Nat) (link_length : α) (hinge_mass : α) (nondimensional_link_stiffness : α) (nondimensional_force : α) (temperature : α) : α :=
  (number_of_links : α) * Polymers.ufjc.log_squared.thermodynamics.isotensional.asymptotic.reduced.nondimensional_gibbs_free_energy_per_link link_length hinge_mass nondimensional_link_stiffness nondimensional_force temperature

/-- `src/physics/single_chain/ufjc/log_squared/thermodynamics/isotensional/asymptotic/reduced/mod.rs` lines 65-68. -/
def gibbs_free_energy (number_of_links : Nat) (link_length : α) (hinge_mass : α) (link_stiffness : α) (force : α) (temperature : α) : α :=
  (Polymers.BOLTZMANN_CONSTANT : α) * temperature * Polymers.ufjc.log_squared.thermodynamics.isotensional.asymptotic.reduced.nondimensional_gibbs_free_energy number_of_links link_length hinge_mass (link_stiffness * Elem.powi link_length 2 / (Polymers.BOLTZMANN_CONSTANT : α) / temperature) (force * link_length / (Polymers.BOLTZMANN_CONSTANT : α) / temperature) temperature

/-- `src/physics/single_chain/ufjc/log_squared/thermodynamics/isotensional/asymptotic/reduced/mod.rs` lines 71-74. -/
def gibbs_free_energy_per_link (link_length : α) (hinge_mass : α) (link_stiffness : α) (force : α) (temperature : α) : α :=
  (Polymers.BOLTZMANN_CONSTANT : α) * temperature * Polymers.ufjc.log_squared.thermodynamics.isotensional.asymptotic.reduced.nondimensional_gibbs_free_energy_per_link link_length hinge_mass (link_stiffness * Elem.powi link_length 2 / (Polymers.BOLTZMANN_CONSTANT : α) / temperature) (force * link_length / (Polymers.BOLTZMANN_CONSTANT : α) / temperature) temperature

/-- `src/physics/single_chain/ufjc/log_squared/thermodynamics/isotensional/asymptotic/reduced/mod.rs` lines 77-80. -/
def relative_gibbs_free_energy (number_of_links : Nat) (link_length : α) (link_stiffness : α) (force : α) (temperature : α) : α :=
  Polymers.ufjc.log_squared.thermodynamics.isotensional.asymptotic.reduced.gibbs_free_energy number_of_links link_length 1.0 link_stiffness force temperature - Polymers.ufjc.log_squared.thermodynamics.isotensional.asymptotic.reduced.gibbs_free_energy number_of_links link_length 1.0 link_stiffness ((Polymers.ZERO : α) * (Polymers.BOLTZMANN_CONSTANT : α) * temperature / link_length) temperature

/-- `src/physics/single_chain/ufjc/log_squared/thermodynamics/isotensional/asymptotic/reduced/mod.rs` lines 83-86. -/
def relative_gibbs_free_energy_per_link (link_length : α) (link_stiffness : α) (force : α) (temperature : α) : α :=
  Polymers.ufjc.log_squared.thermodynamics.isotensional.asymptotic.reduced.gibbs_free_energy_per_link link_length 1.0 link_stiffness force temperature - Polymers.ufjc.log_squared.thermodynamics.isotensional.asymptotic.reduced.gibbs_free_energy_per_link link_length 1.0 link_stiffness ((Polymers.ZERO : α) * (Polymers.BOLTZMANN_CONSTANT : α) * temperature / link_length) temperature

/-- `src/physics/single_chain/ufjc/log_squared/thermodynamics/isotensional/asymptotic/reduced/mod.rs` lines 102-105. -/
def nondimensional_relative_gibbs_free_energy (number_of_links : Nat) (nondimensional_link_stiffness : α) (nondimensional_force : α) : α :=
  Polymers.ufjc.log_squared.thermodynamics.isotensional.asymptotic.reduced.nondimensional_gibbs_free_energy number_of_links 1.0 1.0 nondimensional_link_stiffness nondimensional_force 300.0 - Polymers.ufjc.log_squared.thermodynamics.isotensional.asymptotic.reduced.nondimensional_gibbs_free_energy number_of_links 1.0 1.0 nondimensional_link_stiffness (Polymers.ZERO : α) 300.0

/-- `src/physics/single_chain/ufjc/log_squared/thermodynamics/isotensional/asymptotic/reduced/mod.rs` lines 108-111. -/
def nondimensional_relative_gibbs_free_energy_per_link (nondimensional_link_stiffness : α) (nondimensional_force : α) : α :=
  Polymers.ufjc.log_squared.thermodynamics.isotensional.asymptotic.reduced.nondimensional_gibbs_free_energy_per_link 1.0 1.0 nondimensional_link_stiffness nondimensional_force 300.0 - Polymers.ufjc.log_squared.thermodynamics.isotensional.asymptotic.reduced.nondimensional_gibbs_free_energy_per_link 1.0 1.0 nondimensional_link_stiffness (Polymers.ZERO : α) 300.0

/-- `src/physics/single_chain/ufjc/log_squared/thermodynamics/isotensional/asymptotic/reduced/mod.rs` lines 117-127. -/
def LOGSQUAREDFJC.init (number_of_links : Nat) (link_length : α) (hinge_mass : α) (link_stiffness : α) : Polymers.ufjc.log_squared.thermodynamics.isotensional.asymptotic.reduced.LOGSQUAREDFJC α :=
  { hinge_mass := hinge_mass, link_length := link_length, number_of_links := number_of_links, link_stiffness := link_stiffness, legendre := Polymers.ufjc.log_squared.thermodynamics.isotensional.asymptotic.reduced.legendre.LOGSQUAREDFJC.init number_of_links link_length hinge_mass link_stiffness }

/-- `src/physics/single_chain/ufjc/log_squared/thermodynamics/isotensional/asymptotic/reduced/mod.rs` lines 129-132. -/
def LOGSQUAREDFJC.end_to_end_length (self : Polymers.ufjc.log_squared.thermodynamics.isotensional.asymptotic.reduced.LOGSQUAREDFJC α) (force : α) (temperature : α) : α :=
  Polymers.ufjc.log_squared.thermodynamics.isotensional.asymptotic.reduced.end_to_end_length self.number_of_links self.link_length self.link_stiffness force temperature

/-- `src/physics/single_chain/ufjc/log_squared/thermodynamics/isotensional/asymptotic/reduced/mod.rs` lines 134-137. -/
def LOGSQUAREDFJC.end_to_end_length_per_link (self : Polymers.ufjc.log_squared.thermodynamics.isotensional.asymptotic.reduced.LOGSQUAREDFJC α) (force : α) (temperature : α) : α :=
  Polymers.ufjc.log_squared.thermodynamics.isotensional.asymptotic.reduced.end_to_end_length_per_link self.link_length self.link_stiffness force temperature

/-- `src/physics/single_chain/ufjc/log_squared/thermodynamics/isotensional/asymptotic/reduced/mod.rs` lines 139-142. -/
def LOGSQUAREDFJC.nondimensional_end_to_end_length (self : Polymers.ufjc.log_squared.thermodynamics.isotensional.asymptotic.reduced.LOGSQUAREDFJC α) (nondimensional_force : α) (temperature : α) : α :=
  Polymers.ufjc.log_squared.thermodynamics.isotensional.asymptotic.reduced.nondimensional_end_to_end_length self.number_of_links (self.link_stiffness * Elem.powi self.link_length 2 / (Polymers.BOLTZMANN_CONSTANT : α) / temperature) nondimensional_force

/-- `src/physics/single_chain/ufjc/log_squared/thermodynamics/isotensional/asymptotic/reduced/mod.rs` lines 144-147. -/
def LOGSQUAREDFJC.nondimensional_end_to_end_length_per_link (self : Polymers.ufjc.log_squared.thermodynamics.isotensional.asymptotic.reduced.LOGSQUAREDFJC α) (nondimensional_force : α) (temperature : α) : α :=
  Polymers.ufjc.log_squared.thermodynamics.isotensional.asymptotic.reduced.nondimensional_end_to_end_length_per_link (self.link_stiffness * Elem.powi self.link_length 2 / (Polymers.BOLTZMANN_CONSTANT : α) / temperature) nondimensional_force

/-- `src/physics/single_chain/ufjc/log_squared/thermodynamics/isotensional/asymptotic/reduced/mod.rs` lines 149-152. -/
def LOGSQUAREDFJC.gibbs_free_energy (self : Polymers.ufjc.log_squared.thermodynamics.isotensional.asymptotic.reduced.LOGSQUAREDFJC α) (force : α) (temperature : α) : α :=
  Polymers.ufjc.log_squared.thermodynamics.isotensional.asymptotic.reduced.gibbs_free_energy self.number_of_links self.link_length self.hinge_mass self.link_stiffness force temperature

/-- `src/physics/single_chain/ufjc/log_squared/thermodynamics/isotensional/asymptotic/reduced/mod.rs` lines 154-157. -/
def LOGSQUAREDFJC.gibbs_free_energy_per_link (self : Polymers.ufjc.log_squared.thermodynamics.isotensional.asymptotic.reduced.LOGSQUAREDFJC α) (force : α) (temperature : α) : α :=
  Polymers.ufjc.log_squared.thermodynamics.isotensional.asymptotic.reduced.gibbs_free_energy_per_link self.link_length self.hinge_mass self.link_stiffness force temperature

/-- `src/physics/single_chain/ufjc/log_squared/thermodynamics/isotensional/asymptotic/reduced/mod.rs` lines 159-162. -/
def LOGSQUAREDFJC.relative_gibbs_free_energy (self : Polymers.ufjc.log_squared.thermodynamics.isotensional.asymptotic.reduced.LOGSQUAREDFJC α) (force : α) (temperature : α) : α :=
  Polymers.ufjc.log_squared.thermodynamics.isotensional.asymptotic.reduced.relative_gibbs_free_energy self.number_of_links self.link_length self.link_stiffness force temperature

/-- `src/physics/single_chain/ufjc/log_squared/thermodynamics/isotensional/asymptotic/reduced/mod.rs` lines 164-167. -/
def LOGSQUAREDFJC.relative_gibbs_free_energy_per_link (self : Polymers.ufjc.log_squared.thermodynamics.isotensional.asymptotic.reduced.LOGSQUAREDFJC α) (force : α) (temperature : α) : α :=
  Polymers.ufjc.log_squared.thermodynamics.isotensional.asymptotic.reduced.relative_gibbs_free_energy_per_link self.link_length self.link_stiffness force temperature

/-- `src/physics/single_chain/ufjc/log_squared/thermodynamics/isotensional/asymptotic/reduced/mod.rs` lines 169-172. -/
def LOGSQUAREDFJC.nondimensional_gibbs_free_energy (self : Polymers.ufjc.log_squared.thermodynamics.isotensional.asymptotic.reduced.LOGSQUAREDFJC α) (nondimensional_force : α) (temperature : α) : α :=
  Polymers.ufjc.log_squared.thermodynamics.isotensional.asymptotic.reduced.nondimensional_gibbs_free_energy self.number_of_links self.link_length self.hinge_mass (self.link_stiffness * Elem.powi self.link_length 2 / (Polymers.BOLTZMANN_CONSTANT : α) / temperature) nondimensional_force temperature

/-- `src/physics/single_chain/ufjc/log_squared/thermodynamics/isotensional/asymptotic/reduced/mod.rs` lines 174-177. -/
def LOGSQUAREDFJC.nondimensional_gibbs_free_energy_per_link (self : Polymers.ufjc.log_squared.thermodynamics.isotensional.asymptotic.reduced.LOGSQUAREDFJC α) (nondimensional_force : α) (temperature : α) : α :=
  Polymers.ufjc.log_squared.thermodynamics.isotensional.asymptotic.reduced.nondimensional_gibbs_free_energy_per_link self.link_length self.hinge_mass (self.link_stiffness * Elem.powi self.link_length 2 / (Polymers.BOLTZMANN_CONSTANT : α) / temperature) nondimensional_force temperature

/-- `src/physics/single_chain/ufjc/log_squared/thermodynamics/isotensional/asymptotic/reduced/mod.rs` lines 179-182. -/
def LOGSQUAREDFJC.nondimensional_relative_gibbs_free_energy (self : Polymers.ufjc.log_squared.thermodynamics.isotensional.asymptotic.reduced.LOGSQUAREDFJC α) (nondimensional_force : α) (temperature : α) : α :=
  Polymers.ufjc.log_squared.thermodynamics.isotensional.asymptotic.reduced.nondimensional_relative_gibbs_free_energy self.number_of_links (self.link_stiffness * Elem.powi self.link_length 2 / (Polymers.BOLTZMANN_CONSTANT : α) / temperature) nondimensional_force

/-- `src/physics/single_chain/ufjc/log_squared/thermodynamics/isotensional/asymptotic/reduced/mod.rs` lines 184-187. -/
def LOGSQUAREDFJC.nondimensional_relative_gibbs_free_energy_per_link (self : Polymers.ufjc.log_squared.thermodynamics.isotensional.asymptotic.reduced.LOGSQUAREDFJC α) (nondimensional_force : α) (temperature : α) : α :=
  Polymers.ufjc.log_squared.thermodynamics.isotensional.asymptotic.reduced.nondimensional_relative_gibbs_free_energy_per_link (self.link_stiffness * Elem.powi self.link_length 2 / (Polymers.BOLTZMANN_CONSTANT : α) / temperature) nondimensional_force

end Polymers.ufjc.log_squared.thermodynamics.isotensional.asymptotic.reduced

namespace Polymers.ufjc.log_squared.thermodynamics.isometric.asymptotic

/-- `src/physics/single_chain/ufjc/log_squared/thermodynamics/isometric/asymptotic/mod.rs` lines 13-32: struct `LOGSQUAREDFJC`. -/
structure LOGSQUAREDFJC (α : Type) where
  /-- field `hinge_mass` -/
  hinge_mass : α
  /-- field `link_length` -/
  link_length : α
  /-- field `number_of_links` -/
  number_of_links : Nat
  /-- field `link_stiffness` -/
  link_stiffness : α
  /-- field `reduced` -/
  reduced : Polymers.ufjc.log_squared.thermodynamics.isometric.asymptotic.reduced.LOGSQUAREDFJC α
  /-- field `legendre` -/
  legendre : Polymers.ufjc.log_squared.thermodynamics.isometric.asymptotic.legendre.LOGSQUAREDFJC α

/-- `src/physics/single_chain/ufjc/log_squared/thermodynamics/isometric/asymptotic/mod.rs` lines 38-49. -/
def LOGSQUAREDFJC.init (number_of_links : Nat) (link_length : α) (hinge_mass : α) (link_stiffness : α) : Polymers.ufjc.log_squared.thermodynamics.isometric.asymptotic.LOGSQUAREDFJC α :=
  { hinge_mass := hinge_mass, link_length := link_length, number_of_links := number_of_links, link_stiffness := link_stiffness, reduced := Polymers.ufjc.log_squared.thermodynamics.isometric.asymptotic.reduced.LOGSQUAREDFJC.init number_of_links link_length hinge_mass link_stiffness, legendre := Polymers.ufjc.log_squared.thermodynamics.isometric.asymptotic.legendre.LOGSQUAREDFJC.init number_of_links link_length hinge_mass link_stiffness }

end Polymers.ufjc.log_squared.thermodynamics.isometric.asymptotic

namespace Polymers.ufjc.log_squared.thermodynamics.isotensional.asymptotic

/-- `src/physics/single_chain/ufjc/log_squared/thermodynamics/isotensional/asymptotic/mod.rs` lines 25-44: struct `LOGSQUAREDFJC`. -/
structure LOGSQUAREDFJC (α : Type) where
  /-- field `hinge_mass` -/
  hinge_mass : α
  /-- field `link_length` -/
  link_length : α
  /-- field `number_of_links` -/
  number_of_links : Nat
  /-- field `link_stiffness` -/
  link_stiffness : α
  /-- field `reduced` -/
  reduced : Polymers.ufjc.log_squared.thermodynamics.isotensional.asymptotic.reduced.LOGSQUAREDFJC α
  /-- field `legendre` -/
  legendre : Polymers.ufjc.log_squared.thermodynamics.isotensional.asymptotic.legendre.LOGSQUAREDFJC α

/-- `src/physics/single_chain/ufjc/log_squared/thermodynamics/isotensional/asymptotic/mod.rs` lines 65-68. -/
def nondimensional_end_to_end_length_per_link (nondimensional_link_stiffness : α) (nondimensional_force : α) : α :=
  1.0 / Elem.tanh nondimensional_force - 1.0 / nondimensional_force + nondimensional_force / nondimensional_link_stiffness * ((Elem.tanh nondimensional_force - 1.0 / Elem.tanh nondimensional_force + 1.0 / nondimensional_force) / (0.4 * Elem.tanh nondimensional_force + nondimensional_force / nondimensional_link_stiffness)) + 1.0 / Elem.exp (Polymers.math.lambert_w ((-nondimensional_force) / nondimensional_link_stiffness)) - 1.0

/-- `src/physics/single_chain/ufjc/log_squared/thermodynamics/isotensional/asymptotic/mod.rs` lines 59-62. -/
def nondimensional_end_to_end_length (number_of_links : Nat) (nondimensional_link_stiffness : α) (nondimensional_force : α) : α :=
  (number_of_links : α) * Polymers.ufjc.log_squared.thermodynamics.isotensional.asymptotic.nondimensional_end_to_end_length_per_link nondimensional_link_stiffness nondimensional_force

/-- `src/physics/single_chain/ufjc/log_squared/thermodynamics/isotensional/asymptotic/mod.rs` lines 47-50. -/
def end_to_end_length (number_of_links : Nat) (link_length : α) (link_stiffness : α) (force : α) (temperature : α) : α :=
  link_length * Polymers.ufjc.log_squared.thermodynamics.isotensional.asymptotic.nondimensional_end_to_end_length number_of_links (link_stiffness * Elem.powi link_length 2 / (Polymers.BOLTZMANN_CONSTANT : α) / temperature) (force * link_length / (Polymers.BOLTZMANN_CONSTANT : α) / temperature)

/-- `src/physics/single_chain/ufjc/log_squared/thermodynamics/isotensional/asymptotic/mod.rs` lines 53-56. -/
def end_to_end_length_per_link (link_length : α) (link_stiffness : α) (force : α) (temperature : α) : α :=
  link_length * Polymers.ufjc.log_squared.thermodynamics.isotensional.asymptotic.nondimensional_end_to_end_length_per_link (link_stiffness * Elem.powi link_length 2 / (Polymers.BOLTZMANN_CONSTANT : α) / temperature) (force * link_length / (Polymers.BOLTZMANN_CONSTANT : α) / temperature)

/-- `src/physics/single_chain/ufjc/log_squared/thermodynamics/isotensional/asymptotic/mod.rs` lines 101-105. -/
def nondimensional_gibbs_free_energy_per_link (link_length : α) (hinge_mass : α) (nondimensional_link_stiffness : α) (nondimensional_force : α) (temperature : α) : α :=
  let lambda : α := 1.0 / Elem.exp (Polymers.math.lambert_w ((-nondimensional_force) / nondimensional_link_stiffness))
  (-Elem.ln (Elem.sinh nondimensional_force / nondimensional_force)) - Elem.ln (1.0 + nondimensional_force / Elem.tanh nondimensional_force / nondimensional_link_stiffness / 0.4) + 0.5 * nondimensional_link_stiffness * Elem.powi (Elem.ln lambda) 2 - nondimensional_force * (lambda - 1.0) - 0.5 * Elem.ln (2.0 * (Elem.pi : α) * Elem.powi link_length 2 / nondimensional_link_stiffness) - Elem.ln (8.0 * Elem.powi (Elem.pi : α) 2 * hinge_mass * Elem.powi link_length 2 * (Polymers.BOLTZMANN_CONSTANT : α) * temperature / Elem.powi (Polymers.PLANCK_CONSTANT : α) 2)

/-- `src/physics/single_chain/ufjc/log_squared/thermodynamics/isotensional/asymptotic/mod.rs` lines 95-98. -/
def nondimensional_gibbs_free_energy (number_of_links : Nat) (link_length : α) (hinge_mass : α) (nondimensional_link_stiffness : α) (nondimensional_force : α) (temperature : α) : α :=
  (number_of_links : α) * Polymers.ufjc.log_squared.thermodynamics.isotensional.asymptotic.nondimensional_gibbs_free_energy_per_link link_length hinge_mass nondimensional_link_stiffness nondimensional_force temperature

/-- `src/physics/single_chain/ufjc/log_squared/thermodynamics/isotensional/asymptotic/mod.rs` lines 71-74. -/
def gibbs_free_energy (number_of_links : Nat) (link_length : α) (hinge_mass : α) (link_stiffness : α) (force : α) (temperature : α) : α :=
  (Polymers.BOLTZMANN_CONSTANT : α) * temperature * Polymers.ufjc.log_squared.thermodynamics.isotensional.asymptotic.nondimensional_gibbs_free_energy number_of_links link_length hinge_mass (link_stiffness * Elem.powi link_length 2 / (Polymers.BOLTZMANN_CONSTANT : α) / temperature) (force * link_length / (Polymers.BOLTZMANN_CONSTANT : α) / temperature) temperature

/-- `src/physics/single_chain/ufjc/log_squared/thermodynamics/isotensional/asymptotic/mod.rs` lines 77-80. -/
def gibbs_free_energy_per_link (link_length : α) (hinge_mass : α) (link_stiffness : α) (force : α) (temperature : α) : α :=
  (Polymers.BOLTZMANN_CONSTANT : α) * temperature * Polymers.ufjc.log_squared.thermodynamics.isotensional.asymptotic.nondimensional_gibbs_free_energy_per_link link_length hinge_mass (link_stiffness * Elem.powi link_length 2 / (Polymers.BOLTZMANN_CONSTANT : α) / temperature) (force * link_length / (Polymers.BOLTZMANN_CONSTANT : α) / temperature) temperature

/-- `src/physics/single_chain/ufjc/log_squared/thermodynamics/isotensional/asymptotic/mod.rs` lines 83-86. -/
def relative_gibbs_free_energy (number_of_links : Nat) (link_length : α) (link_stiffness : α) (force : α) (temperature : α) : α :=
  Polymers.ufjc.log_squared.thermodynamics.isotensional.asymptotic.gibbs_free_energy number_of_links link_length 1.0 link_stiffness force temperature - Polymers.ufjc.log_squared.thermodynamics.isotensional.asymptotic.gibbs_free_energy number_of_links link_length 1.0 link_stiffness ((Polymers.ZERO : α) * (Polymers.BOLTZMANN_CONSTANT : α) * temperature / link_length) temperature

/-- `src/physics/single_chain/ufjc/log_squared/thermodynamics/isotensional/asymptotic/mod.rs` lines 89-92. -/
def relative_gibbs_free_energy_per_link (link_length : α) (link_stiffness : α) (force : α) (temperature : α) : α :=
  Polymers.ufjc.log_squared.thermodynamics.isotensional.asymptotic.gibbs_free_energy_per_link link_length 1.0 link_stiffness force temperature - Polymers.ufjc.log_squared.thermodynamics.isotensional.asymptotic.gibbs_free_energy_per_link link_length 1.0 link_stiffness ((Polymers.ZERO : α) * (Polymers.BOLTZMANN_CONSTANT : α) * temperature / link_length) temperature

/-- `src/physics/single_chain/ufjc/log_squared/thermodynamics/isotensional/asymptotic/mod.rs` lines 108-111. -/
def nondimensional_relative_gibbs_free_energy (number_of_links : Nat) (nondimensional_link_stiffness : α) (nondimensional_force : α) : α :=
  Polymers.ufjc.log_squared.thermodynamics.isotensional.asymptotic.nondimensional_gibbs_free_energy number_of_links 1.0 1.0 nondimensional_link_stiffness nondimensional_force 300.0 - Polymers.ufjc.log_squared.thermodynamics.isotensional.asymptotic.nondimensional_gibbs_free_energy number_of_links 1.0 1.0 nondimensional_link_stiffness (Polymers.ZERO : α) 300.0

/-- `src/physics/single_chain/ufjc/log_squared/thermodynamics/isotensional/asymptotic/mod.rs` lines 114-117. -/
def nondimensional_relative_gibbs_free_energy_per_link (nondimensional_link_stiffness : α) (nondimensional_force : α) : α :=
  Polymers.ufjc.log_squared.thermodynamics.isotensional.asymptotic.nondimensional_gibbs_free_energy_per_link 1.0 1.0 nondimensional_link_stiffness nondimensional_force 300.0 - Polymers.ufjc.log_squared.thermodynamics.isotensional.asymptotic.nondimensional_gibbs_free_energy_per_link 1.0 1.0 nondimensional_link_stiffness (Polymers.ZERO : α) 300.0

/-- `src/physics/single_chain/ufjc/log_squared/thermodynamics/isotensional/asymptotic/mod.rs` lines 123-134. -/
def LOGSQUAREDFJC.init (number_of_links : Nat) (link_length : α) (hinge_mass : α) (link_stiffness : α) : Polymers.ufjc.log_squared.thermodynamics.isotensional.asymptotic.LOGSQUAREDFJC α :=
  { hinge_mass := hinge_mass, link_length := link_length, number_of_links := number_of_links, link_stiffness := link_stiffness, reduced := Polymers.ufjc.log_squared.thermodynamics.isotensional.asymptotic.reduced.LOGSQUAREDFJC.init number_of_links link_length hinge_mass link_stiffness, legendre := Polymers.ufjc.log_squared.thermodynamics.isotensional.asymptotic.legendre.LOGSQUAREDFJC.init number_of_links link_length hinge_mass link_stiffness }

/-- `src/physics/single_chain/ufjc/log_squared/thermodynamics/isotensional/asymptotic/mod.rs` lines 136-139. -/
def LOGSQUAREDFJC.end_to_end_length (self : Polymers.ufjc.log_squared.thermodynamics.isotensional.asymptotic.LOGSQUAREDFJC α) (force : α) (temperature : α) : α :=
  Polymers.ufjc.log_squared.thermodynamics.isotensional.asymptotic.end_to_end_length self.number_of_links self.link_length self.link_stiffness force temperature

/-- `src/physics/single_chain/ufjc/log_squared/thermodynamics/isotensional/asymptotic/mod.rs` lines 141-144. -/
def LOGSQUAREDFJC.end_to_end_length_per_link (self : Polymers.ufjc.log_squared.thermodynamics.isotensional.asymptotic.LOGSQUAREDFJC α) (force : α) (temperature : α) : α :=
  Polymers.ufjc.log_squared.thermodynamics.isotensional.asymptotic.end_to_end_length_per_link self.link_length self.link_stiffness force temperature

/-- `src/physics/single_chain/ufjc/log_squared/thermodynamics/isotensional/asymptotic/mod.rs` lines 146-149. -/
def LOGSQUAREDFJC.nondimensional_end_to_end_length (self : Polymers.ufjc.log_squared.thermodynamics.isotensional.asymptotic.LOGSQUAREDFJC α) (nondimensional_force : α) (temperature : α) : α :=
  Polymers.ufjc.log_squared.thermodynamics.isotensional.asymptotic.nondimensional_end_to_end_length self.number_of_links (self.link_stiffness * Elem.powi self.link_length 2 / (Polymers.BOLTZMANN_CONSTANT : α) / temperature) nondimensional_force

/-- `src/physics/single_chain/ufjc/log_squared/thermodynamics/isotensional/asymptotic/mod.rs` lines 151-154. -/
def LOGSQUAREDFJC.nondimensional_end_to_end_length_per_link (self : Polymers.ufjc.log_squared.thermodynamics.isotensional.asymptotic.LOGSQUAREDFJC α) (nondimensional_force : α) (temperature : α) : α :=
  Polymers.ufjc.log_squared.thermodynamics.isotensional.asymptotic.nondimensional_end_to_end_length_per_link (self.link_stiffness * Elem.powi self.link_length 2 / (Polymers.BOLTZMANN_CONSTANT : α) / temperature) nondimensional_force

/-- `src/physics/single_chain/ufjc/log_squared/thermodynamics/isotensional/asymptotic/mod.rs` lines 156-159. -/
def LOGSQUAREDFJC.gibbs_free_energy (self : Polymers.ufjc.log_squared.thermodynamics.isotensional.asymptotic.LOGSQUAREDFJC α) (force : α) (temperature : α) : α :=
  Polymers.ufjc.log_squared.thermodynamics.isotensional.asymptotic.gibbs_free_energy self.number_of_links self.link_length self.hinge_mass self.link_stiffness force temperature

/-- `src/physics/single_chain/ufjc/log_squared/thermodynamics/isotensional/asymptotic/mod.rs` lines 161-164. -/
def LOGSQUAREDFJC.gibbs_free_energy_per_link (self : Polymers.ufjc.log_squared.thermodynamics.isotensional.asymptotic.LOGSQUAREDFJC α) (force : α) (temperature : α) : α :=
  Polymers.ufjc.log_squared.thermodynamics.isotensional.asymptotic.gibbs_free_energy_per_link self.link_length self.hinge_mass self.link_stiffness force temperature

/-- `src/physics/single_chain/ufjc/log_squared/thermodynamics/isotensional/asymptotic/mod.rs` lines 166-169. -/
def LOGSQUAREDFJC.relative_gibbs_free_energy (self : Polymers.ufjc.log_squared.thermodynamics.isotensional.asymptotic.LOGSQUAREDFJC α) (force : α) (temperature : α) : α :=
  Polymers.ufjc.log_squared.thermodynamics.isotensional.asymptotic.relative_gibbs_free_energy self.number_of_links self.link_length self.link_stiffness force temperature

/-- `src/physics/single_chain/ufjc/log_squared/thermodynamics/isotensional/asymptotic/mod.rs` lines 171-174. -/
def LOGSQUAREDFJC.relative_gibbs_free_energy_per_link (self : Polymers.ufjc.log_squared.thermodynamics.isotensional.asymptotic.LOGSQUAREDFJC α) (force : α) (temperature : α) : α :=
  Polymers.ufjc.log_squared.thermodynamics.isotensional.asymptotic.relative_gibbs_free_energy_per_link self.link_length self.link_stiffness force temperature

/-- `src/physics/single_chain/ufjc/log_squared/thermodynamics/isotensional/asymptotic/mod.rs` lines 176-179. -/
def LOGSQUAREDFJC.nondimensional_gibbs_free_energy (self : Polymers.ufjc.log_squared.thermodynamics.isotensional.asymptotic.LOGSQUAREDFJC α) (nondimensional_force : α) (temperature : α) : α :=
  Polymers.ufjc.log_squared.thermodynamics.isotensional.asymptotic.nondimensional_gibbs_free_energy self.number_of_links self.link_length self.hinge_mass (self.link_stiffness * Elem.powi self.link_length 2 / (Polymers.BOLTZMANN_CONSTANT : α) / temperature) nondimensional_force temperature

/-- `src/physics/single_chain/ufjc/log_squared/thermodynamics/isotensional/asymptotic/mod.rs` lines 181-184. -/
def LOGSQUAREDFJC.nondimensional_gibbs_free_energy_per_link (self : Polymers.ufjc.log_squared.thermodynamics.isotensional.asymptotic.LOGSQUAREDFJC α) (nondimensional_force : α) (temperature : α) : α :=
  Polymers.ufjc.log_squared.thermodynamics.isotensional.asymptotic.nondimensional_gibbs_free_energy_per_link self.link_length self.hinge_mass (self.link_stiffness * Elem.powi self.link_length 2 / (Polymers.BOLTZMANN_CONSTANT : α) / temperature) nondimensional_force temperature

/-- `src/physics/single_chain/ufjc/log_squared/thermodynamics/isotensional/asymptotic/mod.rs` lines 186-189. -/
def LOGSQUAREDFJC.nondimensional_relative_gibbs_free_energy (self : Polymers.ufjc.log_squared.thermodynamics.isotensional.asymptotic.LOGSQUAREDFJC α) (nondimensional_force : α) (temperature : α) : α :=
  Polymers.ufjc.log_squared.thermodynamics.isotensional.asymptotic.nondimensional_relative_gibbs_free_energy self.number_of_links (self.link_stiffness * Elem.powi self.link_length 2 / (Polymers.BOLTZMANN_CONSTANT : α) / temperature) nondimensional_force

/-- `src/physics/single_chain/ufjc/log_squared/thermodynamics/isotensional/asymptotic/mod.rs` lines 191-194. -/
def LOGSQUAREDFJC.nondimensional_relative_gibbs_free_energy_per_link (self : Polymers.ufjc.log_squared.thermodynamics.isotensional.asymptotic.LOGSQUAREDFJC α) (nondimensional_force : α) (temperature : α) : α :=
  Polymers.ufjc.log_squared.thermodynamics.isotensional.asymptotic.nondimensional_relative_gibbs_free_energy_per_link (self.link_stiffness * Elem.powi self.link_length 2 / (Polymers.BOLTZMANN_CONSTANT : α) / temperature) nondimensional_force

end Polymers.ufjc.log_squared.thermodynamics.isotensional.asymptotic

namespace Polymers.ufjc.log_squared.thermodynamics.isotensional.legendre

/-- `src/physics/single_chain/ufjc/log_squared/thermodynamics/isotensional/legendre/mod.rs` lines 23-36: struct `LOGSQUAREDFJC`. -/
structure LOGSQUAREDFJC (α : Type) where
  /-- field `hinge_mass` -/
  hinge_mass : α
  /-- field `link_length` -/
  link_length : α
  /-- field `number_of_links` -/
  number_of_links : Nat
  /-- field `link_stiffness` -/
  link_stiffness : α

/-- `src/physics/single_chain/ufjc/log_squared/thermodynamics/isotensional/legendre/mod.rs` lines 69-89. -/
def nondimensional_helmholtz_free_energy_per_link (link_length : α) (hinge_mass : α) (nondimensional_link_stiffness : α) (nondimensional_force : α) (temperature : α) : α :=
  let nondimensional_link_stretch_max : α := Elem.exp 1.0
  let rescaled_partition_function_integrand : α → α := fun (nondimensional_link_stretch : α) => (let exponent_1 : α := nondimensional_force * nondimensional_link_stretch - 0.5 * nondimensional_link_stiffness * Elem.powi (Elem.ln nondimensional_link_stretch) 2 + Elem.ln nondimensional_link_stretch - Elem.ln nondimensional_force; let exponent_2 : α := exponent_1 - 2.0 * nondimensional_force * nondimensional_link_stretch; Elem.exp exponent_1 - Elem.exp exponent_2)
  let rescaled_partition_function : α := Polymers.math.integrate_1d rescaled_partition_function_integrand (Polymers.ZERO : α) nondimensional_link_stretch_max Polymers.POINTS
  let nondimensional_end_to_end_length_per_link_integrand : α → α := fun (nondimensional_link_stretch : α) => (let exponent_1 : α := nondimensional_force * nondimensional_link_stretch - 0.5 * nondimensional_link_stiffness * Elem.powi (Elem.ln nondimensional_link_stretch) 2 + 2.0 * Elem.ln nondimensional_link_stretch - Elem.ln nondimensional_force; let exponent_2 : α := exponent_1 - 2.0 * nondimensional_force * nondimensional_link_stretch; let exponent_3 : α := exponent_1 - Elem.ln nondimensional_link_stretch - Elem.ln nondimensional_force; let exponent_4 : α := exponent_3 - 2.0 * nondimensional_force * nondimensional_link_stretch; (Elem.exp exponent_1 + Elem.exp exponent_2 - Elem.exp exponent_3 + Elem.exp exponent_4) / rescaled_partition_function)
  let nondimensional_end_to_end_length_per_link : α := Polymers.math.integrate_1d nondimensional_end_to_end_length_per_link_integrand (Polymers.ZERO : α) nondimensional_link_stretch_max Polymers.POINTS
  (-Elem.ln rescaled_partition_function) - Elem.ln (8.0 * Elem.powi (Elem.pi : α) 2 * hinge_mass * Elem.powi link_length 2 * (Polymers.BOLTZMANN_CONSTANT : α) * temperature / Elem.powi (Polymers.PLANCK_CONSTANT : α) 2) + nondimensional_force * nondimensional_end_to_end_length_per_link

/-- `src/physics/single_chain/ufjc/log_squared/thermodynamics/isotensional/legendre/mod.rs` lines 63-66. -/
def nondimensional_helmholtz_free_energy (number_of_links : Nat) (link_length : α) (hinge_mass : α) (nondimensional_link_stiffness : α) (nondimensional_force : α) (temperature : α) : α :=
  (number_of_links : α) * Polymers.ufjc.log_squared.thermodynamics.isotensional.legendre.nondimensional_helmholtz_free_energy_per_link link_length hinge_mass nondimensional_link_stiffness nondimensional_force temperature

/-- `src/physics/single_chain/ufjc/log_squared/thermodynamics/isotensional/legendre/mod.rs` lines 39-42. -/
def helmholtz_free_energy (number_of_links : Nat) (link_length : α) (hinge_mass : α) (link_stiffness : α) (force : α) (temperature : α) : α :=
  (Polymers.BOLTZMANN_CONSTANT : α) * temperature * Polymers.ufjc.log_squared.thermodynamics.isotensional.legendre.nondimensional_helmholtz_free_energy number_of_links link_length hinge_mass (link_stiffness * Elem.powi link_length 2 / (Polymers.BOLTZMANN_CONSTANT : α) / temperature) (force / (Polymers.BOLTZMANN_CONSTANT : α) / temperature * link_length) temperature

/-- `src/physics/single_chain/ufjc/log_squared/thermodynamics/isotensional/legendre/mod.rs` lines 45-48. -/
def helmholtz_free_energy_per_link (link_length : α) (hinge_mass : α) (link_stiffness : α) (force : α) (temperature : α) : α :=
  (Polymers.BOLTZMANN_CONSTANT : α) * temperature * Polymers.ufjc.log_squared.thermodynamics.isotensional.legendre.nondimensional_helmholtz_free_energy_per_link link_length hinge_mass (link_stiffness * Elem.powi link_length 2 / (Polymers.BOLTZMANN_CONSTANT : α) / temperature) (force / (Polymers.BOLTZMANN_CONSTANT : α) / temperature * link_length) temperature

/-- `src/physics/single_chain/ufjc/log_squared/thermodynamics/isotensional/legendre/mod.rs` lines 51-54. -/
def relative_helmholtz_free_energy (number_of_links : Nat) (link_length : α) (link_stiffness : α) (force : α) (temperature : α) : α :=
  Polymers.ufjc.log_squared.thermodynamics.isotensional.legendre.helmholtz_free_energy number_of_links link_length 1.0 link_stiffness force temperature - Polymers.ufjc.log_squared.thermodynamics.isotensional.legendre.helmholtz_free_energy number_of_links link_length 1.0 link_stiffness ((Polymers.ZERO : α) * (Polymers.BOLTZMANN_CONSTANT : α) * temperature / link_length) temperature

/-- `src/physics/single_chain/ufjc/log_squared/thermodynamics/isotensional/legendre/mod.rs` lines 57-60. -/
def relative_helmholtz_free_energy_per_link (link_length : α) (link_stiffness : α) (force : α) (temperature : α) : α :=
  Polymers.ufjc.log_squared.thermodynamics.isotensional.legendre.helmholtz_free_energy_per_link link_length 1.0 link_stiffness force temperature - Polymers.ufjc.log_squared.thermodynamics.isotensional.legendre.helmholtz_free_energy_per_link link_length 1.0 link_stiffness ((Polymers.ZERO : α) * (Polymers.BOLTZMANN_CONSTANT : α) * temperature / link_length) temperature

/-- `src/physics/single_chain/ufjc/log_squared/thermodynamics/isotensional/legendre/mod.rs` lines 92-95. -/
def nondimensional_relative_helmholtz_free_energy (number_of_links : Nat) (nondimensional_link_stiffness : α) (nondimensional_force : α) : α :=
  Polymers.ufjc.log_squared.thermodynamics.isotensional.legendre.nondimensional_helmholtz_free_energy number_of_links 1.0 1.0 nondimensional_link_stiffness nondimensional_force 300.0 - Polymers.ufjc.log_squared.thermodynamics.isotensional.legendre.nondimensional_helmholtz_free_energy number_of_links 1.0 1.0 nondimensional_link_stiffness (Polymers.ZERO : α) 300.0

/-- `src/physics/single_chain/ufjc/log_squared/thermodynamics/isotensional/legendre/mod.rs` lines 98-101. -/
def nondimensional_relative_helmholtz_free_energy_per_link (nondimensional_link_stiffness : α) (nondimensional_force : α) : α :=
  Polymers.ufjc.log_squared.thermodynamics.isotensional.legendre.nondimensional_helmholtz_free_energy_per_link 1.0 1.0 nondimensional_link_stiffness nondimensional_force 300.0 - Polymers.ufjc.log_squared.thermodynamics.isotensional.legendre.nondimensional_helmholtz_free_energy_per_link 1.0 1.0 nondimensional_link_stiffness (Polymers.ZERO : α) 300.0

/-- `src/physics/single_chain/ufjc/log_squared/thermodynamics/isotensional/legendre/mod.rs` lines 107-116. -/
def LOGSQUAREDFJC.init (number_of_links : Nat) (link_length : α) (hinge_mass : α) (link_stiffness : α) : Polymers.ufjc.log_squared.thermodynamics.isotensional.legendre.LOGSQUAREDFJC α :=
  { hinge_mass := hinge_mass, link_length := link_length, number_of_links := number_of_links, link_stiffness := link_stiffness }

/-- `src/physics/single_chain/ufjc/log_squared/thermodynamics/isotensional/legendre/mod.rs` lines 118-121. -/
def LOGSQUAREDFJC.helmholtz_free_energy (self : Polymers.ufjc.log_squared.thermodynamics.isotensional.legendre.LOGSQUAREDFJC α) (force : α) (temperature : α) : α :=
  Polymers.ufjc.log_squared.thermodynamics.isotensional.legendre.helmholtz_free_energy self.number_of_links self.link_length self.hinge_mass self.link_stiffness force temperature

/-- `src/physics/single_chain/ufjc/log_squared/thermodynamics/isotensional/legendre/mod.rs` lines 123-126. -/
def LOGSQUAREDFJC.helmholtz_free_energy_per_link (self : Polymers.ufjc.log_squared.thermodynamics.isotensional.legendre.LOGSQUAREDFJC α) (force : α) (temperature : α) : α :=
  Polymers.ufjc.log_squared.thermodynamics.isotensional.legendre.helmholtz_free_energy_per_link self.link_length self.hinge_mass self.link_stiffness force temperature

/-- `src/physics/single_chain/ufjc/log_squared/thermodynamics/isotensional/legendre/mod.rs` lines 128-131. -/
def LOGSQUAREDFJC.relative_helmholtz_free_energy (self : Polymers.ufjc.log_squared.thermodynamics.isotensional.legendre.LOGSQUAREDFJC α) (force : α) (temperature : α) : α :=
  Polymers.ufjc.log_squared.thermodynamics.isotensional.legendre.relative_helmholtz_free_energy self.number_of_links self.link_length self.link_stiffness force temperature

/-- `src/physics/single_chain/ufjc/log_squared/thermodynamics/isotensional/legendre/mod.rs` lines 133-136. -/
def LOGSQUAREDFJC.relative_helmholtz_free_energy_per_link (self : Polymers.ufjc.log_squared.thermodynamics.isotensional.legendre.LOGSQUAREDFJC α) (force : α) (temperature : α) : α :=
  Polymers.ufjc.log_squared.thermodynamics.isotensional.legendre.relative_helmholtz_free_energy_per_link self.link_length self.link_stiffness force temperature

/-- `src/physics/single_chain/ufjc/log_squared/thermodynamics/isotensional/legendre/mod.rs` lines 138-141. -/
def LOGSQUAREDFJC.nondimensional_helmholtz_free_energy (self : Polymers.ufjc.log_squared.thermodynamics.isotensional.legendre.LOGSQUAREDFJC α) (nondimensional_force : α) (temperature : α) : α :=
  Polymers.ufjc.log_squared.thermodynamics.isotensional.legendre.nondimensional_helmholtz_free_energy self.number_of_links self.link_length self.hinge_mass (self.link_stiffness * Elem.powi self.link_length 2 / (Polymers.BOLTZMANN_CONSTANT : α) / temperature) nondimensional_force temperature

/-- `src/physics/single_chain/ufjc/log_squared/thermodynamics/isotensional/legendre/mod.rs` lines 143-146. -/
def LOGSQUAREDFJC.nondimensional_helmholtz_free_energy_per_link (self : Polymers.ufjc.log_squared.thermodynamics.isotensional.legendre.LOGSQUAREDFJC α) (nondimensional_force : α) (temperature : α) : α :=
  Polymers.ufjc.log_squared.thermodynamics.isotensional.legendre.nondimensional_helmholtz_free_energy_per_link self.link_length self.hinge_mass (self.link_stiffness * Elem.powi self.link_length 2 / (Polymers.BOLTZMANN_CONSTANT : α) / temperature) nondimensional_force temperature

/-- `src/physics/single_chain/ufjc/log_squared/thermodynamics/isotensional/legendre/mod.rs` lines 148-151. -/
def LOGSQUAREDFJC.nondimensional_relative_helmholtz_free_energy (self : Polymers.ufjc.log_squared.thermodynamics.isotensional.legendre.LOGSQUAREDFJC α) (nondimensional_force : α) (temperature : α) : α :=
  Polymers.ufjc.log_squared.thermodynamics.isotensional.legendre.nondimensional_relative_helmholtz_free_energy self.number_of_links (self.link_stiffness * Elem.powi self.link_length 2 / (Polymers.BOLTZMANN_CONSTANT : α) / temperature) nondimensional_force

/-- `src/physics/single_chain/ufjc/log_squared/thermodynamics/isotensional/legendre/mod.rs` lines 153-156. -/
def LOGSQUAREDFJC.nondimensional_relative_helmholtz_free_energy_per_link (self : Polymers.ufjc.log_squared.thermodynamics.isotensional.legendre.LOGSQUAREDFJC α) (nondimensional_force : α) (temperature : α) : α :=
  Polymers.ufjc.log_squared.thermodynamics.isotensional.legendre.nondimensional_relative_helmholtz_free_energy_per_link (self.link_stiffness * Elem.powi self.link_length 2 / (Polymers.BOLTZMANN_CONSTANT : α) / temperature) nondimensional_force

end Polymers.ufjc.log_squared.thermodynamics.isotensional.legendre

namespace Polymers.ufjc.log_squared.thermodynamics.isometric

/-- `src/physics/single_chain/ufjc/log_squared/thermodynamics/isometric/mod.rs` lines 10-26: struct `LOGSQUAREDFJC`. -/
structure LOGSQUAREDFJC (α : Type) where
  /-- field `hinge_mass` -/
  hinge_mass : α
  /-- field `link_length` -/
  link_length : α
  /-- field `number_of_links` -/
  number_of_links : Nat
  /-- field `link_stiffness` -/
  link_stiffness : α
  /-- field `asymptotic` -/
  asymptotic : Polymers.ufjc.log_squared.thermodynamics.isometric.asymptotic.LOGSQUAREDFJC α

/-- `src/physics/single_chain/ufjc/log_squared/thermodynamics/isometric/mod.rs` lines 32-42. -/
def LOGSQUAREDFJC.init (number_of_links : Nat) (link_length : α) (hinge_mass : α) (link_stiffness : α) : Polymers.ufjc.log_squared.thermodynamics.isometric.LOGSQUAREDFJC α :=
  { hinge_mass := hinge_mass, link_length := link_length, number_of_links := number_of_links, link_stiffness := link_stiffness, asymptotic := Polymers.ufjc.log_squared.thermodynamics.isometric.asymptotic.LOGSQUAREDFJC.init number_of_links link_length hinge_mass link_stiffness }

end Polymers.ufjc.log_squared.thermodynamics.isometric

namespace Polymers.ufjc.log_squared.thermodynamics.isotensional

/-- `src/physics/single_chain/ufjc/log_squared/thermodynamics/isotensional/mod.rs` lines 29-48: struct `LOGSQUAREDFJC`. -/
structure LOGSQUAREDFJC (α : Type) where
  /-- field `hinge_mass` -/
  hinge_mass : α
  /-- field `link_length` -/
  link_length : α
  /-- field `number_of_links` -/
  number_of_links : Nat
  /-- field `link_stiffness` -/
  link_stiffness : α
  /-- field `asymptotic` -/
  asymptotic : Polymers.ufjc.log_squared.thermodynamics.isotensional.asymptotic.LOGSQUAREDFJC α
  /-- field `legendre` -/
  legendre : Polymers.ufjc.log_squared.thermodynamics.isotensional.legendre.LOGSQUAREDFJC α

/-- `src/physics/single_chain/ufjc/log_squared/thermodynamics/isotensional/mod.rs` lines 69-88. -/
def nondimensional_end_to_end_length_per_link (nondimensional_link_stiffness : α) (nondimensional_force : α) : α :=
  let nondimensional_link_stretch_max : α := Elem.exp 1.0
  let rescaled_partition_function_integrand : α → α := fun (nondimensional_link_stretch : α) => (let exponent_1 : α := nondimensional_force * nondimensional_link_stretch - 0.5 * nondimensional_link_stiffness * Elem.powi (Elem.ln nondimensional_link_stretch) 2 + Elem.ln nondimensional_link_stretch - Elem.ln nondimensional_force; let exponent_2 : α := exponent_1 - 2.0 * nondimensional_force * nondimensional_link_stretch; Elem.exp exponent_1 - Elem.exp exponent_2)
  let rescaled_partition_function : α := Polymers.math.integrate_1d rescaled_partition_function_integrand (Polymers.ZERO : α) nondimensional_link_stretch_max Polymers.POINTS
  let nondimensional_end_to_end_length_per_link_integrand : α → α := fun (nondimensional_link_stretch : α) => (let exponent_1 : α := nondimensional_force * nondimensional_link_stretch - 0.5 * nondimensional_link_stiffness * Elem.powi (Elem.ln nondimensional_link_stretch) 2 + 2.0 * Elem.ln nondimensional_link_stretch - Elem.ln nondimensional_force; let exponent_2 : α := exponent_1 - 2.0 * nondimensional_force * nondimensional_link_stretch; let exponent_3 : α := exponent_1 - Elem.ln nondimensional_link_stretch - Elem.ln nondimensional_force; let exponent_4 : α := exponent_3 - 2.0 * nondimensional_force * nondimensional_link_stretch; (Elem.exp exponent_1 + Elem.exp exponent_2 - Elem.exp exponent_3 + Elem.exp exponent_4) / rescaled_partition_function)
  Polymers.math.integrate_1d nondimensional_end_to_end_length_per_link_integrand (Polymers.ZERO : α) nondimensional_link_stretch_max Polymers.POINTS

/-- `src/physics/single_chain/ufjc/log_squared/thermodynamics/isotensional/mod.rs` lines 63-66. -/
def nondimensional_end_to_end_length (number_of_links : Nat) (nondimensional_link_stiffness : α) (nondimensional_force : α) : α :=
  (number_of_links : α) * Polymers.ufjc.log_squared.thermodynamics.isotensional.nondimensional_end_to_end_length_per_link nondimensional_link_stiffness nondimensional_force

/-- `src/physics/single_chain/ufjc/log_squared/thermodynamics/isotensional/mod.rs` lines 51-54. -/
def end_to_end_length (number_of_links : Nat) (link_length : α) (link_stiffness : α) (force : α) (temperature : α) : α :=
  link_length * Polymers.ufjc.log_squared.thermodynamics.isotensional.nondimensional_end_to_end_length number_of_links (link_stiffness * Elem.powi link_length 2 / (Polymers.BOLTZMANN_CONSTANT : α) / temperature) (force * link_length / (Polymers.BOLTZMANN_CONSTANT : α) / temperature)

/-- `src/physics/single_chain/ufjc/log_squared/thermodynamics/isotensional/mod.rs` lines 57-60. -/
def end_to_end_length_per_link (link_length : α) (link_stiffness : α) (force : α) (temperature : α) : α :=
  link_length * Polymers.ufjc.log_squared.thermodynamics.isotensional.nondimensional_end_to_end_length_per_link (link_stiffness * Elem.powi link_length 2 / (Polymers.BOLTZMANN_CONSTANT : α) / temperature) (force * link_length / (Polymers.BOLTZMANN_CONSTANT : α) / temperature)

/-- `src/physics/single_chain/ufjc/log_squared/thermodynamics/isotensional/mod.rs` lines 121-132. -/
def nondimensional_gibbs_free_energy_per_link (link_length : α) (hinge_mass : α) (nondimensional_link_stiffness : α) (nondimensional_force : α) (temperature : α) : α :=
  let nondimensional_link_stretch_max : α := Elem.exp 1.0
  let rescaled_partition_function_integrand : α → α := fun (nondimensional_link_stretch : α) => (let exponent_1 : α := nondimensional_force * nondimensional_link_stretch - 0.5 * nondimensional_link_stiffness * Elem.powi (Elem.ln nondimensional_link_stretch) 2 + Elem.ln nondimensional_link_stretch - Elem.ln nondimensional_force; let exponent_2 : α := exponent_1 - 2.0 * nondimensional_force * nondimensional_link_stretch; Elem.exp exponent_1 - Elem.exp exponent_2)
  let rescaled_partition_function : α := Polymers.math.integrate_1d rescaled_partition_function_integrand (Polymers.ZERO : α) nondimensional_link_stretch_max Polymers.POINTS
  (-Elem.ln rescaled_partition_function) - Elem.ln (8.0 * Elem.powi (Elem.pi : α) 2 * hinge_mass * Elem.powi link_length 2 * (Polymers.BOLTZMANN_CONSTANT : α) * temperature / Elem.powi (Polymers.PLANCK_CONSTANT : α) 2)

/-- `src/physics/single_chain/ufjc/log_squared/thermodynamics/isotensional/mod.rs` lines 115-118. -/
def nondimensional_gibbs_free_energy (number_of_links : Nat) (link_length : α) (hinge_mass : α) (nondimensional_link_stiffness : α) (nondimensional_force : α) (temperature : α) : α :=
  (number_of_links : α) * Polymers.ufjc.log_squared.thermodynamics.isotensional.nondimensional_gibbs_free_energy_per_link link_length hinge_mass nondimensional_link_stiffness nondimensional_force temperature

/-- `src/physics/single_chain/ufjc/log_squared/thermodynamics/isotensional/mod.rs` lines 91-94. -/
def gibbs_free_energy (number_of_links : Nat) (link_length : α) (hinge_mass : α) (link_stiffness : α) (force : α) (temperature : α) : α :=
  (Polymers.BOLTZMANN_CONSTANT : α) * temperature * Polymers.ufjc.log_squared.thermodynamics.isotensional.nondimensional_gibbs_free_energy number_of_links link_length hinge_mass (link_stiffness * Elem.powi link_length 2 / (Polymers.BOLTZMANN_CONSTANT : α) / temperature) (force * link_length / (Polymers.BOLTZMANN_CONSTANT : α) / temperature) temperature

/-- `src/physics/single_chain/ufjc/log_squared/thermodynamics/isotensional/mod.rs` lines 97-100. -/
def gibbs_free_energy_per_link (link_length : α) (hinge_mass : α) (link_stiffness : α) (force : α) (temperature : α) : α :=
  (Polymers.BOLTZMANN_CONSTANT : α) * temperature * Polymers.ufjc.log_squared.thermodynamics.isotensional.nondimensional_gibbs_free_energy_per_link link_length hinge_mass (link_stiffness * Elem.powi link_length 2 / (Polymers.BOLTZMANN_CONSTANT : α) / temperature) (force * link_length / (Polymers.BOLTZMANN_CONSTANT : α) / temperature) temperature

/-- `src/physics/single_chain/ufjc/log_squared/thermodynamics/isotensional/mod.rs` lines 103-106. -/
def relative_gibbs_free_energy (number_of_links : Nat) (link_length : α) (link_stiffness : α) (force : α) (temperature : α) : α :=
  Polymers.ufjc.log_squared.thermodynamics.isotensional.gibbs_free_energy number_of_links link_length 1.0 link_stiffness force temperature - Polymers.ufjc.log_squared.thermodynamics.isotensional.gibbs_free_energy number_of_links link_length 1.0 link_stiffness ((Polymers.ZERO : α) * (Polymers.BOLTZMANN_CONSTANT : α) * temperature / link_length) temperature

/-- `src/physics/single_chain/ufjc/log_squared/thermodynamics/isotensional/mod.rs` lines 109-112. -/
def relative_gibbs_free_energy_per_link (link_length : α) (link_stiffness : α) (force : α) (temperature : α) : α :=
  Polymers.ufjc.log_squared.thermodynamics.isotensional.gibbs_free_energy_per_link link_length 1.0 link_stiffness force temperature - Polymers.ufjc.log_squared.thermodynamics.isotensional.gibbs_free_energy_per_link link_length 1.0 link_stiffness ((Polymers.ZERO : α) * (Polymers.BOLTZMANN_CONSTANT : α) * temperature / link_length) temperature

/-- `src/physics/single_chain/ufjc/log_squared/thermodynamics/isotensional/mod.rs` lines 135-138. -/
def nondimensional_relative_gibbs_free_energy (number_of_links : Nat) (nondimensional_link_stiffness : α) (nondimensional_force : α) : α :=
  Polymers.ufjc.log_squared.thermodynamics.isotensional.nondimensional_gibbs_free_energy number_of_links 1.0 1.0 nondimensional_link_stiffness nondimensional_force 300.0 - Polymers.ufjc.log_squared.thermodynamics.isotensional.nondimensional_gibbs_free_energy number_of_links 1.0 1.0 nondimensional_link_stiffness (Polymers.ZERO : α) 300.0

/-- `src/physics/single_chain/ufjc/log_squared/thermodynamics/isotensional/mod.rs` lines 141-144. -/
def nondimensional_relative_gibbs_free_energy_per_link (nondimensional_link_stiffness : α) (nondimensional_force : α) : α :=
  Polymers.ufjc.log_squared.thermodynamics.isotensional.nondimensional_gibbs_free_energy_per_link 1.0 1.0 nondimensional_link_stiffness nondimensional_force 300.0 - Polymers.ufjc.log_squared.thermodynamics.isotensional.nondimensional_gibbs_free_energy_per_link 1.0 1.0 nondimensional_link_stiffness (Polymers.ZERO : α) 300.0

/-- `src/physics/single_chain/ufjc/log_squared/thermodynamics/isotensional/mod.rs` lines 150-161. -/
def LOGSQUAREDFJC.init (number_of_links : Nat) (link_length : α) (hinge_mass : α) (link_stiffness : α) : Polymers.ufjc.log_squared.thermodynamics.isotensional.LOGSQUAREDFJC α :=
  { hinge_mass := hinge_mass, link_length := link_length, number_of_links := number_of_links, link_stiffness := link_stiffness, asymptotic := Polymers.ufjc.log_squared.thermodynamics.isotensional.asymptotic.LOGSQUAREDFJC.init number_of_links link_length hinge_mass link_stiffness, legendre := Polymers.ufjc.log_squared.thermodynamics.isotensional.legendre.LOGSQUAREDFJC.init number_of_links link_length hinge_mass link_stiffness }

/-- `src/physics/single_chain/ufjc/log_squared/thermodynamics/isotensional/mod.rs` lines 163-166. -/
def LOGSQUAREDFJC.end_to_end_length (self : Polymers.ufjc.log_squared.thermodynamics.isotensional.LOGSQUAREDFJC α) (force : α) (temperature : α) : α :=
  Polymers.ufjc.log_squared.thermodynamics.isotensional.end_to_end_length self.number_of_links self.link_length self.link_stiffness force temperature

/-- `src/physics/single_chain/ufjc/log_squared/thermodynamics/isotensional/mod.rs` lines 168-171. -/
def LOGSQUAREDFJC.end_to_end_length_per_link (self : Polymers.ufjc.log_squared.thermodynamics.isotensional.LOGSQUAREDFJC α) (force : α) (temperature : α) : α :=
  Polymers.ufjc.log_squared.thermodynamics.isotensional.end_to_end_length_per_link self.link_length self.link_stiffness force temperature

/-- `src/physics/single_chain/ufjc/log_squared/thermodynamics/isotensional/mod.rs` lines 173-176. -/
def LOGSQUAREDFJC.nondimensional_end_to_end_length (self : Polymers.ufjc.log_squared.thermodynamics.isotensional.LOGSQUAREDFJC α) (nondimensional_force : α) (temperature : α) : α :=
  Polymers.ufjc.log_squared.thermodynamics.isotensional.nondimensional_end_to_end_length self.number_of_links (self.link_stiffness * Elem.powi self.link_length 2 / (Polymers.BOLTZMANN_CONSTANT : α) / temperature) nondimensional_force

/-- `src/physics/single_chain/ufjc/log_squared/thermodynamics/isotensional/mod.rs` lines 178-181. -/
def LOGSQUAREDFJC.nondimensional_end_to_end_length_per_link (self : Polymers.ufjc.log_squared.thermodynamics.isotensional.LOGSQUAREDFJC α) (nondimensional_force : α) (temperature : α) : α :=
  Polymers.ufjc.log_squared.thermodynamics.isotensional.nondimensional_end_to_end_length_per_link (self.link_stiffness * Elem.powi self.link_length 2 / (Polymers.BOLTZMANN_CONSTANT : α) / temperature) nondimensional_force

/-- `src/physics/single_chain/ufjc/log_squared/thermodynamics/isotensional/mod.rs` lines 183-186. -/
def LOGSQUAREDFJC.gibbs_free_energy (self : Polymers.ufjc.log_squared.thermodynamics.isotensional.LOGSQUAREDFJC α) (force : α) (temperature : α) : α :=
  Polymers.ufjc.log_squared.thermodynamics.isotensional.gibbs_free_energy self.number_of_links self.link_length self.hinge_mass self.link_stiffness force temperature

/-- `src/physics/single_chain/ufjc/log_squared/thermodynamics/isotensional/mod.rs` lines 188-191. -/
def LOGSQUAREDFJC.gibbs_free_energy_per_link (self : Polymers.ufjc.log_squared.thermodynamics.isotensional.LOGSQUAREDFJC α) (force : α) (temperature : α) : α :=
  Polymers.ufjc.log_squared.thermodynamics.isotensional.gibbs_free_energy_per_link self.link_length self.hinge_mass self.link_stiffness force temperature

/-- `src/physics/single_chain/ufjc/log_squared/thermodynamics/isotensional/mod.rs` lines 193-196. -/
def LOGSQUAREDFJC.relative_gibbs_free_energy (self : Polymers.ufjc.log_squared.thermodynamics.isotensional.LOGSQUAREDFJC α) (force : α) (temperature : α) : α :=
  Polymers.ufjc.log_squared.thermodynamics.isotensional.relative_gibbs_free_energy self.number_of_links self.link_length self.link_stiffness force temperature

/-- `src/physics/single_chain/ufjc/log_squared/thermodynamics/isotensional/mod.rs` lines 198-201. -/
def LOGSQUAREDFJC.relative_gibbs_free_energy_per_link (self : Polymers.ufjc.log_squared.thermodynamics.isotensional.LOGSQUAREDFJC α) (force : α) (temperature : α) : α :=
  Polymers.ufjc.log_squared.thermodynamics.isotensional.relative_gibbs_free_energy_per_link self.link_length self.link_stiffness force temperature

/-- `src/physics/single_chain/ufjc/log_squared/thermodynamics/isotensional/mod.rs` lines 203-206. -/
def LOGSQUAREDFJC.nondimensional_gibbs_free_energy (self : Polymers.ufjc.log_squared.thermodynamics.isotensional.LOGSQUAREDFJC α) (nondimensional_force : α) (temperature : α) : α :=
  Polymers.ufjc.log_squared.thermodynamics.isotensional.nondimensional_gibbs_free_energy self.number_of_links self.link_length self.hinge_mass (self.link_stiffness * Elem.powi self.link_length 2 / (Polymers.BOLTZMANN_CONSTANT : α) / temperature) nondimensional_force temperature

/-- `src/physics/single_chain/ufjc/log_squared/thermodynamics/isotensional/mod.rs` lines 208-211. -/
def LOGSQUAREDFJC.nondimensional_gibbs_free_energy_per_link (self : Polymers.ufjc.log_squared.thermodynamics.isotensional.LOGSQUAREDFJC α) (nondimensional_force : α) (temperature : α) : α :=
  Polymers.ufjc.log_squared.thermodynamics.isotensional.nondimensional_gibbs_free_energy_per_link self.link_length self.hinge_mass (self.link_stiffness * Elem.powi self.link_length 2 / (Polymers.BOLTZMANN_CONSTANT : α) / temperature) nondimensional_force temperature

/-- `src/physics/single_chain/ufjc/log_squared/thermodynamics/isotensional/mod.rs` lines 213-216. -/
def LOGSQUAREDFJC.nondimensional_relative_gibbs_free_energy (self : Polymers.ufjc.log_squared.thermodynamics.isotensional.LOGSQUAREDFJC α) (nondimensional_force : α) (temperature : α) : α :=
  Polymers.ufjc.log_squared.thermodynamics.isotensional.nondimensional_relative_gibbs_free_energy self.number_of_links (self.link_stiffness * Elem.powi self.link_length 2 / (Polymers.BOLTZMANN_CONSTANT : α) / temperature) nondimensional_force

/-- `src/physics/single_chain/ufjc/log_squared/thermodynamics/isotensional/mod.rs` lines 218-221. -/
def LOGSQUAREDFJC.nondimensional_relative_gibbs_free_energy_per_link (self : Polymers.ufjc.log_squared.thermodynamics.isotensional.LOGSQUAREDFJC α) (nondimensional_force : α) (temperature : α) : α :=
  Polymers.ufjc.log_squared.thermodynamics.isotensional.nondimensional_relative_gibbs_free_energy_per_link (self.link_stiffness * Elem.powi self.link_length 2 / (Polymers.BOLTZMANN_CONSTANT : α) / temperature) nondimensional_force

end Polymers.ufjc.log_squared.thermodynamics.isotensional

namespace Polymers.ufjc.log_squared.thermodynamics

/-- `src/physics/single_chain/ufjc/log_squared/thermodynamics/mod.rs` lines 13-32: struct `LOGSQUAREDFJC`. -/
structure LOGSQUAREDFJC (α : Type) where
  /-- field `hinge_mass` -/
  hinge_mass : α
  /-- field `link_length` -/
  link_length : α
  /-- field `number_of_links` -/
  number_of_links : Nat
  /-- field `link_stiffness` -/
  link_stiffness : α
  /-- field `isometric` -/
  isometric : Polymers.ufjc.log_squared.thermodynamics.isometric.LOGSQUAREDFJC α
  /-- field `isotensional` -/
  isotensional : Polymers.ufjc.log_squared.thermodynamics.isotensional.LOGSQUAREDFJC α

/-- `src/physics/single_chain/ufjc/log_squared/thermodynamics/mod.rs` lines 38-49. -/
def LOGSQUAREDFJC.init (number_of_links : Nat) (link_length : α) (hinge_mass : α) (link_stiffness : α) : Polymers.ufjc.log_squared.thermodynamics.LOGSQUAREDFJC α :=
  { hinge_mass := hinge_mass, link_length := link_length, number_of_links := number_of_links, link_stiffness := link_stiffness, isometric := Polymers.ufjc.log_squared.thermodynamics.isometric.LOGSQUAREDFJC.init number_of_links link_length hinge_mass link_stiffness, isotensional := Polymers.ufjc.log_squared.thermodynamics.isotensional.LOGSQUAREDFJC.init number_of_links link_length hinge_mass link_stiffness }

end Polymers.ufjc.log_squared.thermodynamics

namespace Polymers.ufjc.log_squared

/-- `src/physics/single_chain/ufjc/log_squared/mod.rs` lines 10-26: struct `LOGSQUAREDFJC`. -/
structure LOGSQUAREDFJC (α : Type) where
  /-- field `hinge_mass` -/
  hinge_mass : α
  /-- field `link_length` -/
  link_length : α
  /-- field `number_of_links` -/
  number_of_links : Nat
  /-- field `link_stiffness` -/
  link_stiffness : α
  /-- field `thermodynamics` -/
  thermodynamics : Polymers.ufjc.log_squared.thermodynamics.LOGSQUAREDFJC α

/-- `src/physics/single_chain/ufjc/log_squared/mod.rs` lines 32-42. -/
def LOGSQUAREDFJC.init (number_of_links : Nat) (link_length : α) (hinge_mass : α) (link_stiffness : α) : Polymers.ufjc.log_squared.LOGSQUAREDFJC α :=
  { hinge_mass := hinge_mass, link_length := link_length, number_of_links := number_of_links, link_stiffness := link_stiffness, thermodynamics := Polymers.ufjc.log_squared.thermodynamics.LOGSQUAREDFJC.init number_of_links link_length hinge_mass link_stiffness }

end Polymers.ufjc.log_squared
