/- Generated by tools/rust2lean.py from /repo/src/physics/single_chain/ufjc/lennard_jones ; do not edit by hand. -/
import Verif.Model.Math

set_option linter.unusedVariables false

open Polymers

variable {α : Type} [Add α] [Sub α] [Mul α] [Div α] [Neg α] [OfScientific α] [NatCast α] [Elem α]

namespace Polymers.ufjc.lennard_jones.thermodynamics.isometric.asymptotic.reduced.legendre

/-- `src/physics/single_chain/ufjc/lennard_jones/thermodynamics/isometric/asymptotic/reduced/legendre/mod.rs` lines 24-37: struct `LENNARDJONESFJC`. -/
structure LENNARDJONESFJC (α : Type) where
  /-- field `hinge_mass` -/
  hinge_mass : α
  /-- field `link_length` -/
  link_length : α
  /-- field `number_of_links` -/
  number_of_links : Nat
  /-- field `link_stiffness` -/
  link_stiffness : α

end Polymers.ufjc.lennard_jones.thermodynamics.isometric.asymptotic.reduced.legendre

namespace Polymers.ufjc.lennard_jones.thermodynamics

/-- `src/physics/single_chain/ufjc/lennard_jones/thermodynamics/mod.rs` lines 54-57. -/
def nondimensional_link_stretch (nondimensional_link_stiffness : α) (nondimensional_force : α) : α :=
  Polymers.math.inverse_newton_raphson (6.0 * nondimensional_force / nondimensional_link_stiffness) (fun (x : α) => Elem.powi x (-7) - Elem.powi x (-13)) (fun (x : α) => 13.0 * Elem.powi x (-14) - 7.0 * Elem.powi x (-8)) 1.0 1e-6 100

end Polymers.ufjc.lennard_jones.thermodynamics

namespace Polymers.ufjc.lennard_jones.thermodynamics.isometric.asymptotic.reduced.legendre

/-- `src/physics/single_chain/ufjc/lennard_jones/thermodynamics/isometric/asymptotic/reduced/legendre/mod.rs` lines 46-63. -/
def nondimensional_force (nondimensional_link_stiffness : α) (nondimensional_end_to_end_length_per_link : α) : α :=
  let lambda_max : α := Elem.powf (13.0 / 7.0) (1.0 / 6.0)
  let nondimensional_force_max : α := nondimensional_link_stiffness / 6.0 * (Elem.powi lambda_max (-7) - Elem.powi lambda_max (-13))
  let guess : α := if Elem.lt nondimensional_end_to_end_length_per_link 1.0 then (Polymers.math.inverse_langevin nondimensional_end_to_end_length_per_link) else (0.95 * nondimensional_force_max)
  let guess : α := if Elem.lt nondimensional_force_max guess then 0.95 * nondimensional_force_max else guess
  Polymers.math.inverse_newton_raphson_powered nondimensional_end_to_end_length_per_link (fun (nondimensional_force : α) => 1.0 / Elem.tanh nondimensional_force - 1.0 / nondimensional_force + Polymers.ufjc.lennard_jones.thermodynamics.nondimensional_link_stretch nondimensional_link_stiffness nondimensional_force - 1.0) (fun (nondimensional_force : α) => 1.0 / Elem.powi nondimensional_force 2 - 1.0 / Elem.powi (Elem.sinh nondimensional_force) 2 + (Polymers.ufjc.lennard_jones.thermodynamics.nondimensional_link_stretch nondimensional_link_stiffness (nondimensional_force + 1e-6) - Polymers.ufjc.lennard_jones.thermodynamics.nondimensional_link_stretch nondimensional_link_stiffness (nondimensional_force - 1e-6)) / 2e-6) guess 1e-6 100 4

/-- `src/physics/single_chain/ufjc/lennard_jones/thermodynamics/isometric/asymptotic/reduced/legendre/mod.rs` lines 40-43. -/
def force (number_of_links : Nat) (link_length : α) (link_stiffness : α) (end_to_end_length : α) (temperature : α) : α :=
  (Polymers.BOLTZMANN_CONSTANT : α) * temperature / link_length * Polymers.ufjc.lennard_jones.thermodynamics.isometric.asymptotic.reduced.legendre.nondimensional_force (link_stiffness * Elem.powi link_length 2 / (Polymers.BOLTZMANN_CONSTANT : α) / temperature) (end_to_end_length / ((number_of_links : α) * link_length))

/-- `src/physics/single_chain/ufjc/lennard_jones/thermodynamics/isometric/asymptotic/reduced/legendre/mod.rs` lines 96-101. -/
def nondimensional_helmholtz_free_energy_per_link (number_of_links : Nat) (link_length : α) (hinge_mass : α) (nondimensional_link_stiffness : α) (nondimensional_end_to_end_length_per_link : α) (temperature : α) : α :=
  let nondimensional_force : α := Polymers.ufjc.lennard_jones.thermodynamics.isometric.asymptotic.reduced.legendre.nondimensional_force nondimensional_link_stiffness nondimensional_end_to_end_length_per_link
  let lambda : α := Polymers.ufjc.lennard_jones.thermodynamics.nondimensional_link_stretch nondimensional_link_stiffness nondimensional_force
  (-Elem.ln (Elem.sinh nondimensional_force / nondimensional_force)) + nondimensional_link_stiffness / 72.0 * (Elem.powi lambda (-12) - 2.0 * Elem.powi lambda (-6)) - nondimensional_force * (lambda - 1.0) + nondimensional_force * nondimensional_end_to_end_length_per_link - (1.0 - 1.0 / (number_of_links : α)) * (0.5 * Elem.ln (2.0 * (Elem.pi : α) * Elem.powi link_length 2 / nondimensional_link_stiffness) + Elem.ln (8.0 * Elem.powi (Elem.pi : α) 2 * hinge_mass * Elem.powi link_length 2 * (Polymers.BOLTZMANN_CONSTANT : α) * temperature / Elem.powi (Polymers.PLANCK_CONSTANT : α) 2))

/-- `src/physics/single_chain/ufjc/lennard_jones/thermodynamics/isometric/asymptotic/reduced/legendre/mod.rs` lines 90-93. -/
def nondimensional_helmholtz_free_energy (number_of_links : Nat) (link_length : α) (hinge_mass : α) (nondimensional_link_stiffness : α) (nondimensional_end_to_end_length_per_link : α) (temperature : α) : α :=
  (number_of_links : α) * Polymers.ufjc.lennard_jones.thermodynamics.isometric.asymptotic.reduced.legendre.nondimensional_helmholtz_free_energy_per_link number_of_links link_length hinge_mass nondimensional_link_stiffness nondimensional_end_to_end_length_per_link temperature

/-- `src/physics/single_chain/ufjc/lennard_jones/thermodynamics/isometric/asymptotic/reduced/legendre/mod.rs` lines 66-69. -/
def helmholtz_free_energy (number_of_links : Nat) (link_length : α) (hinge_mass : α) (link_stiffness : α) (end_to_end_length : α) (temperature : α) : α :=
  (Polymers.BOLTZMANN_CONSTANT : α) * temperature * Polymers.ufjc.lennard_jones.thermodynamics.isometric.asymptotic.reduced.legendre.nondimensional_helmholtz_free_energy number_of_links link_length hinge_mass (link_stiffness * Elem.powi link_length 2 / (Polymers.BOLTZMANN_CONSTANT : α) / temperature) (end_to_end_length / (number_of_links : α) / link_length) temperature

/-- `src/physics/single_chain/ufjc/lennard_jones/thermodynamics/isometric/asymptotic/reduced/legendre/mod.rs` lines 72-75. -/
def helmholtz_free_energy_per_link (number_of_links : Nat) (link_length : α) (hinge_mass : α) (link_stiffness : α) (end_to_end_length : α) (temperature : α) : α :=
  (Polymers.BOLTZMANN_CONSTANT : α) * temperature * Polymers.ufjc.lennard_jones.thermodynamics.isometric.asymptotic.reduced.legendre.nondimensional_helmholtz_free_energy_per_link number_of_links link_length hinge_mass (link_stiffness * Elem.powi link_length 2 / (Polymers.BOLTZMANN_CONSTANT : α) / temperature) (end_to_end_length / (number_of_links : α) / link_length) temperature

/-- `src/physics/single_chain/ufjc/lennard_jones/thermodynamics/isometric/asymptotic/reduced/legendre/mod.rs` lines 78-81. -/
def relative_helmholtz_free_energy (number_of_links : Nat) (link_length : α) (link_stiffness : α) (end_to_end_length : α) (temperature : α) : α :=
  Polymers.ufjc.lennard_jones.thermodynamics.isometric.asymptotic.reduced.legendre.helmholtz_free_energy number_of_links link_length 1.0 link_stiffness end_to_end_length temperature - Polymers.ufjc.lennard_jones.thermodynamics.isometric.asymptotic.reduced.legendre.helmholtz_free_energy number_of_links link_length 1.0 link_stiffness ((Polymers.ZERO : α) * (number_of_links : α) * link_length) temperature

/-- `src/physics/single_chain/ufjc/lennard_jones/thermodynamics/isometric/asymptotic/reduced/legendre/mod.rs` lines 84-87. -/
def relative_helmholtz_free_energy_per_link (number_of_links : Nat) (link_length : α) (link_stiffness : α) (end_to_end_length : α) (temperature : α) : α :=
  Polymers.ufjc.lennard_jones.thermodynamics.isometric.asymptotic.reduced.legendre.helmholtz_free_energy_per_link number_of_links link_length 1.0 link_stiffness end_to_end_length temperature - Polymers.ufjc.lennard_jones.thermodynamics.isometric.asymptotic.reduced.legendre.helmholtz_free_energy_per_link number_of_links link_length 1.0 link_stiffness ((Polymers.ZERO : α) * (number_of_links : α) * link_length) temperature

/-- `src/physics/single_chain/ufjc/lennard_jones/thermodynamics/isometric/asymptotic/reduced/legendre/mod.rs` lines 104-107. -/
def nondimensional_relative_helmholtz_free_energy (number_of_links : Nat) (nondimensional_link_stiffness : α) (nondimensional_end_to_end_length_per_link : α) : α :=
  Polymers.ufjc.lennard_jones.thermodynamics.isometric.asymptotic.reduced.legendre.nondimensional_helmholtz_free_energy number_of_links 1.0 1.0 nondimensional_link_stiffness nondimensional_end_to_end_length_per_link 300.0 - Polymers.ufjc.lennard_jones.thermodynamics.isometric.asymptotic.reduced.legendre.nondimensional_helmholtz_free_energy number_of_links 1.0 1.0 nondimensional_link_stiffness (Polymers.ZERO : α) 300.0

/-- `src/physics/single_chain/ufjc/lennard_jones/thermodynamics/isometric/asymptotic/reduced/legendre/mod.rs` lines 110-113. -/
def nondimensional_relative_helmholtz_free_energy_per_link (nondimensional_link_stiffness : α) (nondimensional_end_to_end_length_per_link : α) : α :=
  Polymers.ufjc.lennard_jones.thermodynamics.isometric.asymptotic.reduced.legendre.nondimensional_helmholtz_free_energy_per_link 8 1.0 1.0 nondimensional_link_stiffness nondimensional_end_to_end_length_per_link 300.0 - Polymers.ufjc.lennard_jones.thermodynamics.isometric.asymptotic.reduced.legendre.nondimensional_helmholtz_free_energy_per_link 8 1.0 1.0 nondimensional_link_stiffness (Polymers.ZERO : α) 300.0

/-- `src/physics/single_chain/ufjc/lennard_jones/thermodynamics/isometric/asymptotic/reduced/legendre/mod.rs` lines 119-128. -/
def LENNARDJONESFJC.init (number_of_links : Nat) (link_length : α) (hinge_mass : α) (link_stiffness : α) : Polymers.ufjc.lennard_jones.thermodynamics.isometric.asymptotic.reduced.legendre.LENNARDJONESFJC α :=
  { hinge_mass := hinge_mass, link_length := link_length, number_of_links := number_of_links, link_stiffness := link_stiffness }

/-- `src/physics/single_chain/ufjc/lennard_jones/thermodynamics/isometric/asymptotic/reduced/legendre/mod.rs` lines 130-133. -/
def LENNARDJONESFJC.force (self : Polymers.ufjc.lennard_jones.thermodynamics.isometric.asymptotic.reduced.legendre.LENNARDJONESFJC α) (end_to_end_length : α) (temperature : α) : α :=
  Polymers.ufjc.lennard_jones.thermodynamics.isometric.asymptotic.reduced.legendre.force self.number_of_links self.link_length self.link_stiffness end_to_end_length temperature

/-- `src/physics/single_chain/ufjc/lennard_jones/thermodynamics/isometric/asymptotic/reduced/legendre/mod.rs` lines 135-138. -/
def LENNARDJONESFJC.nondimensional_force (self : Polymers.ufjc.lennard_jones.thermodynamics.isometric.asymptotic.reduced.legendre.LENNARDJONESFJC α) (nondimensional_end_to_end_length_per_link : α) (temperature : α) : α :=
  Polymers.ufjc.lennard_jones.thermodynamics.isometric.asymptotic.reduced.legendre.nondimensional_force (self.link_stiffness * Elem.powi self.link_length 2 / (Polymers.BOLTZMANN_CONSTANT : α) / temperature) nondimensional_end_to_end_length_per_link

/-- `src/physics/single_chain/ufjc/lennard_jones/thermodynamics/isometric/asymptotic/reduced/legendre/mod.rs` lines 140-143. -/
def LENNARDJONESFJC.helmholtz_free_energy (self : Polymers.ufjc.lennard_jones.thermodynamics.isometric.asymptotic.reduced.legendre.LENNARDJONESFJC α) (end_to_end_length : α) (temperature : α) : α :=
  Polymers.ufjc.lennard_jones.thermodynamics.isometric.asymptotic.reduced.legendre.helmholtz_free_energy self.number_of_links self.link_length self.hinge_mass self.link_stiffness end_to_end_length temperature

/-- `src/physics/single_chain/ufjc/lennard_jones/thermodynamics/isometric/asymptotic/reduced/legendre/mod.rs` lines 145-148. -/
def LENNARDJONESFJC.helmholtz_free_energy_per_link (self : Polymers.ufjc.lennard_jones.thermodynamics.isometric.asymptotic.reduced.legendre.LENNARDJONESFJC α) (end_to_end_length : α) (temperature : α) : α :=
  Polymers.ufjc.lennard_jones.thermodynamics.isometric.asymptotic.reduced.legendre.helmholtz_free_energy_per_link self.number_of_links self.link_length self.hinge_mass self.link_stiffness end_to_end_length temperature

/-- `src/physics/single_chain/ufjc/lennard_jones/thermodynamics/isometric/asymptotic/reduced/legendre/mod.rs` lines 150-153. -/
def LENNARDJONESFJC.relative_helmholtz_free_energy (self : Polymers.ufjc.lennard_jones.thermodynamics.isometric.asymptotic.reduced.legendre.LENNARDJONESFJC α) (end_to_end_length : α) (temperature : α) : α :=
  Polymers.ufjc.lennard_jones.thermodynamics.isometric.asymptotic.reduced.legendre.relative_helmholtz_free_energy self.number_of_links self.link_length self.link_stiffness end_to_end_length temperature

/-- `src/physics/single_chain/ufjc/lennard_jones/thermodynamics/isometric/asymptotic/reduced/legendre/mod.rs` lines 155-158. -/
def LENNARDJONESFJC.relative_helmholtz_free_energy_per_link (self : Polymers.ufjc.lennard_jones.thermodynamics.isometric.asymptotic.reduced.legendre.LENNARDJONESFJC α) (end_to_end_length : α) (temperature : α) : α :=
  Polymers.ufjc.lennard_jones.thermodynamics.isometric.asymptotic.reduced.legendre.relative_helmholtz_free_energy_per_link self.number_of_links self.link_length self.link_stiffness end_to_end_length temperature

/-- `src/physics/single_chain/ufjc/lennard_jones/thermodynamics/isometric/asymptotic/reduced/legendre/mod.rs` lines 160-163. -/
def LENNARDJONESFJC.nondimensional_helmholtz_free_energy (self : Polymers.ufjc.lennard_jones.thermodynamics.isometric.asymptotic.reduced.legendre.LENNARDJONESFJC α) (nondimensional_end_to_end_length_per_link : α) (temperature : α) : α :=
  Polymers.ufjc.lennard_jones.thermodynamics.isometric.asymptotic.reduced.legendre.nondimensional_helmholtz_free_energy self.number_of_links self.link_length self.hinge_mass (self.link_stiffness * Elem.powi self.link_length 2 / (Polymers.BOLTZMANN_CONSTANT : α) / temperature) nondimensional_end_to_end_length_per_link temperature

/-- `src/physics/single_chain/ufjc/lennard_jones/thermodynamics/isometric/asymptotic/reduced/legendre/mod.rs` lines 165-168. -/
def LENNARDJONESFJC.nondimensional_helmholtz_free_energy_per_link (self : Polymers.ufjc.lennard_jones.thermodynamics.isometric.asymptotic.reduced.legendre.LENNARDJONESFJC α) (nondimensional_end_to_end_length_per_link : α) (temperature : α) : α :=
  Polymers.ufjc.lennard_jones.thermodynamics.isometric.asymptotic.reduced.legendre.nondimensional_helmholtz_free_energy_per_link self.number_of_links self.link_length self.hinge_mass (self.link_stiffness * Elem.powi self.link_length 2 / (Polymers.BOLTZMANN_CONSTANT : α) / temperature) nondimensional_end_to_end_length_per_link temperature

/-- `src/physics/single_chain/ufjc/lennard_jones/thermodynamics/isometric/asymptotic/reduced/legendre/mod.rs` lines 170-173. -/
def LENNARDJONESFJC.nondimensional_relative_helmholtz_free_energy (self : Polymers.ufjc.lennard_jones.thermodynamics.isometric.asymptotic.reduced.legendre.LENNARDJONESFJC α) (nondimensional_end_to_end_length_per_link : α) (temperature : α) : α :=
  Polymers.ufjc.lennard_jones.thermodynamics.isometric.asymptotic.reduced.legendre.nondimensional_relative_helmholtz_free_energy self.number_of_links (self.link_stiffness * Elem.powi self.link_length 2 / (Polymers.BOLTZMANN_CONSTANT : α) / temperature) nondimensional_end_to_end_length_per_link

/-- `src/physics/single_chain/ufjc/lennard_jones/thermodynamics/isometric/asymptotic/reduced/legendre/mod.rs` lines 175-178. -/
def LENNARDJONESFJC.nondimensional_relative_helmholtz_free_energy_per_link (self : Polymers.ufjc.lennard_jones.thermodynamics.isometric.asymptotic.reduced.legendre.LENNARDJONESFJC α) (nondimensional_end_to_end_length_per_link : α) (temperature : α) : α :=
  Polymers.ufjc.lennard_jones.thermodynamics.isometric.asymptotic.reduced.legendre.nondimensional_relative_helmholtz_free_energy_per_link (self.link_stiffness * Elem.powi self.link_length 2 / (Polymers.BOLTZMANN_CONSTANT : α) / temperature) nondimensional_end_to_end_length_per_link

end Polymers.ufjc.lennard_jones.thermodynamics.isometric.asymptotic.reduced.legendre

namespace Polymers.ufjc.lennard_jones.thermodynamics.isotensional.asymptotic.reduced.legendre

/-- `src/physics/single_chain/ufjc/lennard_jones/thermodynamics/isotensional/asymptotic/reduced/legendre/mod.rs` lines 19-32: struct `LENNARDJONESFJC`. -/
structure LENNARDJONESFJC (α : Type) where
  /-- field `hinge_mass` -/
  hinge_mass : α
  /-- field `link_length` -/
  link_length : α
  /-- field `number_of_links` -/
  number_of_links : Nat
  /-- field `link_stiffness` -/
  link_stiffness : α

/-- `src/physics/single_chain/ufjc/lennard_jones/thermodynamics/isotensional/asymptotic/reduced/legendre/mod.rs` lines 65-69. -/
def nondimensional_helmholtz_free_energy_per_link (link_length : α) (hinge_mass : α) (nondimensional_link_stiffness : α) (nondimensional_force : α) (temperature : α) : α :=
  let lambda : α := Polymers.ufjc.lennard_jones.thermodynamics.nondimensional_link_stretch nondimensional_link_stiffness nondimensional_force
  (-Elem.ln (Elem.sinh nondimensional_force / nondimensional_force)) + nondimensional_link_stiffness / 72.0 * (Elem.powi lambda (-12) - 2.0 * Elem.powi lambda (-6)) - 0.5 * Elem.ln (2.0 * (Elem.pi : α) * Elem.powi link_length 2 / nondimensional_link_stiffness) - Elem.ln (8.0 * Elem.powi (Elem.pi : α) 2 * hinge_mass * Elem.powi link_length 2 * (Polymers.BOLTZMANN_CONSTANT : α) * temperature / Elem.powi (Polymers.PLANCK_CONSTANT : α) 2) + nondimensional_force / Elem.tanh nondimensional_force - 1.0

/-- `src/physics/single_chain/ufjc/lennard_jones/thermodynamics/isotensional/asymptotic/reduced/legendre/mod.rs` lines 59-62. -/
def nondimensional_helmholtz_free_energy (number_of_links : Nat) (link_length : α) (hinge_mass : α) (nondimensional_link_stiffness : α) (nondimensional_force : α) (temperature : α) : α :=
  (number_of_links : α) * Polymers.ufjc.lennard_jones.thermodynamics.isotensional.asymptotic.reduced.legendre.nondimensional_helmholtz_free_energy_per_link link_length hinge_mass nondimensional_link_stiffness nondimensional_force temperature

/-- `src/physics/single_chain/ufjc/lennard_jones/thermodynamics/isotensional/asymptotic/reduced/legendre/mod.rs` lines 35-38. -/
def helmholtz_free_energy (number_of_links : Nat) (link_length : α) (hinge_mass : α) (link_stiffness : α) (force : α) (temperature : α) : α :=
  (Polymers.BOLTZMANN_CONSTANT : α) * temperature * Polymers.ufjc.lennard_jones.thermodynamics.isotensional.asymptotic.reduced.legendre.nondimensional_helmholtz_free_energy number_of_links link_length hinge_mass (link_stiffness * Elem.powi link_length 2 / (Polymers.BOLTZMANN_CONSTANT : α) / temperature) (force / (Polymers.BOLTZMANN_CONSTANT : α) / temperature * link_length) temperature

/-- `src/physics/single_chain/ufjc/lennard_jones/thermodynamics/isotensional/asymptotic/reduced/legendre/mod.rs` lines 41-44. -/
def helmholtz_free_energy_per_link (link_length : α) (hinge_mass : α) (link_stiffness : α) (force : α) (temperature : α) : α :=
  (Polymers.BOLTZMANN_CONSTANT : α) * temperature * Polymers.ufjc.lennard_jones.thermodynamics.isotensional.asymptotic.reduced.legendre.nondimensional_helmholtz_free_energy_per_link link_length hinge_mass (link_stiffness * Elem.powi link_length 2 / (Polymers.BOLTZMANN_CONSTANT : α) / temperature) (force / (Polymers.BOLTZMANN_CONSTANT : α) / temperature * link_length) temperature

/-- `src/physics/single_chain/ufjc/lennard_jones/thermodynamics/isotensional/asymptotic/reduced/legendre/mod.rs` lines 47-50. -/
def relative_helmholtz_free_energy (number_of_links : Nat) (link_length : α) (link_stiffness : α) (force : α) (temperature : α) : α :=
  Polymers.ufjc.lennard_jones.thermodynamics.isotensional.asymptotic.reduced.legendre.helmholtz_free_energy number_of_links link_length 1.0 link_stiffness force temperature - Polymers.ufjc.lennard_jones.thermodynamics.isotensional.asymptotic.reduced.legendre.helmholtz_free_energy number_of_links link_length 1.0 link_stiffness ((Polymers.ZERO : α) * (Polymers.BOLTZMANN_CONSTANT : α) * temperature / link_length) temperature

/-- `src/physics/single_chain/ufjc/lennard_jones/thermodynamics/isotensional/asymptotic/reduced/legendre/mod.rs` lines 53-56. -/
def relative_helmholtz_free_energy_per_link (link_length : α) (link_stiffness : α) (force : α) (temperature : α) : α :=
  Polymers.ufjc.lennard_jones.thermodynamics.isotensional.asymptotic.reduced.legendre.helmholtz_free_energy_per_link link_length 1.0 link_stiffness force temperature - Polymers.ufjc.lennard_jones.thermodynamics.isotensional.asymptotic.reduced.legendre.helmholtz_free_energy_per_link link_length 1.0 link_stiffness ((Polymers.ZERO : α) * (Polymers.BOLTZMANN_CONSTANT : α) * temperature / link_length) temperature

/-- `src/physics/single_chain/ufjc/lennard_jones/thermodynamics/isotensional/asymptotic/reduced/legendre/mod.rs` lines 72-75. -/
def nondimensional_relative_helmholtz_free_energy (number_of_links : Nat) (nondimensional_link_stiffness : α) (nondimensional_force : α) : α :=
  Polymers.ufjc.lennard_jones.thermodynamics.isotensional.asymptotic.reduced.legendre.nondimensional_helmholtz_free_energy number_of_links 1.0 1.0 nondimensional_link_stiffness nondimensional_force 300.0 - Polymers.ufjc.lennard_jones.thermodynamics.isotensional.asymptotic.reduced.legendre.nondimensional_helmholtz_free_energy number_of_links 1.0 1.0 nondimensional_link_stiffness (Polymers.ZERO : α) 300.0

/-- `src/physics/single_chain/ufjc/lennard_jones/thermodynamics/isotensional/asymptotic/reduced/legendre/mod.rs` lines 78-81. -/
def nondimensional_relative_helmholtz_free_energy_per_link (nondimensional_link_stiffness : α) (nondimensional_force : α) : α :=
  Polymers.ufjc.lennard_jones.thermodynamics.isotensional.asymptotic.reduced.legendre.nondimensional_helmholtz_free_energy_per_link 1.0 1.0 nondimensional_link_stiffness nondimensional_force 300.0 - Polymers.ufjc.lennard_jones.thermodynamics.isotensional.asymptotic.reduced.legendre.nondimensional_helmholtz_free_energy_per_link 1.0 1.0 nondimensional_link_stiffness (Polymers.ZERO : α) 300.0

/-- `src/physics/single_chain/ufjc/lennard_jones/thermodynamics/isotensional/asymptotic/reduced/legendre/mod.rs` lines 87-96. -/
def LENNARDJONESFJC.init (number_of_links : Nat) (link_length : α) (hinge_mass : α) (link_stiffness : α) : Polymers.ufjc.lennard_jones.thermodynamics.isotensional.asymptotic.reduced.legendre.LENNARDJONESFJC α :=
  { hinge_mass := hinge_mass, link_length := link_length, number_of_links := number_of_links, link_stiffness := link_stiffness }

/-- `src/physics/single_chain/ufjc/lennard_jones/thermodynamics/isotensional/asymptotic/reduced/legendre/mod.rs` lines 98-101. -/
def LENNARDJONESFJC.helmholtz_free_energy (self : Polymers.ufjc.lennard_jones.thermodynamics.isotensional.asymptotic.reduced.legendre.LENNARDJONESFJC α) (force : α) (temperature : α) : α :=
  Polymers.ufjc.lennard_jones.thermodynamics.isotensional.asymptotic.reduced.legendre.helmholtz_free_energy self.number_of_links self.link_length self.hinge_mass self.link_stiffness force temperature

/-- `src/physics/single_chain/ufjc/lennard_jones/thermodynamics/isotensional/asymptotic/reduced/legendre/mod.rs` lines 103-106. -/
def LENNARDJONESFJC.helmholtz_free_energy_per_link (self : Polymers.ufjc.lennard_jones.thermodynamics.isotensional.asymptotic.reduced.legendre.LENNARDJONESFJC α) (force : α) (temperature : α) : α :=
  Polymers.ufjc.lennard_jones.thermodynamics.isotensional.asymptotic.reduced.legendre.helmholtz_free_energy_per_link self.link_length self.hinge_mass self.link_stiffness force temperature

/-- `src/physics/single_chain/ufjc/lennard_jones/thermodynamics/isotensional/asymptotic/reduced/legendre/mod.rs` lines 108-111. -/
def LENNARDJONESFJC.relative_helmholtz_free_energy (self : Polymers.ufjc.lennard_jones.thermodynamics.isotensional.asymptotic.reduced.legendre.LENNARDJONESFJC α) (force : α) (temperature : α) : α :=
  Polymers.ufjc.lennard_jones.thermodynamics.isotensional.asymptotic.reduced.legendre.relative_helmholtz_free_energy self.number_of_links self.link_length self.link_stiffness force temperature

/-- `src/physics/single_chain/ufjc/lennard_jones/thermodynamics/isotensional/asymptotic/reduced/legendre/mod.rs` lines 113-116. -/
def LENNARDJONESFJC.relative_helmholtz_free_energy_per_link (self : Polymers.ufjc.lennard_jones.thermodynamics.isotensional.asymptotic.reduced.legendre.LENNARDJONESFJC α) (force : α) (temperature : α) : α :=
  Polymers.ufjc.lennard_jones.thermodynamics.isotensional.asymptotic.reduced.legendre.relative_helmholtz_free_energy_per_link self.link_length self.link_stiffness force temperature

/-- `src/physics/single_chain/ufjc/lennard_jones/thermodynamics/isotensional/asymptotic/reduced/legendre/mod.rs` lines 118-121. -/
def LENNARDJONESFJC.nondimensional_helmholtz_free_energy (self : Polymers.ufjc.lennard_jones.thermodynamics.isotensional.asymptotic.reduced.legendre.LENNARDJONESFJC α) (nondimensional_force : α) (temperature : α) : α :=
  Polymers.ufjc.lennard_jones.thermodynamics.isotensional.asymptotic.reduced.legendre.nondimensional_helmholtz_free_energy self.number_of_links self.link_length self.hinge_mass (self.link_stiffness * Elem.powi self.link_length 2 / (Polymers.BOLTZMANN_CONSTANT : α) / temperature) nondimensional_force temperature

/-- `src/physics/single_chain/ufjc/lennard_jones/thermodynamics/isotensional/asymptotic/reduced/legendre/mod.rs` lines 123-126. -/
def LENNARDJONESFJC.nondimensional_helmholtz_free_energy_per_link (self : Polymers.ufjc.lennard_jones.thermodynamics.isotensional.asymptotic.reduced.legendre.LENNARDJONESFJC α) (nondimensional_force : α) (temperature : α) : α :=
  Polymers.ufjc.lennard_jones.thermodynamics.isotensional.asymptotic.reduced.legendre.nondimensional_helmholtz_free_energy_per_link self.link_length self.hinge_mass (self.link_stiffness * Elem.powi self.link_length 2 / (Polymers.BOLTZMANN_CONSTANT : α) / temperature) nondimensional_force temperature

/-- `src/physics/single_chain/ufjc/lennard_jones/thermodynamics/isotensional/asymptotic/reduced/legendre/mod.rs` lines 128-131. -/
def LENNARDJONESFJC.nondimensional_relative_helmholtz_free_energy (self : Polymers.ufjc.lennard_jones.thermodynamics.isotensional.asymptotic.reduced.legendre.LENNARDJONESFJC α) (nondimensional_force : α) (temperature : α) : α :=
  Polymers.ufjc.lennard_jones.thermodynamics.isotensional.asymptotic.reduced.legendre.nondimensional_relative_helmholtz_free_energy self.number_of_links (self.link_stiffness * Elem.powi self.link_length 2 / (Polymers.BOLTZMANN_CONSTANT : α) / temperature) nondimensional_force

/-- `src/physics/single_chain/ufjc/lennard_jones/thermodynamics/isotensional/asymptotic/reduced/legendre/mod.rs` lines 133-136. -/
def LENNARDJONESFJC.nondimensional_relative_helmholtz_free_energy_per_link (self : Polymers.ufjc.lennard_jones.thermodynamics.isotensional.asymptotic.reduced.legendre.LENNARDJONESFJC α) (nondimensional_force : α) (temperature : α) : α :=
  Polymers.ufjc.lennard_jones.thermodynamics.isotensional.asymptotic.reduced.legendre.nondimensional_relative_helmholtz_free_energy_per_link (self.link_stiffness * Elem.powi self.link_length 2 / (Polymers.BOLTZMANN_CONSTANT : α) / temperature) nondimensional_force

end Polymers.ufjc.lennard_jones.thermodynamics.isotensional.asymptotic.reduced.legendre

namespace Polymers.ufjc.lennard_jones.thermodynamics.isometric.asymptotic.legendre

/-- `src/physics/single_chain/ufjc/lennard_jones/thermodynamics/isometric/asymptotic/legendre/mod.rs` lines 24-37: struct `LENNARDJONESFJC`. -/
structure LENNARDJONESFJC (α : Type) where
  /-- field `hinge_mass` -/
  hinge_mass : α
  /-- field `link_length` -/
  link_length : α
  /-- field `number_of_links` -/
  number_of_links : Nat
  /-- field `link_stiffness` -/
  link_stiffness : α

/-- `src/physics/single_chain/ufjc/lennard_jones/thermodynamics/isometric/asymptotic/legendre/mod.rs` lines 46-64. -/
def nondimensional_force (nondimensional_link_stiffness : α) (nondimensional_end_to_end_length_per_link : α) : α :=
  let c : α := 2.0 / 23.0
  let lambda_max : α := Elem.powf (13.0 / 7.0) (1.0 / 6.0)
  let nondimensional_force_max : α := nondimensional_link_stiffness / 6.0 * (Elem.powi lambda_max (-7) - Elem.powi lambda_max (-13))
  let guess : α := if Elem.lt nondimensional_end_to_end_length_per_link 1.0 then (Polymers.math.inverse_langevin nondimensional_end_to_end_length_per_link) else (0.95 * nondimensional_force_max)
  let guess : α := if Elem.lt nondimensional_force_max guess then 0.95 * nondimensional_force_max else guess
  Polymers.math.inverse_newton_raphson_powered nondimensional_end_to_end_length_per_link (fun (nondimensional_force : α) => 1.0 / Elem.tanh nondimensional_force - 1.0 / nondimensional_force + nondimensional_force / nondimensional_link_stiffness * ((Elem.tanh nondimensional_force - 1.0 / Elem.tanh nondimensional_force + 1.0 / nondimensional_force) / (c * Elem.tanh nondimensional_force + nondimensional_force / nondimensional_link_stiffness)) + Polymers.ufjc.lennard_jones.thermodynamics.nondimensional_link_stretch nondimensional_link_stiffness nondimensional_force - 1.0) (fun (nondimensional_force : α) => 1.0 / Elem.powi nondimensional_force 2 - 1.0 / Elem.powi (Elem.sinh nondimensional_force) 2 + ((2.0 * c * nondimensional_link_stiffness * nondimensional_force / Elem.tanh nondimensional_force - 2.0 * c * nondimensional_link_stiffness + 2.0 * Elem.powi nondimensional_force 2 - 1.0) / Elem.powi (Elem.sinh nondimensional_force) 2 + Elem.powi nondimensional_force 2 / Elem.powi (Elem.sinh nondimensional_force) 4 - 1.0) / Elem.powi (c * nondimensional_link_stiffness + nondimensional_force / Elem.tanh nondimensional_force) 2 + (Polymers.ufjc.lennard_jones.thermodynamics.nondimensional_link_stretch nondimensional_link_stiffness (nondimensional_force + 1e-6) - Polymers.ufjc.lennard_jones.thermodynamics.nondimensional_link_stretch nondimensional_link_stiffness (nondimensional_force - 1e-6)) / 2e-6) guess 1e-6 100 4

/-- `src/physics/single_chain/ufjc/lennard_jones/thermodynamics/isometric/asymptotic/legendre/mod.rs` lines 40-43. -/
def force (number_of_links : Nat) (link_length : α) (link_stiffness : α) (end_to_end_length : α) (temperature : α) : α :=
  (Polymers.BOLTZMANN_CONSTANT : α) * temperature / link_length * Polymers.ufjc.lennard_jones.thermodynamics.isometric.asymptotic.legendre.nondimensional_force (link_stiffness * Elem.powi link_length 2 / (Polymers.BOLTZMANN_CONSTANT : α) / temperature) (end_to_end_length / ((number_of_links : α) * link_length))

/-- `src/physics/single_chain/ufjc/lennard_jones/thermodynamics/isometric/asymptotic/legendre/mod.rs` lines 97-102. -/
def nondimensional_helmholtz_free_energy_per_link (number_of_links : Nat) (link_length : α) (hinge_mass : α) (nondimensional_link_stiffness : α) (nondimensional_end_to_end_length_per_link : α) (temperature : α) : α :=
  let nondimensional_force : α := Polymers.ufjc.lennard_jones.thermodynamics.isometric.asymptotic.legendre.nondimensional_force nondimensional_link_stiffness nondimensional_end_to_end_length_per_link
  let lambda : α := Polymers.ufjc.lennard_jones.thermodynamics.nondimensional_link_stretch nondimensional_link_stiffness nondimensional_force
  (-Elem.ln (Elem.sinh nondimensional_force / nondimensional_force)) - Elem.ln (1.0 + 23.0 / 2.0 * nondimensional_force / Elem.tanh nondimensional_force / nondimensional_link_stiffness) + nondimensional_link_stiffness / 72.0 * (Elem.powi lambda (-12) - 2.0 * Elem.powi lambda (-6)) - nondimensional_force * (lambda - 1.0) + nondimensional_force * nondimensional_end_to_end_length_per_link - (1.0 - 1.0 / (number_of_links : α)) * (0.5 * Elem.ln (2.0 * (Elem.pi : α) * Elem.powi link_length 2 / nondimensional_link_stiffness) + Elem.ln (8.0 * Elem.powi (Elem.pi : α) 2 * hinge_mass * Elem.powi link_length 2 * (Polymers.BOLTZMANN_CONSTANT : α) * temperature / Elem.powi (Polymers.PLANCK_CONSTANT : α) 2))

/-- `src/physics/single_chain/ufjc/lennard_jones/thermodynamics/isometric/asymptotic/legendre/mod.rs` lines 91-94. -/
def nondimensional_helmholtz_free_energy (number_of_links : Nat) (link_length : α) (hinge_mass : α) (nondimensional_link_stiffness : α) (nondimensional_end_to_end_length_per_link : α) (temperature : α) : α :=
  (number_of_links : α) * Polymers.ufjc.lennard_jones.thermodynamics.isometric.asymptotic.legendre.nondimensional_helmholtz_free_energy_per_link number_of_links link_length hinge_mass nondimensional_link_stiffness nondimensional_end_to_end_length_per_link temperature

/-- `src/physics/single_chain/ufjc/lennard_jones/thermodynamics/isometric/asymptotic/legendre/mod.rs` lines 67-70. -/
def helmholtz_free_energy (number_of_links : Nat) (link_length : α) (hinge_mass : α) (link_stiffness : α) (end_to_end_length : α) (temperature : α) : α :=
  (Polymers.BOLTZMANN_CONSTANT : α) * temperature * Polymers.ufjc.lennard_jones.thermodynamics.isometric.asymptotic.legendre.nondimensional_helmholtz_free_energy number_of_links link_length hinge_mass (link_stiffness * Elem.powi link_length 2 / (Polymers.BOLTZMANN_CONSTANT : α) / temperature) (end_to_end_length / (number_of_links : α) / link_length) temperature

/-- `src/physics/single_chain/ufjc/lennard_jones/thermodynamics/isometric/asymptotic/legendre/mod.rs` lines 73-76. -/
def helmholtz_free_energy_per_link (number_of_links : Nat) (link_length : α) (hinge_mass : α) (link_stiffness : α) (end_to_end_length : α) (temperature : α) : α :=
  (Polymers.BOLTZMANN_CONSTANT : α) * temperature * Polymers.ufjc.lennard_jones.thermodynamics.isometric.asymptotic.legendre.nondimensional_helmholtz_free_energy_per_link number_of_links link_length hinge_mass (link_stiffness * Elem.powi link_length 2 / (Polymers.BOLTZMANN_CONSTANT : α) / temperature) (end_to_end_length / (number_of_links : α) / link_length) temperature

/-- `src/physics/single_chain/ufjc/lennard_jones/thermodynamics/isometric/asymptotic/legendre/mod.rs` lines 79-82. -/
def relative_helmholtz_free_energy (number_of_links : Nat) (link_length : α) (link_stiffness : α) (end_to_end_length : α) (temperature : α) : α :=
  Polymers.ufjc.lennard_jones.thermodynamics.isometric.asymptotic.legendre.helmholtz_free_energy number_of_links link_length 1.0 link_stiffness end_to_end_length temperature - Polymers.ufjc.lennard_jones.thermodynamics.isometric.asymptotic.legendre.helmholtz_free_energy number_of_links link_length 1.0 link_stiffness ((Polymers.ZERO : α) * (number_of_links : α) * link_length) temperature

/-- `src/physics/single_chain/ufjc/lennard_jones/thermodynamics/isometric/asymptotic/legendre/mod.rs` lines 85-88. -/
def relative_helmholtz_free_energy_per_link (number_of_links : Nat) (link_length : α) (link_stiffness : α) (end_to_end_length : α) (temperature : α) : α :=
  Polymers.ufjc.lennard_jones.thermodynamics.isometric.asymptotic.legendre.helmholtz_free_energy_per_link number_of_links link_length 1.0 link_stiffness end_to_end_length temperature - Polymers.ufjc.lennard_jones.thermodynamics.isometric.asymptotic.legendre.helmholtz_free_energy_per_link number_of_links link_length 1.0 link_stiffness ((Polymers.ZERO : α) * (number_of_links : α) * link_length) temperature

/-- `src/physics/single_chain/ufjc/lennard_jones/thermodynamics/isometric/asymptotic/legendre/mod.rs` lines 105-108. -/
def nondimensional_relative_helmholtz_free_energy (number_of_links : Nat) (nondimensional_link_stiffness : α) (nondimensional_end_to_end_length_per_link : α) : α :=
  Polymers.ufjc.lennard_jones.thermodynamics.isometric.asymptotic.legendre.nondimensional_helmholtz_free_energy number_of_links 1.0 1.0 nondimensional_link_stiffness nondimensional_end_to_end_length_per_link 300.0 - Polymers.ufjc.lennard_jones.thermodynamics.isometric.asymptotic.legendre.nondimensional_helmholtz_free_energy number_of_links 1.0 1.0 nondimensional_link_stiffness (Polymers.ZERO : α) 300.0

/-- `src/physics/single_chain/ufjc/lennard_jones/thermodynamics/isometric/asymptotic/legendre/mod.rs` lines 111-114. -/
def nondimensional_relative_helmholtz_free_energy_per_link (nondimensional_link_stiffness : α) (nondimensional_end_to_end_length_per_link : α) : α :=
  Polymers.ufjc.lennard_jones.thermodynamics.isometric.asymptotic.legendre.nondimensional_helmholtz_free_energy_per_link 8 1.0 1.0 nondimensional_link_stiffness nondimensional_end_to_end_length_per_link 300.0 - Polymers.ufjc.lennard_jones.thermodynamics.isometric.asymptotic.legendre.nondimensional_helmholtz_free_energy_per_link 8 1.0 1.0 nondimensional_link_stiffness (Polymers.ZERO : α) 300.0

/-- `src/physics/single_chain/ufjc/lennard_jones/thermodynamics/isometric/asymptotic/legendre/mod.rs` lines 120-129. -/
def LENNARDJONESFJC.init (number_of_links : Nat) (link_length : α) (hinge_mass : α) (link_stiffness : α) : Polymers.ufjc.lennard_jones.thermodynamics.isometric.asymptotic.legendre.LENNARDJONESFJC α :=
  { hinge_mass := hinge_mass, link_length := link_length, number_of_links := number_of_links, link_stiffness := link_stiffness }

/-- `src/physics/single_chain/ufjc/lennard_jones/thermodynamics/isometric/asymptotic/legendre/mod.rs` lines 131-134. -/
def LENNARDJONESFJC.force (self : Polymers.ufjc.lennard_jones.thermodynamics.isometric.asymptotic.legendre.LENNARDJONESFJC α) (end_to_end_length : α) (temperature : α) : α :=
  Polymers.ufjc.lennard_jones.thermodynamics.isometric.asymptotic.legendre.force self.number_of_links self.link_length self.link_stiffness end_to_end_length temperature

/-- `src/physics/single_chain/ufjc/lennard_jones/thermodynamics/isometric/asymptotic/legendre/mod.rs` lines 136-139. -/
def LENNARDJONESFJC.nondimensional_force (self : Polymers.ufjc.lennard_jones.thermodynamics.isometric.asymptotic.legendre.LENNARDJONESFJC α) (nondimensional_end_to_end_length_per_link : α) (temperature : α) : α :=
  Polymers.ufjc.lennard_jones.thermodynamics.isometric.asymptotic.legendre.nondimensional_force (self.link_stiffness * Elem.powi self.link_length 2 / (Polymers.BOLTZMANN_CONSTANT : α) / temperature) nondimensional_end_to_end_length_per_link

/-- `src/physics/single_chain/ufjc/lennard_jones/thermodynamics/isometric/asymptotic/legendre/mod.rs` lines 141-144. -/
def LENNARDJONESFJC.helmholtz_free_energy (self : Polymers.ufjc.lennard_jones.thermodynamics.isometric.asymptotic.legendre.LENNARDJONESFJC α) (end_to_end_length : α) (temperature : α) : α :=
  Polymers.ufjc.lennard_jones.thermodynamics.isometric.asymptotic.legendre.helmholtz_free_energy self.number_of_links self.link_length self.hinge_mass self.link_stiffness end_to_end_length temperature

/-- `src/physics/single_chain/ufjc/lennard_jones/thermodynamics/isometric/asymptotic/legendre/mod.rs` lines 146-149. -/
def LENNARDJONESFJC.helmholtz_free_energy_per_link (self : Polymers.ufjc.lennard_jones.thermodynamics.isometric.asymptotic.legendre.LENNARDJONESFJC α) (end_to_end_length : α) (temperature : α) : α :=
  Polymers.ufjc.lennard_jones.thermodynamics.isometric.asymptotic.legendre.helmholtz_free_energy_per_link self.number_of_links self.link_length self.hinge_mass self.link_stiffness end_to_end_length temperature

/-- `src/physics/single_chain/ufjc/lennard_jones/thermodynamics/isometric/asymptotic/legendre/mod.rs` lines 151-154. -/
def LENNARDJONESFJC.relative_helmholtz_free_energy (self : Polymers.ufjc.lennard_jones.thermodynamics.isometric.asymptotic.legendre.LENNARDJONESFJC α) (end_to_end_length : α) (temperature : α) : α :=
  Polymers.ufjc.lennard_jones.thermodynamics.isometric.asymptotic.legendre.relative_helmholtz_free_energy self.number_of_links self.link_length self.link_stiffness end_to_end_length temperature

/-- `src/physics/single_chain/ufjc/lennard_jones/thermodynamics/isometric/asymptotic/legendre/mod.rs` lines 156-159. -/
def LENNARDJONESFJC.relative_helmholtz_free_energy_per_link (self : Polymers.ufjc.lennard_jones.thermodynamics.isometric.asymptotic.legendre.LENNARDJONESFJC α) (end_to_end_length : α) (temperature : α) : α :=
  Polymers.ufjc.lennard_jones.thermodynamics.isometric.asymptotic.legendre.relative_helmholtz_free_energy_per_link self.number_of_links self.link_length self.link_stiffness end_to_end_length temperature

/-- `src/physics/single_chain/ufjc/lennard_jones/thermodynamics/isometric/asymptotic/legendre/mod.rs` lines 161-164. -/
def LENNARDJONESFJC.nondimensional_helmholtz_free_energy (self : Polymers.ufjc.lennard_jones.thermodynamics.isometric.asymptotic.legendre.LENNARDJONESFJC α) (nondimensional_end_to_end_length_per_link : α) (temperature : α) : α :=
  Polymers.ufjc.lennard_jones.thermodynamics.isometric.asymptotic.legendre.nondimensional_helmholtz_free_energy self.number_of_links self.link_length self.hinge_mass (self.link_stiffness * Elem.powi self.link_length 2 / (Polymers.BOLTZMANN_CONSTANT : α) / temperature) nondimensional_end_to_end_length_per_link temperature

/-- `src/physics/single_chain/ufjc/lennard_jones/thermodynamics/isometric/asymptotic/legendre/mod.rs` lines 166-169. -/
def LENNARDJONESFJC.nondimensional_helmholtz_free_energy_per_link (self : Polymers.ufjc.lennard_jones.thermodynamics.isometric.asymptotic.legendre.LENNARDJONESFJC α) (nondimensional_end_to_end_length_per_link : α) (temperature : α) : α :=
  Polymers.ufjc.lennard_jones.thermodynamics.isometric.asymptotic.legendre.nondimensional_helmholtz_free_energy_per_link self.number_of_links self.link_length self.hinge_mass (self.link_stiffness * Elem.powi self.link_length 2 / (Polymers.BOLTZMANN_CONSTANT : α) / temperature) nondimensional_end_to_end_length_per_link temperature

/-- `src/physics/single_chain/ufjc/lennard_jones/thermodynamics/isometric/asymptotic/legendre/mod.rs` lines 171-174. -/
def LENNARDJONESFJC.nondimensional_relative_helmholtz_free_energy (self : Polymers.ufjc.lennard_jones.thermodynamics.isometric.asymptotic.legendre.LENNARDJONESFJC α) (nondimensional_end_to_end_length_per_link : α) (temperature : α) : α :=
  Polymers.ufjc.lennard_jones.thermodynamics.isometric.asymptotic.legendre.nondimensional_relative_helmholtz_free_energy self.number_of_links (self.link_stiffness * Elem.powi self.link_length 2 / (Polymers.BOLTZMANN_CONSTANT : α) / temperature) nondimensional_end_to_end_length_per_link

/-- `src/physics/single_chain/ufjc/lennard_jones/thermodynamics/isometric/asymptotic/legendre/mod.rs` lines 176-179. -/
def LENNARDJONESFJC.nondimensional_relative_helmholtz_free_energy_per_link (self : Polymers.ufjc.lennard_jones.thermodynamics.isometric.asymptotic.legendre.LENNARDJONESFJC α) (nondimensional_end_to_end_length_per_link : α) (temperature : α) : α :=
  Polymers.ufjc.lennard_jones.thermodynamics.isometric.asymptotic.legendre.nondimensional_relative_helmholtz_free_energy_per_link (self.link_stiffness * Elem.powi self.link_length 2 / (Polymers.BOLTZMANN_CONSTANT : α) / temperature) nondimensional_end_to_end_length_per_link

end Polymers.ufjc.lennard_jones.thermodynamics.isometric.asymptotic.legendre

namespace Polymers.ufjc.lennard_jones.thermodynamics.isometric.asymptotic.reduced

/-- `src/physics/single_chain/ufjc/lennard_jones/thermodynamics/isometric/asymptotic/reduced/mod.rs` lines 10-26: struct `LENNARDJONESFJC`. -/
structure LENNARDJONESFJC (α : Type) where
  /-- field `hinge_mass` -/
  hinge_mass : α
  /-- field `link_length` -/
  link_length : α
  /-- field `number_of_links` -/
  number_of_links : Nat
  /-- field `link_stiffness` -/
  link_stiffness : α
  /-- field `legendre` -/
  legendre : Polymers.ufjc.lennard_jones.thermodynamics.isometric.asymptotic.reduced.legendre.LENNARDJONESFJC α

/-- `src/physics/single_chain/ufjc/lennard_jones/thermodynamics/isometric/asymptotic/reduced/mod.rs` lines 32-42. -/
def LENNARDJONESFJC.init (number_of_links : Nat) (link_length : α) (hinge_mass : α) (link_stiffness : α) : Polymers.ufjc.lennard_jones.thermodynamics.isometric.asymptotic.reduced.LENNARDJONESFJC α :=
  { hinge_mass := hinge_mass, link_length := link_length, number_of_links := number_of_links, link_stiffness := link_stiffness, legendre := Polymers.ufjc.lennard_jones.thermodynamics.isometric.asymptotic.reduced.legendre.LENNARDJONESFJC.init number_of_links link_length hinge_mass link_stiffness }

end Polymers.ufjc.lennard_jones.thermodynamics.isometric.asymptotic.reduced

namespace Polymers.ufjc.lennard_jones.thermodynamics.isotensional.asymptotic.legendre

/-- `src/physics/single_chain/ufjc/lennard_jones/thermodynamics/isotensional/asymptotic/legendre/mod.rs` lines 19-32: struct `LENNARDJONESFJC`. -/
structure LENNARDJONESFJC (α : Type) where
  /-- field `hinge_mass` -/
  hinge_mass : α
  /-- field `link_length` -/
  link_length : α
  /-- field `number_of_links` -/
  number_of_links : Nat
  /-- field `link_stiffness` -/
  link_stiffness : α

/-- `src/physics/single_chain/ufjc/lennard_jones/thermodynamics/isotensional/asymptotic/legendre/mod.rs` lines 65-69. -/
def nondimensional_helmholtz_free_energy_per_link (link_length : α) (hinge_mass : α) (nondimensional_link_stiffness : α) (nondimensional_force : α) (temperature : α) : α :=
  let lambda : α := Polymers.ufjc.lennard_jones.thermodynamics.nondimensional_link_stretch nondimensional_link_stiffness nondimensional_force
  (-Elem.ln (Elem.sinh nondimensional_force / nondimensional_force)) - Elem.ln (1.0 + 23.0 / 2.0 * nondimensional_force / Elem.tanh nondimensional_force / nondimensional_link_stiffness) + nondimensional_link_stiffness / 72.0 * (Elem.powi lambda (-12) - 2.0 * Elem.powi lambda (-6)) - 0.5 * Elem.ln (2.0 * (Elem.pi : α) * Elem.powi link_length 2 / nondimensional_link_stiffness) - Elem.ln (8.0 * Elem.powi (Elem.pi : α) 2 * hinge_mass * Elem.powi link_length 2 * (Polymers.BOLTZMANN_CONSTANT : α) * temperature / Elem.powi (Polymers.PLANCK_CONSTANT : α) 2) + nondimensional_force / Elem.tanh nondimensional_force - 1.0 + Elem.powi nondimensional_force 2 / nondimensional_link_stiffness * ((Elem.tanh nondimensional_force - 1.0 / Elem.tanh nondimensional_force + 1.0 / nondimensional_force) / (2.0 / 23.0 * Elem.tanh nondimensional_force + nondimensional_force / nondimensional_link_stiffness))

/-- `src/physics/single_chain/ufjc/lennard_jones/thermodynamics/isotensional/asymptotic/legendre/mod.rs` lines 59-62. -/
def nondimensional_helmholtz_free_energy (number_of_links : Nat) (link_length : α) (hinge_mass : α) (nondimensional_link_stiffness : α) (nondimensional_force : α) (temperature : α) : α :=
  (number_of_links : α) * Polymers.ufjc.lennard_jones.thermodynamics.isotensional.asymptotic.legendre.nondimensional_helmholtz_free_energy_per_link link_length hinge_mass nondimensional_link_stiffness nondimensional_force temperature

/-- `src/physics/single_chain/ufjc/lennard_jones/thermodynamics/isotensional/asymptotic/legendre/mod.rs` lines 35-38. -/
def helmholtz_free_energy (number_of_links : Nat) (link_length : α) (hinge_mass : α) (link_stiffness : α) (force : α) (temperature : α) : α :=
  (Polymers.BOLTZMANN_CONSTANT : α) * temperature * Polymers.ufjc.lennard_jones.thermodynamics.isotensional.asymptotic.legendre.nondimensional_helmholtz_free_energy number_of_links link_length hinge_mass (link_stiffness * Elem.powi link_length 2 / (Polymers.BOLTZMANN_CONSTANT : α) / temperature) (force / (Polymers.BOLTZMANN_CONSTANT : α) / temperature * link_length) temperature

/-- `src/physics/single_chain/ufjc/lennard_jones/thermodynamics/isotensional/asymptotic/legendre/mod.rs` lines 41-44. -/
def helmholtz_free_energy_per_link (link_length : α) (hinge_mass : α) (link_stiffness : α) (force : α) (temperature : α) : α :=
  (Polymers.BOLTZMANN_CONSTANT : α) * temperature * Polymers.ufjc.lennard_jones.thermodynamics.isotensional.asymptotic.legendre.nondimensional_helmholtz_free_energy_per_link link_length hinge_mass (link_stiffness * Elem.powi link_length 2 / (Polymers.BOLTZMANN_CONSTANT : α) / temperature) (force / (Polymers.BOLTZMANN_CONSTANT : α) / temperature * link_length) temperature

/-- `src/physics/single_chain/ufjc/lennard_jones/thermodynamics/isotensional/asymptotic/legendre/mod.rs` lines 47-50. -/
def relative_helmholtz_free_energy (number_of_links : Nat) (link_length : α) (link_stiffness : α) (force : α) (temperature : α) : α :=
  Polymers.ufjc.lennard_jones.thermodynamics.isotensional.asymptotic.legendre.helmholtz_free_energy number_of_links link_length 1.0 link_stiffness force temperature - Polymers.ufjc.lennard_jones.thermodynamics.isotensional.asymptotic.legendre.helmholtz_free_energy number_of_links link_length 1.0 link_stiffness ((Polymers.ZERO : α) * (Polymers.BOLTZMANN_CONSTANT : α) * temperature / link_length) temperature

/-- `src/physics/single_chain/ufjc/lennard_jones/thermodynamics/isotensional/asymptotic/legendre/mod.rs` lines 53-56. -/
def relative_helmholtz_free_energy_per_link (link_length : α) (link_stiffness : α) (force : α) (temperature : α) : α :=
  Polymers.ufjc.lennard_jones.thermodynamics.isotensional.asymptotic.legendre.helmholtz_free_energy_per_link link_length 1.0 link_stiffness force temperature - Polymers.ufjc.lennard_jones.thermodynamics.isotensional.asymptotic.legendre.helmholtz_free_energy_per_link link_length 1.0 link_stiffness ((Polymers.ZERO : α) * (Polymers.BOLTZMANN_CONSTANT : α) * temperature / link_length) temperature

/-- `src/physics/single_chain/ufjc/lennard_jones/thermodynamics/isotensional/asymptotic/legendre/mod.rs` lines 72-75. -/
def nondimensional_relative_helmholtz_free_energy (number_of_links : Nat) (nondimensional_link_stiffness : α) (nondimensional_force : α) : α :=
  Polymers.ufjc.lennard_jones.thermodynamics.isotensional.asymptotic.legendre.nondimensional_helmholtz_free_energy number_of_links 1.0 1.0 nondimensional_link_stiffness nondimensional_force 300.0 - Polymers.ufjc.lennard_jones.thermodynamics.isotensional.asymptotic.legendre.nondimensional_helmholtz_free_energy number_of_links 1.0 1.0 nondimensional_link_stiffness (Polymers.ZERO : α) 300.0

/-- `src/physics/single_chain/ufjc/lennard_jones/thermodynamics/isotensional/asymptotic/legendre/mod.rs` lines 78-81. -/
def nondimensional_relative_helmholtz_free_energy_per_link (nondimensional_link_stiffness : α) (nondimensional_force : α) : α :=
  Polymers.ufjc.lennard_jones.thermodynamics.isotensional.asymptotic.legendre.nondimensional_helmholtz_free_energy_per_link 1.0 1.0 nondimensional_link_stiffness nondimensional_force 300.0 - Polymers.ufjc.lennard_jones.thermodynamics.isotensional.asymptotic.legendre.nondimensional_helmholtz_free_energy_per_link 1.0 1.0 nondimensional_link_stiffness (Polymers.ZERO : α) 300.0

/-- `src/physics/single_chain/ufjc/lennard_jones/thermodynamics/isotensional/asymptotic/legendre/mod.rs` lines 87-96. -/
def LENNARDJONESFJC.init (number_of_links : Nat) (link_length : α) (hinge_mass : α) (link_stiffness : α) : Polymers.ufjc.lennard_jones.thermodynamics.isotensional.asymptotic.legendre.LENNARDJONESFJC α :=
  { hinge_mass := hinge_mass, link_length := link_length, number_of_links := number_of_links, link_stiffness := link_stiffness }

/-- `src/physics/single_chain/ufjc/lennard_jones/thermodynamics/isotensional/asymptotic/legendre/mod.rs` lines 98-101. -/
def LENNARDJONESFJC.helmholtz_free_energy (self : Polymers.ufjc.lennard_jones.thermodynamics.isotensional.asymptotic.legendre.LENNARDJONESFJC α) (force : α) (temperature : α) : α :=
  Polymers.ufjc.lennard_jones.thermodynamics.isotensional.asymptotic.legendre.helmholtz_free_energy self.number_of_links self.link_length self.hinge_mass self.link_stiffness force temperature

/-- `src/physics/single_chain/ufjc/lennard_jones/thermodynamics/isotensional/asymptotic/legendre/mod.rs` lines 103-106. -/
def LENNARDJONESFJC.helmholtz_free_energy_per_link (self : Polymers.ufjc.lennard_jones.thermodynamics.isotensional.asymptotic.legendre.LENNARDJONESFJC α) (force : α) (temperature : α) : α :=
  Polymers.ufjc.lennard_jones.thermodynamics.isotensional.asymptotic.legendre.helmholtz_free_energy_per_link self.link_length self.hinge_mass self.link_stiffness force temperature

/-- `src/physics/single_chain/ufjc/lennard_jones/thermodynamics/isotensional/asymptotic/legendre/mod.rs` lines 108-111. -/
def LENNARDJONESFJC.relative_helmholtz_free_energy (self : Polymers.ufjc.lennard_jones.thermodynamics.isotensional.asymptotic.legendre.LENNARDJONESFJC α) (force : α) (temperature : α) : α :=
  Polymers.ufjc.lennard_jones.thermodynamics.isotensional.asymptotic.legendre.relative_helmholtz_free_energy self.number_of_links self.link_length self.link_stiffness force temperature

/-- `src/physics/single_chain/ufjc/lennard_jones/thermodynamics/isotensional/asymptotic/legendre/mod.rs` lines 113-116. -/
def LENNARDJONESFJC.relative_helmholtz_free_energy_per_link (self : Polymers.ufjc.lennard_jones.thermodynamics.isotensional.asymptotic.legendre.LENNARDJONESFJC α) (force : α) (temperature : α) : α :=
  Polymers.ufjc.lennard_jones.thermodynamics.isotensional.asymptotic.legendre.relative_helmholtz_free_energy_per_link self.link_length self.link_stiffness force temperature

/-- `src/physics/single_chain/ufjc/lennard_jones/thermodynamics/isotensional/asymptotic/legendre/mod.rs` lines 118-121. -/
def LENNARDJONESFJC.nondimensional_helmholtz_free_energy (self : Polymers.ufjc.lennard_jones.thermodynamics.isotensional.asymptotic.legendre.LENNARDJONESFJC α) (nondimensional_force : α) (temperature : α) : α :=
  Polymers.ufjc.lennard_jones.thermodynamics.isotensional.asymptotic.legendre.nondimensional_helmholtz_free_energy self.number_of_links self.link_length self.hinge_mass (self.link_stiffness * Elem.powi self.link_length 2 / (Polymers.BOLTZMANN_CONSTANT : α) / temperature) nondimensional_force temperature

/-- `src/physics/single_chain/ufjc/lennard_jones/thermodynamics/isotensional/asymptotic/legendre/mod.rs` lines 123-126. -/
def LENNARDJONESFJC.nondimensional_helmholtz_free_energy_per_link (self : Polymers.ufjc.lennard_jones.thermodynamics.isotensional.asymptotic.legendre.LENNARDJONESFJC α) (nondimensional_force : α) (temperature : α) : α :=
  Polymers.ufjc.lennard_jones.thermodynamics.isotensional.asymptotic.legendre.nondimensional_helmholtz_free_energy_per_link self.link_length self.hinge_mass (self.link_stiffness * Elem.powi self.link_length 2 / (Polymers.BOLTZMANN_CONSTANT : α) / temperature) nondimensional_force temperature

/-- `src/physics/single_chain/ufjc/lennard_jones/thermodynamics/isotensional/asymptotic/legendre/mod.rs` lines 128-131. -/
def LENNARDJONESFJC.nondimensional_relative_helmholtz_free_energy (self : Polymers.ufjc.lennard_jones.thermodynamics.isotensional.asymptotic.legendre.LENNARDJONESFJC α) (nondimensional_force : α) (temperature : α) : α :=
  Polymers.ufjc.lennard_jones.thermodynamics.isotensional.asymptotic.legendre.nondimensional_relative_helmholtz_free_energy self.number_of_links (self.link_stiffness * Elem.powi self.link_length 2 / (Polymers.BOLTZMANN_CONSTANT : α) / temperature) nondimensional_force

/-- `src/physics/single_chain/ufjc/lennard_jones/thermodynamics/isotensional/asymptotic/legendre/mod.rs` lines 133-136. -/
def LENNARDJONESFJC.nondimensional_relative_helmholtz_free_energy_per_link (self : Polymers.ufjc.lennard_jones.thermodynamics.isotensional.asymptotic.legendre.LENNARDJONESFJC α) (nondimensional_force : α) (temperature : α) : α :=
  Polymers.ufjc.lennard_jones.thermodynamics.isotensional.asymptotic.legendre.nondimensional_relative_helmholtz_free_energy_per_link (self.link_stiffness * Elem.powi self.link_length 2 / (Polymers.BOLTZMANN_CONSTANT : α) / temperature) nondimensional_force

end Polymers.ufjc.lennard_jones.thermodynamics.isotensional.asymptotic.legendre

namespace Polymers.ufjc.lennard_jones.thermodynamics.isotensional.asymptotic.reduced

/-- `src/physics/single_chain/ufjc/lennard_jones/thermodynamics/isotensional/asymptotic/reduced/mod.rs` lines 22-38: struct `LENNARDJONESFJC`. -/
structure LENNARDJONESFJC (α : Type) where
  /-- field `hinge_mass` -/
  hinge_mass : α
  /-- field `link_length` -/
  link_length : α
  /-- field `number_of_links` -/
  number_of_links : Nat
  /-- field `link_stiffness` -/
  link_stiffness : α
  /-- field `legendre` -/
  legendre : Polymers.ufjc.lennard_jones.thermodynamics.isotensional.asymptotic.reduced.legendre.LENNARDJONESFJC α

/-- `src/physics/single_chain/ufjc/lennard_jones/thermodynamics/isotensional/asymptotic/reduced/mod.rs` lines 59-62. -/
def nondimensional_end_to_end_length_per_link (nondimensional_link_stiffness : α) (nondimensional_force : α) : α :=
  1.0 / Elem.tanh nondimensional_force - 1.0 / nondimensional_force + Polymers.ufjc.lennard_jones.thermodynamics.nondimensional_link_stretch nondimensional_link_stiffness nondimensional_force - 1.0

/-- `src/physics/single_chain/ufjc/lennard_jones/thermodynamics/isotensional/asymptotic/reduced/mod.rs` lines 53-56. -/
def nondimensional_end_to_end_length (number_of_links : Nat) (nondimensional_link_stiffness : α) (nondimensional_force : α) : α :=
  (number_of_links : α) * Polymers.ufjc.lennard_jones.thermodynamics.isotensional.asymptotic.reduced.nondimensional_end_to_end_length_per_link nondimensional_link_stiffness nondimensional_force

/-- `src/physics/single_chain/ufjc/lennard_jones/thermodynamics/isotensional/asymptotic/reduced/mod.rs` lines 41-44. -/
def end_to_end_length (number_of_links : Nat) (link_length : α) (link_stiffness : α) (force : α) (temperature : α) : α :=
  link_length * Polymers.ufjc.lennard_jones.thermodynamics.isotensional.asymptotic.reduced.nondimensional_end_to_end_length number_of_links (link_stiffness * Elem.powi link_length 2 / (Polymers.BOLTZMANN_CONSTANT : α) / temperature) (force * link_length / (Polymers.BOLTZMANN_CONSTANT : α) / temperature)

/-- `src/physics/single_chain/ufjc/lennard_jones/thermodynamics/isotensional/asymptotic/reduced/mod.rs` lines 47-50. -/
def end_to_end_length_per_link (link_length : α) (link_stiffness : α) (force : α) (temperature : α) : α :=
  link_length * Polymers.ufjc.lennard_jones.thermodynamics.isotensional.asymptotic.reduced.nondimensional_end_to_end_length_per_link (link_stiffness * Elem.powi link_length 2 / (Polymers.BOLTZMANN_CONSTANT : α) / temperature) (force * link_length / (Polymers.BOLTZMANN_CONSTANT : α) / temperature)

/-- `src/physics/single_chain/ufjc/lennard_jones/thermodynamics/isotensional/asymptotic/reduced/mod.rs` lines 95-99. -/
def nondimensional_gibbs_free_energy_per_link (link_length : α) (hinge_mass : α) (nondimensional_link_stiffness : α) (nondimensional_force : α) (temperature : α) : α :=
  let lambda : α := Polymers.ufjc.lennard_jones.thermodynamics.nondimensional_link_stretch nondimensional_link_stiffness nondimensional_force
  (-Elem.ln (Elem.sinh nondimensional_force / nondimensional_force)) + nondimensional_link_stiffness / 72.0 * (Elem.powi lambda (-12) - 2.0 * Elem.powi lambda (-6)) - nondimensional_force * (lambda - 1.0) - 0.5 * Elem.ln (2.0 * (Elem.pi : α) * Elem.powi link_length 2 / nondimensional_link_stiffness) - Elem.ln (8.0 * Elem.powi (Elem.pi : α) 2 * hinge_mass * Elem.powi link_length 2 * (Polymers.BOLTZMANN_CONSTANT : α) * temperature / Elem.powi (Polymers.PLANCK_CONSTANT : α) 2)

/-- `src/physics/single_chain/ufjc/lennard_jones/thermodynamics/isotensional/asymptotic/reduced/mod.rs` lines 89-92. -/
def nondimensional_gibbs_free_energy (number_of_links : Nat) (link_length : α) (hinge_mass : α) (nondimensional_link_stiffness : α) (nondimensional_force : α) (temperature : α) : α :=
  (number_of_links : α) * Polymers.ufjc.lennard_jones.thermodynamics.isotensional.asymptotic.reduced.nondimensional_gibbs_free_energy_per_link link_length hinge_mass nondimensional_link_stiffness nondimensional_force temperature

/-- `src/physics/single_chain/ufjc/lennard_jones/thermodynamics/isotensional/asymptotic/reduced/mod.rs` lines 65-68. -/
def gibbs_free_energy (number_of_links : Nat) (link_length : α) (hinge_mass : α) (link_stiffness : α) (force : α) (temperature : α) : α :=
  (Polymers.BOLTZMANN_CONSTANT : α) * temperature * Polymers.ufjc.lennard_jones.thermodynamics.isotensional.asymptotic.reduced.nondimensional_gibbs_free_energy number_of_links link_length hinge_mass (link_stiffness * Elem.powi link_length 2 / (Polymers.BOLTZMANN_CONSTANT : α) / temperature) (force * link_length / (Polymers.BOLTZMANN_CONSTANT : α) / temperature) temperature

/-- `src/physics/single_chain/ufjc/lennard_jones/thermodynamics/isotensional/asymptotic/reduced/mod.rs` lines 71-74. -/
def gibbs_free_energy_per_link (link_length : α) (hinge_mass : α) (link_stiffness : α) (force : α) (temperature : α) : α :=
  (Polymers.BOLTZMANN_CONSTANT : α) * temperature * Polymers.ufjc.lennard_jones.thermodynamics.isotensional.asymptotic.reduced.nondimensional_gibbs_free_energy_per_link link_length hinge_mass (link_stiffness * Elem.powi link_length 2 / (Polymers.BOLTZMANN_CONSTANT : α) / temperature) (force * link_length / (Polymers.BOLTZMANN_CONSTANT : α) / temperature) temperature

/-- `src/physics/single_chain/ufjc/lennard_jones/thermodynamics/isotensional/asymptotic/reduced/mod.rs` lines 77-80. -/
def relative_gibbs_free_energy (number_of_links : Nat) (link_length : α) (link_stiffness : α) (force : α) (temperature : α) : α :=
  Polymers.ufjc.lennard_jones.thermodynamics.isotensional.asymptotic.reduced.gibbs_free_energy number_of_links link_length 1.0 link_stiffness force temperature - Polymers.ufjc.lennard_jones.thermodynamics.isotensional.asymptotic.reduced.gibbs_free_energy number_of_links link_length 1.0 link_stiffness ((Polymers.ZERO : α) * (Polymers.BOLTZMANN_CONSTANT : α) * temperature / link_length) temperature

/-- `src/physics/single_chain/ufjc/lennard_jones/thermodynamics/isotensional/asymptotic/reduced/mod.rs` lines 83-86. -/
def relative_gibbs_free_energy_per_link (link_length : α) (link_stiffness : α) (force : α) (temperature : α) : α :=
  Polymers.ufjc.lennard_jones.thermodynamics.isotensional.asymptotic.reduced.gibbs_free_energy_per_link link_length 1.0 link_stiffness force temperature - Polymers.ufjc.lennard_jones.thermodynamics.isotensional.asymptotic.reduced.gibbs_free_energy_per_link link_length 1.0 link_stiffness ((Polymers.ZERO : α) * (Polymers.BOLTZMANN_CONSTANT : α) * temperature / link_length) temperature

/-- `src/physics/single_chain/ufjc/lennard_jones/thermodynamics/isotensional/asymptotic/reduced/mod.rs` lines 102-105. -/
def nondimensional_relative_gibbs_free_energy (number_of_links : Nat) (nondimensional_link_stiffness : α) (nondimensional_force : α) : α :=
  Polymers.ufjc.lennard_jones.thermodynamics.isotensional.asymptotic.reduced.nondimensional_gibbs_free_energy number_of_links 1.0 1.0 nondimensional_link_stiffness nondimensional_force 300.0 - Polymers.ufjc.lennard_jones.thermodynamics.isotensional.asymptotic.reduced.nondimensional_gibbs_free_energy number_of_links 1.0 1.0 nondimensional_link_stiffness (Polymers.ZERO : α) 300.0

/-- `src/physics/single_chain/ufjc/lennard_jones/thermodynamics/isotensional/asymptotic/reduced/mod.rs` lines 108-111. -/
def nondimensional_relative_gibbs_free_energy_per_link (nondimensional_link_stiffness : α) (nondimensional_force : α) : α :=
  Polymers.ufjc.lennard_jones.thermodynamics.isotensional.asymptotic.reduced.nondimensional_gibbs_free_energy_per_link 1.0 1.0 nondimensional_link_stiffness nondimensional_force 300.0 - Polymers.ufjc.lennard_jones.thermodynamics.isotensional.asymptotic.reduced.nondimensional_gibbs_free_energy_per_link 1.0 1.0 nondimensional_link_stiffness (Polymers.ZERO : α) 300.0

/-- `src/physics/single_chain/ufjc/lennard_jones/thermodynamics/isotensional/asymptotic/reduced/mod.rs` lines 117-127. -/
def LENNARDJONESFJC.init (number_of_links : Nat) (link_length : α) (hinge_mass : α) (link_stiffness : α) : Polymers.ufjc.lennard_jones.thermodynamics.isotensional.asymptotic.reduced.LENNARDJONESFJC α :=
  { hinge_mass := hinge_mass, link_length := link_length, number_of_links := number_of_links, link_stiffness := link_stiffness, legendre := Polymers.ufjc.lennard_jones.thermodynamics.isotensional.asymptotic.reduced.legendre.LENNARDJONESFJC.init number_of_links link_length hinge_mass link_stiffness }

/-- `src/physics/single_chain/ufjc/lennard_jones/thermodynamics/isotensional/asymptotic/reduced/mod.rs` lines 129-132. -/
def LENNARDJONESFJC.end_to_end_length (self : Polymers.ufjc.lennard_jones.thermodynamics.isotensional.asymptotic.reduced.LENNARDJONESFJC α) (force : α) (temperature : α) : α :=
  Polymers.ufjc.lennard_jones.thermodynamics.isotensional.asymptotic.reduced.end_to_end_length self.number_of_links self.link_length self.link_stiffness force temperature

/-- `src/physics/single_chain/ufjc/lennard_jones/thermodynamics/isotensional/asymptotic/reduced/mod.rs` lines 134-137. -/
def LENNARDJONESFJC.end_to_end_length_per_link (self : Polymers.ufjc.lennard_jones.thermodynamics.isotensional.asymptotic.reduced.LENNARDJONESFJC α) (force : α) (temperature : α) : α :=
  Polymers.ufjc.lennard_jones.thermodynamics.isotensional.asymptotic.reduced.end_to_end_length_per_link self.link_length self.link_stiffness force temperature

/-- `src/physics/single_chain/ufjc/lennard_jones/thermodynamics/isotensional/asymptotic/reduced/mod.rs` lines 139-142. -/
def LENNARDJONESFJC.nondimensional_end_to_end_length (self : Polymers.ufjc.lennard_jones.thermodynamics.isotensional.asymptotic.reduced.LENNARDJONESFJC α) (nondimensional_force : α) (temperature : α) : α :=
  Polymers.ufjc.lennard_jones.thermodynamics.isotensional.asymptotic.reduced.nondimensional_end_to_end_length self.number_of_links (self.link_stiffness * Elem.powi self.link_length 2 / (Polymers.BOLTZMANN_CONSTANT : α) / temperature) nondimensional_force

/-- `src/physics/single_chain/ufjc/lennard_jones/thermodynamics/isotensional/asymptotic/reduced/mod.rs` lines 144-147. -/
def LENNARDJONESFJC.nondimensional_end_to_end_length_per_link (self : Polymers.ufjc.lennard_jones.thermodynamics.isotensional.asymptotic.reduced.LENNARDJONESFJC α) (nondimensional_force : α) (temperature : α) : α :=
  Polymers.ufjc.lennard_jones.thermodynamics.isotensional.asymptotic.reduced.nondimensional_end_to_end_length_per_link (self.link_stiffness * Elem.powi self.link_length 2 / (Polymers.BOLTZMANN_CONSTANT : α) / temperature) nondimensional_force

/-- `src/physics/single_chain/ufjc/lennard_jones/thermodynamics/isotensional/asymptotic/reduced/mod.rs` lines 149-152. -/
def LENNARDJONESFJC.gibbs_free_energy (self : Polymers.ufjc.lennard_jones.thermodynamics.isotensional.asymptotic.reduced.LENNARDJONESFJC α) (force : α) (temperature : α) : α :=
  Polymers.ufjc.lennard_jones.thermodynamics.isotensional.asymptotic.reduced.gibbs_free_energy self.number_of_links self.link_length self.hinge_mass self.link_stiffness force temperature

/-- `src/physics/single_chain/ufjc/lennard_jones/thermodynamics/isotensional/asymptotic/reduced/mod.rs` lines 154-157. -/
def LENNARDJONESFJC.gibbs_free_energy_per_link (self : Polymers.ufjc.lennard_jones.thermodynamics.isotensional.asymptotic.reduced.LENNARDJONESFJC α) (force : α) (temperature : α) : α :=
  Polymers.ufjc.lennard_jones.thermodynamics.isotensional.asymptotic.reduced.gibbs_free_energy_per_link self.link_length self.hinge_mass self.link_stiffness force temperature

/-- `src/physics/single_chain/ufjc/lennard_jones/thermodynamics/isotensional/asymptotic/reduced/mod.rs` lines 159-162. -/
def LENNARDJONESFJC.relative_gibbs_free_energy (self : Polymers.ufjc.lennard_jones.thermodynamics.isotensional.asymptotic.reduced.LENNARDJONESFJC α) (force : α) (temperature : α) : α :=
  Polymers.ufjc.lennard_jones.thermodynamics.isotensional.asymptotic.reduced.relative_gibbs_free_energy self.number_of_links self.link_length self.link_stiffness force temperature

/-- `src/physics/single_chain/ufjc/lennard_jones/thermodynamics/isotensional/asymptotic/reduced/mod.rs` lines 164-167. -/
def LENNARDJONESFJC.relative_gibbs_free_energy_per_link (self : Polymers.ufjc.lennard_jones.thermodynamics.isotensional.asymptotic.reduced.LENNARDJONESFJC α) (force : α) (temperature : α) : α :=
  Polymers.ufjc.lennard_jones.thermodynamics.isotensional.asymptotic.reduced.relative_gibbs_free_energy_per_link self.link_length self.link_stiffness force temperature

/-- `src/physics/single_chain/ufjc/lennard_jones/thermodynamics/isotensional/asymptotic/reduced/mod.rs` lines 169-172. -/
def LENNARDJONESFJC.nondimensional_gibbs_free_energy (self : Polymers.ufjc.lennard_jones.thermodynamics.isotensional.asymptotic.reduced.LENNARDJONESFJC α) (nondimensional_force : α) (temperature : α) : α :=
  Polymers.ufjc.lennard_jones.thermodynamics.isotensional.asymptotic.reduced.nondimensional_gibbs_free_energy self.number_of_links self.link_length self.hinge_mass (self.link_stiffness * Elem.powi self.link_length 2 / (Polymers.BOLTZMANN_CONSTANT : α) / temperature) nondimensional_force temperature

/-- `src/physics/single_chain/ufjc/lennard_jones/thermodynamics/isotensional/asymptotic/reduced/mod.rs` lines 174-177. -/
def LENNARDJONESFJC.nondimensional_gibbs_free_energy_per_link (self : Polymers.ufjc.lennard_jones.thermodynamics.isotensional.asymptotic.reduced.LENNARDJONESFJC α) (nondimensional_force : α) (temperature : α) : α :=
  Polymers.ufjc.lennard_jones.thermodynamics.isotensional.asymptotic.reduced.nondimensional_gibbs_free_energy_per_link self.link_length self.hinge_mass (self.link_stiffness * Elem.powi self.link_length 2 / (Polymers.BOLTZMANN_CONSTANT : α) / temperature) nondimensional_force temperature

/-- `src/physics/single_chain/ufjc/lennard_jones/thermodynamics/isotensional/asymptotic/reduced/mod.rs` lines 179-182. -/
def LENNARDJONESFJC.nondimensional_relative_gibbs_free_energy (self : Polymers.ufjc.lennard_jones.thermodynamics.isotensional.asymptotic.reduced.LENNARDJONESFJC α) (nondimensional_force : α) (temperature : α) : α :=
  Polymers.ufjc.lennard_jones.thermodynamics.isotensional.asymptotic.reduced.nondimensional_relative_gibbs_free_energy self.number_of_links (self.link_stiffness * Elem.powi self.link_length 2 / (Polymers.BOLTZMANN_CONSTANT : α) / temperature) nondimensional_force

/-- `src/physics/single_chain/ufjc/lennard_jones/thermodynamics/isotensional/asymptotic/reduced/mod.rs` lines 184-187. -/
def LENNARDJONESFJC.nondimensional_relative_gibbs_free_energy_per_link (self : Polymers.ufjc.lennard_jones.thermodynamics.isotensional.asymptotic.reduced.LENNARDJONESFJC α) (nondimensional_force : α) (temperature : α) : α :=
  Polymers.ufjc.lennard_jones.thermodynamics.isotensional.asymptotic.reduced.nondimensional_relative_gibbs_free_energy_per_link (self.link_stiffness * Elem.powi self.link_length 2 / (Polymers.BOLTZMANN_CONSTANT : α) / temperature) nondimensional_force

end Polymers.ufjc.lennard_jones.thermodynamics.isotensional.asymptotic.reduced

namespace Polymers.ufjc.lennard_jones.thermodynamics.isometric.asymptotic

/-- `src/physics/single_chain/ufjc/lennard_jones/thermodynamics/isometric/asymptotic/mod.rs` lines 13-32: struct `LENNARDJONESFJC`. -/
structure LENNARDJONESFJC (α : Type) where
  /-- field `hinge_mass` -/
  hinge_mass : α
  /-- field `link_length` -/
  link_length : α
  /-- field `number_of_links` -/
  number_of_links : Nat
  /-- field `link_stiffness` -/
  link_stiffness : α
  /-- field `reduced` -/
  reduced : Polymers.ufjc.lennard_jones.thermodynamics.isometric.asymptotic.reduced.LENNARDJONESFJC α
  /-- field `legendre` -/
  legendre : Polymers.ufjc.lennard_jones.thermodynamics.isometric.asymptotic.legendre.LENNARDJONESFJC α

/-- `src/physics/single_chain/ufjc/lennard_jones/thermodynamics/isometric/asymptotic/mod.rs` lines 38-49. -/
def LENNARDJONESFJC.init (number_of_links : Nat) (link_length : α) (hinge_mass : α) (link_stiffness : α) : Polymers.ufjc.lennard_jones.thermodynamics.isometric.asymptotic.LENNARDJONESFJC α :=
  { hinge_mass := hinge_mass, link_length := link_length, number_of_links := number_of_links, link_stiffness := link_stiffness, reduced := Polymers.ufjc.lennard_jones.thermodynamics.isometric.asymptotic.reduced.LENNARDJONESFJC.init number_of_links link_length hinge_mass link_stiffness, legendre := Polymers.ufjc.lennard_jones.thermodynamics.isometric.asymptotic.legendre.LENNARDJONESFJC.init number_of_links link_length hinge_mass link_stiffness }

end Polymers.ufjc.lennard_jones.thermodynamics.isometric.asymptotic

namespace Polymers.ufjc.lennard_jones.thermodynamics.isotensional.asymptotic

/-- `src/physics/single_chain/ufjc/lennard_jones/thermodynamics/isotensional/asymptotic/mod.rs` lines 25-44: struct `LENNARDJONESFJC`. -/
structure LENNARDJONESFJC (α : Type) where
  /-- field `hinge_mass` -/
  hinge_mass : α
  /-- field `link_length` -/
  link_length : α
  /-- field `number_of_links` -/
  number_of_links : Nat
  /-- field `link_stiffness` -/
  link_stiffness : α
  /-- field `reduced` -/
  reduced : Polymers.ufjc.lennard_jones.thermodynamics.isotensional.asymptotic.reduced.LENNARDJONESFJC α
  /-- field `legendre` -/
  legendre : Polymers.ufjc.lennard_jones.thermodynamics.isotensional.asymptotic.legendre.LENNARDJONESFJC α

/-- `src/physics/single_chain/ufjc/lennard_jones/thermodynamics/isotensional/asymptotic/mod.rs` lines 65-68. -/
def nondimensional_end_to_end_length_per_link (nondimensional_link_stiffness : α) (nondimensional_force : α) : α :=
  1.0 / Elem.tanh nondimensional_force - 1.0 / nondimensional_force + nondimensional_force / nondimensional_link_stiffness * ((Elem.tanh nondimensional_force - 1.0 / Elem.tanh nondimensional_force + 1.0 / nondimensional_force) / (2.0 / 23.0 * Elem.tanh nondimensional_force + nondimensional_force / nondimensional_link_stiffness)) + Polymers.ufjc.lennard_jones.thermodynamics.nondimensional_link_stretch nondimensional_link_stiffness nondimensional_force - 1.0

/-- `src/physics/single_chain/ufjc/lennard_jones/thermodynamics/isotensional/asymptotic/mod.rs` lines 59-62. -/
def nondimensional_end_to_end_length (number_of_links : Nat) (nondimensional_link_stiffness : α) (nondimensional_force : α) : α :=
  (number_of_links : α) * Polymers.ufjc.lennard_jones.thermodynamics.isotensional.asymptotic.nondimensional_end_to_end_length_per_link nondimensional_link_stiffness nondimensional_force

/-- `src/physics/single_chain/ufjc/lennard_jones/thermodynamics/isotensional/asymptotic/mod.rs` lines 47-50. -/
def end_to_end_length (number_of_links : Nat) (link_length : α) (link_stiffness : α) (force : α) (temperature : α) : α :=
  link_length * Polymers.ufjc.lennard_jones.thermodynamics.isotensional.asymptotic.nondimensional_end_to_end_length number_of_links (link_stiffness * Elem.powi link_length 2 / (Polymers.BOLTZMANN_CONSTANT : α) / temperature) (force * link_length / (Polymers.BOLTZMANN_CONSTANT : α) / temperature)

/-- `src/physics/single_chain/ufjc/lennard_jones/thermodynamics/isotensional/asymptotic/mod.rs` lines 53-56. -/
def end_to_end_length_per_link (link_length : α) (link_stiffness : α) (force : α) (temperature : α) : α :=
  link_length * Polymers.ufjc.lennard_jones.thermodynamics.isotensional.asymptotic.nondimensional_end_to_end_length_per_link (link_stiffness * Elem.powi link_length 2 / (Polymers.BOLTZMANN_CONSTANT : α) / temperature) (force * link_length / (Polymers.BOLTZMANN_CONSTANT : α) / temperature)

/-- `src/physics/single_chain/ufjc/lennard_jones/thermodynamics/isotensional/asymptotic/mod.rs` lines 101-105. -/
def nondimensional_gibbs_free_energy_per_link (link_length : α) (hinge_mass : α) (nondimensional_link_stiffness : α) (nondimensional_force : α) (temperature : α) : α :=
  let lambda : α := Polymers.ufjc.lennard_jones.thermodynamics.nondimensional_link_stretch nondimensional_link_stiffness nondimensional_force
  (-Elem.ln (Elem.sinh nondimensional_force / nondimensional_force)) - Elem.ln (1.0 + 23.0 / 2.0 * nondimensional_force / Elem.tanh nondimensional_force / nondimensional_link_stiffness) + nondimensional_link_stiffness / 72.0 * (Elem.powi lambda (-12) - 2.0 * Elem.powi lambda (-6)) - nondimensional_force * (lambda - 1.0) - 0.5 * Elem.ln (2.0 * (Elem.pi : α) * Elem.powi link_length 2 / nondimensional_link_stiffness) - Elem.ln (8.0 * Elem.powi (Elem.pi : α) 2 * hinge_mass * Elem.powi link_length 2 * (Polymers.BOLTZMANN_CONSTANT : α) * temperature / Elem.powi (Polymers.PLANCK_CONSTANT : α) 2)

/-- `src/physics/single_chain/ufjc/lennard_jones/thermodynamics/isotensional/asymptotic/mod.rs` lines 95-98. -/
def nondimensional_gibbs_free_energy (number_of_links : Nat) (link_length : α) (hinge_mass : α) (nondimensional_link_stiffness : α) (nondimensional_force : α) (temperature : α) : α :=
  (number_of_links : α) * Polymers.ufjc.lennard_jones.thermodynamics.isotensional.asymptotic.nondimensional_gibbs_free_energy_per_link link_length hinge_mass nondimensional_link_stiffness nondimensional_force temperature

/-- `src/physics/single_chain/ufjc/lennard_jones/thermodynamics/isotensional/asymptotic/mod.rs` lines 71-74. -/
def gibbs_free_energy (number_of_links : Nat) (link_length : α) (hinge_mass : α) (link_stiffness : α) (force : α) (temperature : α) : α :=
  (Polymers.BOLTZMANN_CONSTANT : α) * temperature * Polymers.ufjc.lennard_jones.thermodynamics.isotensional.asymptotic.nondimensional_gibbs_free_energy number_of_links link_length hinge_mass (link_stiffness * Elem.powi link_length 2 / (Polymers.BOLTZMANN_CONSTANT : α) / temperature) (force * link_length / (Polymers.BOLTZMANN_CONSTANT : α) / temperature) temperature

/-- `src/physics/single_chain/ufjc/lennard_jones/thermodynamics/isotensional/asymptotic/mod.rs` lines 77-80. -/
def gibbs_free_energy_per_link (link_length : α) (hinge_mass : α) (link_stiffness : α) (force : α) (temperature : α) : α :=
  (Polymers.BOLTZMANN_CONSTANT : α) * temperature * Polymers.ufjc.lennard_jones.thermodynamics.isotensional.asymptotic.nondimensional_gibbs_free_energy_per_link link_length hinge_mass (link_stiffness * Elem.powi link_length 2 / (Polymers.BOLTZMANN_CONSTANT : α) / temperature) (force * link_length / (Polymers.BOLTZMANN_CONSTANT : α) / temperature) temperature

/-- `src/physics/single_chain/ufjc/lennard_jones/thermodynamics/isotensional/asymptotic/mod.rs` lines 83-86. -/
def relative_gibbs_free_energy (number_of_links : Nat) (link_length : α) (link_stiffness : α) (force : α) (temperature : α) : α :=
  Polymers.ufjc.lennard_jones.thermodynamics.isotensional.asymptotic.gibbs_free_energy number_of_links link_length 1.0 link_stiffness force temperature - Polymers.ufjc.lennard_jones.thermodynamics.isotensional.asymptotic.gibbs_free_energy number_of_links link_length 1.0 link_stiffness ((Polymers.ZERO : α) * (Polymers.BOLTZMANN_CONSTANT : α) * temperature / link_length) temperature

/-- `src/physics/single_chain/ufjc/lennard_jones/thermodynamics/isotensional/asymptotic/mod.rs` lines 89-92. -/
def relative_gibbs_free_energy_per_link (link_length : α) (link_stiffness : α) (force : α) (temperature : α) : α :=
  Polymers.ufjc.lennard_jones.thermodynamics.isotensional.asymptotic.gibbs_free_energy_per_link link_length 1.0 link_stiffness force temperature - Polymers.ufjc.lennard_jones.thermodynamics.isotensional.asymptotic.gibbs_free_energy_per_link link_length 1.0 link_stiffness ((Polymers.ZERO : α) * (Polymers.BOLTZMANN_CONSTANT : α) * temperature / link_length) temperature

/-- `src/physics/single_chain/ufjc/lennard_jones/thermodynamics/isotensional/asymptotic/mod.rs` lines 108-111. -/
def nondimensional_relative_gibbs_free_energy (number_of_links : Nat) (nondimensional_link_stiffness : α) (nondimensional_force : α) : α :=
  Polymers.ufjc.lennard_jones.thermodynamics.isotensional.asymptotic.nondimensional_gibbs_free_energy number_of_links 1.0 1.0 nondimensional_link_stiffness nondimensional_force 300.0 - Polymers.ufjc.lennard_jones.thermodynamics.isotensional.asymptotic.nondimensional_gibbs_free_energy number_of_links 1.0 1.0 nondimensional_link_stiffness (Polymers.ZERO : α) 300.0

/-- `src/physics/single_chain/ufjc/lennard_jones/thermodynamics/isotensional/asymptotic/mod.rs` lines 114-117. -/
def nondimensional_relative_gibbs_free_energy_per_link (nondimensional_link_stiffness : α) (nondimensional_force : α) : α :=
  Polymers.ufjc.lennard_jones.thermodynamics.isotensional.asymptotic.nondimensional_gibbs_free_energy_per_link 1.0 1.0 nondimensional_link_stiffness nondimensional_force 300.0 - Polymers.ufjc.lennard_jones.thermodynamics.isotensional.asymptotic.nondimensional_gibbs_free_energy_per_link 1.0 1.0 nondimensional_link_stiffness (Polymers.ZERO : α) 300.0

/-- `src/physics/single_chain/ufjc/lennard_jones/thermodynamics/isotensional/asymptotic/mod.rs` lines 123-134. -/
def LENNARDJONESFJC.init (number_of_links : Nat) (link_length : α) (hinge_mass : α) (link_stiffness : α) : Polymers.ufjc.lennard_jones.thermodynamics.isotensional.asymptotic.LENNARDJONESFJC α :=
  { hinge_mass := hinge_mass, link_length := link_length, number_of_links := number_of_links, link_stiffness := link_stiffness, reduced := Polymers.ufjc.lennard_jones.thermodynamics.isotensional.asymptotic.reduced.LENNARDJONESFJC.init number_of_links link_length hinge_mass link_stiffness, legendre := Polymers.ufjc.lennard_jones.thermodynamics.isotensional.asymptotic.legendre.LENNARDJONESFJC.init number_of_links link_length hinge_mass link_stiffness }

/-- `src/physics/single_chain/ufjc/lennard_jones/thermodynamics/isotensional/asymptotic/mod.rs` lines 136-139. -/
def LENNARDJONESFJC.end_to_end_length (self : Polymers.ufjc.lennard_jones.thermodynamics.isotensional.asymptotic.LENNARDJONESFJC α) (force : α) (temperature : α) : α :=
  Polymers.ufjc.lennard_jones.thermodynamics.isotensional.asymptotic.end_to_end_length self.number_of_links self.link_length self.link_stiffness force temperature

/-- `src/physics/single_chain/ufjc/lennard_jones/thermodynamics/isotensional/asymptotic/mod.rs` lines 141-144. -/
def LENNARDJONESFJC.end_to_end_length_per_link (self : Polymers.ufjc.lennard_jones.thermodynamics.isotensional.asymptotic.LENNARDJONESFJC α) (force : α) (temperature : α) : α :=
  Polymers.ufjc.lennard_jones.thermodynamics.isotensional.asymptotic.end_to_end_length_per_link self.link_length self.link_stiffness force temperature

/-- `src/physics/single_chain/ufjc/lennard_jones/thermodynamics/isotensional/asymptotic/mod.rs` lines 146-149. -/
def LENNARDJONESFJC.nondimensional_end_to_end_length (self : Polymers.ufjc.lennard_jones.thermodynamics.isotensional.asymptotic.LENNARDJONESFJC α) (nondimensional_force : α) (temperature : α) : α :=
  Polymers.ufjc.lennard_jones.thermodynamics.isotensional.asymptotic.nondimensional_end_to_end_length self.number_of_links (self.link_stiffness * Elem.powi self.link_length 2 / (Polymers.BOLTZMANN_CONSTANT : α) / temperature) nondimensional_force

/-- `src/physics/single_chain/ufjc/lennard_jones/thermodynamics/isotensional/asymptotic/mod.rs` lines 151-154. -/
def LENNARDJONESFJC.nondimensional_end_to_end_length_per_link (self : Polymers.ufjc.lennard_jones.thermodynamics.isotensional.asymptotic.LENNARDJONESFJC α) (nondimensional_force : α) (temperature : α) : α :=
  Polymers.ufjc.lennard_jones.thermodynamics.isotensional.asymptotic.nondimensional_end_to_end_length_per_link (self.link_stiffness * Elem.powi self.link_length 2 / (Polymers.BOLTZMANN_CONSTANT : α) / temperature) nondimensional_force

/-- `src/physics/single_chain/ufjc/lennard_jones/thermodynamics/isotensional/asymptotic/mod.rs` lines 156-159. -/
def LENNARDJONESFJC.gibbs_free_energy (self : Polymers.ufjc.lennard_jones.thermodynamics.isotensional.asymptotic.LENNARDJONESFJC α) (force : α) (temperature : α) : α :=
  Polymers.ufjc.lennard_jones.thermodynamics.isotensional.asymptotic.gibbs_free_energy self.number_of_links self.link_length self.hinge_mass self.link_stiffness force temperature

/-- `src/physics/single_chain/ufjc/lennard_jones/thermodynamics/isotensional/asymptotic/mod.rs` lines 161-164. -/
def LENNARDJONESFJC.gibbs_free_energy_per_link (self : Polymers.ufjc.lennard_jones.thermodynamics.isotensional.asymptotic.LENNARDJONESFJC α) (force : α) (temperature : α) : α :=
  Polymers.ufjc.lennard_jones.thermodynamics.isotensional.asymptotic.gibbs_free_energy_per_link self.link_length self.hinge_mass self.link_stiffness force temperature

/-- `src/physics/single_chain/ufjc/lennard_jones/thermodynamics/isotensional/asymptotic/mod.rs` lines 166-169. -/
def LENNARDJONESFJC.relative_gibbs_free_energy (self : Polymers.ufjc.lennard_jones.thermodynamics.isotensional.asymptotic.LENNARDJONESFJC α) (force : α) (temperature : α) : α :=
  Polymers.ufjc.lennard_jones.thermodynamics.isotensional.asymptotic.relative_gibbs_free_energy self.number_of_links self.link_length self.link_stiffness force temperature

/-- `src/physics/single_chain/ufjc/lennard_jones/thermodynamics/isotensional/asymptotic/mod.rs` lines 171-174. -/
def LENNARDJONESFJC.relative_gibbs_free_energy_per_link (self : Polymers.ufjc.lennard_jones.thermodynamics.isotensional.asymptotic.LENNARDJONESFJC α) (force : α) (temperature : α) : α :=
  Polymers.ufjc.lennard_jones.thermodynamics.isotensional.asymptotic.relative_gibbs_free_energy_per_link self.link_length self.link_stiffness force temperature

/-- `src/physics/single_chain/ufjc/lennard_jones/thermodynamics/isotensional/asymptotic/mod.rs` lines 176-179. -/
def LENNARDJONESFJC.nondimensional_gibbs_free_energy (self : Polymers.ufjc.lennard_jones.thermodynamics.isotensional.asymptotic.LENNARDJONESFJC α) (nondimensional_force : α) (temperature : α) : α :=
  Polymers.ufjc.lennard_jones.thermodynamics.isotensional.asymptotic.nondimensional_gibbs_free_energy self.number_of_links self.link_length self.hinge_mass (self.link_stiffness * Elem.powi self.link_length 2 / (Polymers.BOLTZMANN_CONSTANT : α) / temperature) nondimensional_force temperature

/-- `src/physics/single_chain/ufjc/lennard_jones/thermodynamics/isotensional/asymptotic/mod.rs` lines 181-184. -/
def LENNARDJONESFJC.nondimensional_gibbs_free_energy_per_link (self : Polymers.ufjc.lennard_jones.thermodynamics.isotensional.asymptotic.LENNARDJONESFJC α) (nondimensional_force : α) (temperature : α) : α :=
  Polymers.ufjc.lennard_jones.thermodynamics.isotensional.asymptotic.nondimensional_gibbs_free_energy_per_link self.link_length self.hinge_mass (self.link_stiffness * Elem.powi self.link_length 2 / (Polymers.BOLTZMANN_CONSTANT : α) / temperature) nondimensional_force temperature

/-- `src/physics/single_chain/ufjc/lennard_jones/thermodynamics/isotensional/asymptotic/mod.rs` lines 186-189. -/
def LENNARDJONESFJC.nondimensional_relative_gibbs_free_energy (self : Polymers.ufjc.lennard_jones.thermodynamics.isotensional.asymptotic.LENNARDJONESFJC α) (nondimensional_force : α) (temperature : α) : α :=
  Polymers.ufjc.lennard_jones.thermodynamics.isotensional.asymptotic.nondimensional_relative_gibbs_free_energy self.number_of_links (self.link_stiffness * Elem.powi self.link_length 2 / (Polymers.BOLTZMANN_CONSTANT : α) / temperature) nondimensional_force

/-- `src/physics/single_chain/ufjc/lennard_jones/thermodynamics/isotensional/asymptotic/mod.rs` lines 191-194. -/
def LENNARDJONESFJC.nondimensional_relative_gibbs_free_energy_per_link (self : Polymers.ufjc.lennard_jones.thermodynamics.isotensional.asymptotic.LENNARDJONESFJC α) (nondimensional_force : α) (temperature : α) : α :=
  Polymers.ufjc.lennard_jones.thermodynamics.isotensional.asymptotic.nondimensional_relative_gibbs_free_energy_per_link (self.link_stiffness * Elem.powi self.link_length 2 / (Polymers.BOLTZMANN_CONSTANT : α) / temperature) nondimensional_force

end Polymers.ufjc.lennard_jones.thermodynamics.isotensional.asymptotic

namespace Polymers.ufjc.lennard_jones.thermodynamics.isotensional.legendre

/-- `src/physics/single_chain/ufjc/lennard_jones/thermodynamics/isotensional/legendre/mod.rs` lines 23-36: struct `LENNARDJONESFJC`. -/
structure LENNARDJONESFJC (α : Type) where
  /-- field `hinge_mass` -/
  hinge_mass : α
  /-- field `link_length` -/
  link_length : α
  /-- field `number_of_links` -/
  number_of_links : Nat
  /-- field `link_stiffness` -/
  link_stiffness : α

/-- `src/physics/single_chain/ufjc/lennard_jones/thermodynamics/isotensional/legendre/mod.rs` lines 69-89. -/
def nondimensional_helmholtz_free_energy_per_link (link_length : α) (hinge_mass : α) (nondimensional_link_stiffness : α) (nondimensional_force : α) (temperature : α) : α :=
  let nondimensional_link_stretch_max : α := Elem.powf (13.0 / 7.0) (1.0 / 6.0)
  let rescaled_partition_function_integrand : α → α := fun (nondimensional_link_stretch : α) => (let exponent_1 : α := nondimensional_force * nondimensional_link_stretch - nondimensional_link_stiffness / 72.0 * (Elem.powi nondimensional_link_stretch (-12) - 2.0 * Elem.powi nondimensional_link_stretch (-6)) + Elem.ln nondimensional_link_stretch - Elem.ln nondimensional_force; let exponent_2 : α := exponent_1 - 2.0 * nondimensional_force * nondimensional_link_stretch; Elem.exp exponent_1 - Elem.exp exponent_2)
  let rescaled_partition_function : α := Polymers.math.integrate_1d rescaled_partition_function_integrand (Polymers.ZERO : α) nondimensional_link_stretch_max Polymers.POINTS
  let nondimensional_end_to_end_length_per_link_integrand : α → α := fun (nondimensional_link_stretch : α) => (let exponent_1 : α := nondimensional_force * nondimensional_link_stretch - nondimensional_link_stiffness / 72.0 * (Elem.powi nondimensional_link_stretch (-12) - 2.0 * Elem.powi nondimensional_link_stretch (-6)) + 2.0 * Elem.ln nondimensional_link_stretch - Elem.ln nondimensional_force; let exponent_2 : α := exponent_1 - 2.0 * nondimensional_force * nondimensional_link_stretch; let exponent_3 : α := exponent_1 - Elem.ln nondimensional_link_stretch - Elem.ln nondimensional_force; let exponent_4 : α := exponent_3 - 2.0 * nondimensional_force * nondimensional_link_stretch; (Elem.exp exponent_1 + Elem.exp exponent_2 - Elem.exp exponent_3 + Elem.exp exponent_4) / rescaled_partition_function)
  let nondimensional_end_to_end_length_per_link : α := Polymers.math.integrate_1d nondimensional_end_to_end_length_per_link_integrand (Polymers.ZERO : α) nondimensional_link_stretch_max Polymers.POINTS
  (-Elem.ln rescaled_partition_function) - Elem.ln (8.0 * Elem.powi (Elem.pi : α) 2 * hinge_mass * Elem.powi link_length 2 * (Polymers.BOLTZMANN_CONSTANT : α) * temperature / Elem.powi (Polymers.PLANCK_CONSTANT : α) 2) + nondimensional_force * nondimensional_end_to_end_length_per_link

/-- `src/physics/single_chain/ufjc/lennard_jones/thermodynamics/isotensional/legendre/mod.rs` lines 63-66. -/
def nondimensional_helmholtz_free_energy (number_of_links : Nat) (link_length : α) (hinge_mass : α) (nondimensional_link_stiffness : α) (nondimensional_force : α) (temperature : α) : α :=
  (number_of_links : α) * Polymers.ufjc.lennard_jones.thermodynamics.isotensional.legendre.nondimensional_helmholtz_free_energy_per_link link_length hinge_mass nondimensional_link_stiffness nondimensional_force temperature

/-- `src/physics/single_chain/ufjc/lennard_jones/thermodynamics/isotensional/legendre/mod.rs` lines 39-42. -/
def helmholtz_free_energy (number_of_links : Nat) (link_length : α) (hinge_mass : α) (link_stiffness : α) (force : α) (temperature : α) : α :=
  (Polymers.BOLTZMANN_CONSTANT : α) * temperature * Polymers.ufjc.lennard_jones.thermodynamics.isotensional.legendre.nondimensional_helmholtz_free_energy number_of_links link_length hinge_mass (link_stiffness * Elem.powi link_length 2 / (Polymers.BOLTZMANN_CONSTANT : α) / temperature) (force / (Polymers.BOLTZMANN_CONSTANT : α) / temperature * link_length) temperature

/-- `src/physics/single_chain/ufjc/lennard_jones/thermodynamics/isotensional/legendre/mod.rs` lines 45-48. -/
def helmholtz_free_energy_per_link (link_length : α) (hinge_mass : α) (link_stiffness : α) (force : α) (temperature : α) : α :=
  (Polymers.BOLTZMANN_CONSTANT : α) * temperature * Polymers.ufjc.lennard_jones.thermodynamics.isotensional.legendre.nondimensional_helmholtz_free_energy_per_link link_length hinge_mass (link_stiffness * Elem.powi link_length 2 / (Polymers.BOLTZMANN_CONSTANT : α) / temperature) (force / (Polymers.BOLTZMANN_CONSTANT : α) / temperature * link_length) temperature

/-- `src/physics/single_chain/ufjc/lennard_jones/thermodynamics/isotensional/legendre/mod.rs` lines 51-54. -/
def relative_helmholtz_free_energy (number_of_links : Nat) (link_length : α) (link_stiffness : α) (force : α) (temperature : α) : α :=
  Polymers.ufjc.lennard_jones.thermodynamics.isotensional.legendre.helmholtz_free_energy number_of_links link_length 1.0 link_stiffness force temperature - Polymers.ufjc.lennard_jones.thermodynamics.isotensional.legendre.helmholtz_free_energy number_of_links link_length 1.0 link_stiffness ((Polymers.ZERO : α) * (Polymers.BOLTZMANN_CONSTANT : α) * temperature / link_length) temperature

/-- `src/physics/single_chain/ufjc/lennard_jones/thermodynamics/isotensional/legendre/mod.rs` lines 57-60. -/
def relative_helmholtz_free_energy_per_link (link_length : α) (link_stiffness : α) (force : α) (temperature : α) : α :=
  Polymers.ufjc.lennard_jones.thermodynamics.isotensional.legendre.helmholtz_free_energy_per_link link_length 1.0 link_stiffness force temperature - Polymers.ufjc.lennard_jones.thermodynamics.isotensional.legendre.helmholtz_free_energy_per_link link_length 1.0 link_stiffness ((Polymers.ZERO : α) * (Polymers.BOLTZMANN_CONSTANT : α) * temperature / link_length) temperature

/-- `src/physics/single_chain/ufjc/lennard_jones/thermodynamics/isotensional/legendre/mod.rs` lines 92-95. -/
def nondimensional_relative_helmholtz_free_energy (number_of_links : Nat) (nondimensional_link_stiffness : α) (nondimensional_force : α) : α :=
  Polymers.ufjc.lennard_jones.thermodynamics.isotensional.legendre.nondimensional_helmholtz_free_energy number_of_links 1.0 1.0 nondimensional_link_stiffness nondimensional_force 300.0 - Polymers.ufjc.lennard_jones.thermodynamics.isotensional.legendre.nondimensional_helmholtz_free_energy number_of_links 1.0 1.0 nondimensional_link_stiffness (Polymers.ZERO : α) 300.0

/-- `src/physics/single_chain/ufjc/lennard_jones/thermodynamics/isotensional/legendre/mod.rs` lines 98-101. -/
def nondimensional_relative_helmholtz_free_energy_per_link (nondimensional_link_stiffness : α) (nondimensional_force : α) : α :=
  Polymers.ufjc.lennard_jones.thermodynamics.isotensional.legendre.nondimensional_helmholtz_free_energy_per_link 1.0 1.0 nondimensional_link_stiffness nondimensional_force 300.0 - Polymers.ufjc.lennard_jones.thermodynamics.isotensional.legendre.nondimensional_helmholtz_free_energy_per_link 1.0 1.0 nondimensional_link_stiffness (Polymers.ZERO : α) 300.0

/-- `src/physics/single_chain/ufjc/lennard_jones/thermodynamics/isotensional/legendre/mod.rs` lines 107-116. -/
def LENNARDJONESFJC.init (number_of_links : Nat) (link_length : α) (hinge_mass : α) (link_stiffness : α) : Polymers.ufjc.lennard_jones.thermodynamics.isotensional.legendre.LENNARDJONESFJC α :=
  { hinge_mass := hinge_mass, link_length := link_length, number_of_links := number_of_links, link_stiffness := link_stiffness }

/-- `src/physics/single_chain/ufjc/lennard_jones/thermodynamics/isotensional/legendre/mod.rs` lines 118-121. -/
def LENNARDJONESFJC.helmholtz_free_energy (self : Polymers.ufjc.lennard_jones.thermodynamics.isotensional.legendre.LENNARDJONESFJC α) (force : α) (temperature : α) : α :=
  Polymers.ufjc.lennard_jones.thermodynamics.isotensional.legendre.helmholtz_free_energy self.number_of_links self.link_length self.hinge_mass self.link_stiffness force temperature

/-- `src/physics/single_chain/ufjc/lennard_jones/thermodynamics/isotensional/legendre/mod.rs` lines 123-126. -/
def LENNARDJONESFJC.helmholtz_free_energy_per_link (self : Polymers.ufjc.lennard_jones.thermodynamics.isotensional.legendre.LENNARDJONESFJC α) (force : α) (temperature : α) : α :=
  Polymers.ufjc.lennard_jones.thermodynamics.isotensional.legendre.helmholtz_free_energy_per_link self.link_length self.hinge_mass self.link_stiffness force temperature

/-- `src/physics/single_chain/ufjc/lennard_jones/thermodynamics/isotensional/legendre/mod.rs` lines 128-131. -/
def LENNARDJONESFJC.relative_helmholtz_free_energy (self : Polymers.ufjc.lennard_jones.thermodynamics.isotensional.legendre.LENNARDJONESFJC α) (force : α) (temperature : α) : α :=
  Polymers.ufjc.lennard_jones.thermodynamics.isotensional.legendre.relative_helmholtz_free_energy self.number_of_links self.link_length self.link_stiffness force temperature

/-- `src/physics/single_chain/ufjc/lennard_jones/thermodynamics/isotensional/legendre/mod.rs` lines 133-136. -/
def LENNARDJONESFJC.relative_helmholtz_free_energy_per_link (self : Polymers.ufjc.lennard_jones.thermodynamics.isotensional.legendre.LENNARDJONESFJC α) (force : α) (temperature : α) : α :=
  Polymers.ufjc.lennard_jones.thermodynamics.isotensional.legendre.relative_helmholtz_free_energy_per_link self.link_length self.link_stiffness force temperature

/-- `src/physics/single_chain/ufjc/lennard_jones/thermodynamics/isotensional/legendre/mod.rs` lines 138-141. -/
def LENNARDJONESFJC.nondimensional_helmholtz_free_energy (self : Polymers.ufjc.lennard_jones.thermodynamics.isotensional.legendre.LENNARDJONESFJC α) (nondimensional_force : α) (temperature : α) : α :=
  Polymers.ufjc.lennard_jones.thermodynamics.isotensional.legendre.nondimensional_helmholtz_free_energy self.number_of_links self.link_length self.hinge_mass (self.link_stiffness * Elem.powi self.link_length 2 / (Polymers.BOLTZMANN_CONSTANT : α) / temperature) nondimensional_force temperature

/-- `src/physics/single_chain/ufjc/lennard_jones/thermodynamics/isotensional/legendre/mod.rs` lines 143-146. -/
def LENNARDJONESFJC.nondimensional_helmholtz_free_energy_per_link (self : Polymers.ufjc.lennard_jones.thermodynamics.isotensional.legendre.LENNARDJONESFJC α) (nondimensional_force : α) (temperature : α) : α :=
  Polymers.ufjc.lennard_jones.thermodynamics.isotensional.legendre.nondimensional_helmholtz_free_energy_per_link self.link_length self.hinge_mass (self.link_stiffness * Elem.powi self.link_length 2 / (Polymers.BOLTZMANN_CONSTANT : α) / temperature) nondimensional_force temperature

/-- `src/physics/single_chain/ufjc/lennard_jones/thermodynamics/isotensional/legendre/mod.rs` lines 148-151. -/
def LENNARDJONESFJC.nondimensional_relative_helmholtz_free_energy (self : Polymers.ufjc.lennard_jones.thermodynamics.isotensional.legendre.LENNARDJONESFJC α) (nondimensional_force : α) (temperature : α) : α :=
  Polymers.ufjc.lennard_jones.thermodynamics.isotensional.legendre.nondimensional_relative_helmholtz_free_energy self.number_of_links (self.link_stiffness * Elem.powi self.link_length 2 / (Polymers.BOLTZMANN_CONSTANT : α) / temperature) nondimensional_force

/-- `src/physics/single_chain/ufjc/lennard_jones/thermodynamics/isotensional/legendre/mod.rs` lines 153-156. -/
def LENNARDJONESFJC.nondimensional_relative_helmholtz_free_energy_per_link (self : Polymers.ufjc.lennard_jones.thermodynamics.isotensional.legendre.LENNARDJONESFJC α) (nondimensional_force : α) (temperature : α) : α :=
  Polymers.ufjc.lennard_jones.thermodynamics.isotensional.legendre.nondimensional_relative_helmholtz_free_energy_per_link (self.link_stiffness * Elem.powi self.link_length 2 / (Polymers.BOLTZMANN_CONSTANT : α) / temperature) nondimensional_force

end Polymers.ufjc.lennard_jones.thermodynamics.isotensional.legendre

namespace Polymers.ufjc.lennard_jones.thermodynamics.isometric

/-- `src/physics/single_chain/ufjc/lennard_jones/thermodynamics/isometric/mod.rs` lines 10-26: struct `LENNARDJONESFJC`. -/
structure LENNARDJONESFJC (α : Type) where
  /-- field `hinge_mass` -/
  hinge_mass : α
  /-- field `link_length` -/
  link_length : α
  /-- field `number_of_links` -/
  number_of_links : Nat
  /-- field `link_stiffness` -/
  link_stiffness : α
  /-- field `asymptotic` -/
  asymptotic : Polymers.ufjc.lennard_jones.thermodynamics.isometric.asymptotic.LENNARDJONESFJC α

/-- `src/physics/single_chain/ufjc/lennard_jones/thermodynamics/isometric/mod.rs` lines 32-42. -/
def LENNARDJONESFJC.init (number_of_links : Nat) (link_length : α) (hinge_mass : α) (link_stiffness : α) : Polymers.ufjc.lennard_jones.thermodynamics.isometric.LENNARDJONESFJC α :=
  { hinge_mass := hinge_mass, link_length := link_length, number_of_links := number_of_links, link_stiffness := link_stiffness, asymptotic := Polymers.ufjc.lennard_jones.thermodynamics.isometric.asymptotic.LENNARDJONESFJC.init number_of_links link_length hinge_mass link_stiffness }

end Polymers.ufjc.lennard_jones.thermodynamics.isometric

namespace Polymers.ufjc.lennard_jones.thermodynamics.isotensional

/-- `src/physics/single_chain/ufjc/lennard_jones/thermodynamics/isotensional/mod.rs` lines 30-49: struct `LENNARDJONESFJC`. -/
structure LENNARDJONESFJC (α : Type) where
  /-- field `hinge_mass` -/
  hinge_mass : α
  /-- field `link_length` -/
  link_length : α
  /-- field `number_of_links` -/
  number_of_links : Nat
  /-- field `link_stiffness` -/
  link_stiffness : α
  /-- field `asymptotic` -/
  asymptotic : Polymers.ufjc.lennard_jones.thermodynamics.isotensional.asymptotic.LENNARDJONESFJC α
  /-- field `legendre` -/
  legendre : Polymers.ufjc.lennard_jones.thermodynamics.isotensional.legendre.LENNARDJONESFJC α

/-- `src/physics/single_chain/ufjc/lennard_jones/thermodynamics/isotensional/mod.rs` lines 70-89. -/
def nondimensional_end_to_end_length_per_link (nondimensional_link_stiffness : α) (nondimensional_force : α) : α :=
  let nondimensional_link_stretch_max : α := Elem.powf (13.0 / 7.0) (1.0 / 6.0)
  let rescaled_partition_function_integrand : α → α := fun (nondimensional_link_stretch : α) => (let exponent_1 : α := nondimensional_force * nondimensional_link_stretch - nondimensional_link_stiffness / 72.0 * (Elem.powi nondimensional_link_stretch (-12) - 2.0 * Elem.powi nondimensional_link_stretch (-6)) + Elem.ln nondimensional_link_stretch - Elem.ln nondimensional_force; let exponent_2 : α := exponent_1 - 2.0 * nondimensional_force * nondimensional_link_stretch; Elem.exp exponent_1 - Elem.exp exponent_2)
  let rescaled_partition_function : α := Polymers.math.integrate_1d rescaled_partition_function_integrand (Polymers.ZERO : α) nondimensional_link_stretch_max Polymers.POINTS
  let nondimensional_end_to_end_length_per_link_integrand : α → α := fun (nondimensional_link_stretch : α) => (let exponent_1 : α := nondimensional_force * nondimensional_link_stretch - nondimensional_link_stiffness / 72.0 * (Elem.powi nondimensional_link_stretch (-12) - 2.0 * Elem.powi nondimensional_link_stretch (-6)) + 2.0 * Elem.ln nondimensional_link_stretch - Elem.ln nondimensional_force; let exponent_2 : α := exponent_1 - 2.0 * nondimensional_force * nondimensional_link_stretch; let exponent_3 : α := exponent_1 - Elem.ln nondimensional_link_stretch - Elem.ln nondimensional_force; let exponent_4 : α := exponent_3 - 2.0 * nondimensional_force * nondimensional_link_stretch; (Elem.exp exponent_1 + Elem.exp exponent_2 - Elem.exp exponent_3 + Elem.exp exponent_4) / rescaled_partition_function)
  Polymers.math.integrate_1d nondimensional_end_to_end_length_per_link_integrand (Polymers.ZERO : α) nondimensional_link_stretch_max Polymers.POINTS

/-- `src/physics/single_chain/ufjc/lennard_jones/thermodynamics/isotensional/mod.rs` lines 64-67. -/
def nondimensional_end_to_end_length (number_of_links : Nat) (nondimensional_link_stiffness : α) (nondimensional_force : α) : α :=
  (number_of_links : α) * Polymers.ufjc.lennard_jones.thermodynamics.isotensional.nondimensional_end_to_end_length_per_link nondimensional_link_stiffness nondimensional_force

/-- `src/physics/single_chain/ufjc/lennard_jones/thermodynamics/isotensional/mod.rs` lines 52-55. -/
def end_to_end_length (number_of_links : Nat) (link_length : α) (link_stiffness : α) (force : α) (temperature : α) : α :=
  link_length * Polymers.ufjc.lennard_jones.thermodynamics.isotensional.nondimensional_end_to_end_length number_of_links (link_stiffness * Elem.powi link_length 2 / (Polymers.BOLTZMANN_CONSTANT : α) / temperature) (force * link_length / (Polymers.BOLTZMANN_CONSTANT : α) / temperature)

/-- `src/physics/single_chain/ufjc/lennard_jones/thermodynamics/isotensional/mod.rs` lines 58-61. -/
def end_to_end_length_per_link (link_length : α) (link_stiffness : α) (force : α) (temperature : α) : α :=
  link_length * Polymers.ufjc.lennard_jones.thermodynamics.isotensional.nondimensional_end_to_end_length_per_link (link_stiffness * Elem.powi link_length 2 / (Polymers.BOLTZMANN_CONSTANT : α) / temperature) (force * link_length / (Polymers.BOLTZMANN_CONSTANT : α) / temperature)

/-- `src/physics/single_chain/ufjc/lennard_jones/thermodynamics/isotensional/mod.rs` lines 122-133. -/
def nondimensional_gibbs_free_energy_per_link (link_length : α) (hinge_mass : α) (nondimensional_link_stiffness : α) (nondimensional_force : α) (temperature : α) : α :=
  let nondimensional_link_stretch_max : α := Elem.powf (13.0 / 7.0) (1.0 / 6.0)
  let rescaled_partition_function_integrand : α → α := fun (nondimensional_link_stretch : α) => (let exponent_1 : α := nondimensional_force * nondimensional_link_stretch - nondimensional_link_stiffness / 72.0 * (Elem.powi nondimensional_link_stretch (-12) - 2.0 * Elem.powi nondimensional_link_stretch (-6)) + Elem.ln nondimensional_link_stretch - Elem.ln nondimensional_force; let exponent_2 : α := exponent_1 - 2.0 * nondimensional_force * nondimensional_link_stretch; Elem.exp exponent_1 - Elem.exp exponent_2)
  let rescaled_partition_function : α := Polymers.math.integrate_1d rescaled_partition_function_integrand (Polymers.ZERO : α) nondimensional_link_stretch_max Polymers.POINTS
  (-Elem.ln rescaled_partition_function) - Elem.ln (8.0 * Elem.powi (Elem.pi : α) 2 * hinge_mass * Elem.powi link_length 2 * (Polymers.BOLTZMANN_CONSTANT : α) * temperature / Elem.powi (Polymers.PLANCK_CONSTANT : α) 2)

/-- `src/physics/single_chain/ufjc/lennard_jones/thermodynamics/isotensional/mod.rs` lines 116-119. -/
def nondimensional_gibbs_free_energy (number_of_links : Nat) (link_length : α) (hinge_mass : α) (nondimensional_link_stiffness : α) (nondimensional_force : α) (temperature : α) : α :=
  (number_of_links : α) * Polymers.ufjc.lennard_jones.thermodynamics.isotensional.nondimensional_gibbs_free_energy_per_link link_length hinge_mass nondimensional_link_stiffness nondimensional_force temperature

/-- `src/physics/single_chain/ufjc/lennard_jones/thermodynamics/isotensional/mod.rs` lines 92-95. -/
def gibbs_free_energy (number_of_links : Nat) (link_length : α) (hinge_mass : α) (link_stiffness : α) (force : α) (temperature : α) : α :=
  (Polymers.BOLTZMANN_CONSTANT : α) * temperature * Polymers.ufjc.lennard_jones.thermodynamics.isotensional.nondimensional_gibbs_free_energy number_of_links link_length hinge_mass (link_stiffness * Elem.powi link_length 2 / (Polymers.BOLTZMANN_CONSTANT : α) / temperature) (force * link_length / (Polymers.BOLTZMANN_CONSTANT : α) / temperature) temperature

/-- `src/physics/single_chain/ufjc/lennard_jones/thermodynamics/isotensional/mod.rs` lines 98-101. -/
def gibbs_free_energy_per_link (link_length : α) (hinge_mass : α) (link_stiffness : α) (force : α) (temperature : α) : α :=
  (Polymers.BOLTZMANN_CONSTANT : α) * temperature * Polymers.ufjc.lennard_jones.thermodynamics.isotensional.nondimensional_gibbs_free_energy_per_link link_length hinge_mass (link_stiffness * Elem.powi link_length 2 / (Polymers.BOLTZMANN_CONSTANT : α) / temperature) (force * link_length / (Polymers.BOLTZMANN_CONSTANT : α) / temperature) temperature

/-- `src/physics/single_chain/ufjc/lennard_jones/thermodynamics/isotensional/mod.rs` lines 104-107. -/
def relative_gibbs_free_energy (number_of_links : Nat) (link_length : α) (link_stiffness : α) (force : α) (temperature : α) : α :=
  Polymers.ufjc.lennard_jones.thermodynamics.isotensional.gibbs_free_energy number_of_links link_length 1.0 link_stiffness force temperature - Polymers.ufjc.lennard_jones.thermodynamics.isotensional.gibbs_free_energy number_of_links link_length 1.0 link_stiffness ((Polymers.ZERO : α) * (Polymers.BOLTZMANN_CONSTANT : α) * temperature / link_length) temperature

/-- `src/physics/single_chain/ufjc/lennard_jones/thermodynamics/isotensional/mod.rs` lines 110-113. -/
def relative_gibbs_free_energy_per_link (link_length : α) (link_stiffness : α) (force : α) (temperature : α) : α :=
  Polymers.ufjc.lennard_jones.thermodynamics.isotensional.gibbs_free_energy_per_link link_length 1.0 link_stiffness force temperature - Polymers.ufjc.lennard_jones.thermodynamics.isotensional.gibbs_free_energy_per_link link_length 1.0 link_stiffness ((Polymers.ZERO : α) * (Polymers.BOLTZMANN_CONSTANT : α) * temperature / link_length) temperature

/-- `src/physics/single_chain/ufjc/lennard_jones/thermodynamics/isotensional/mod.rs` lines 136-139. -/
def nondimensional_relative_gibbs_free_energy (number_of_links : Nat) (nondimensional_link_stiffness : α) (nondimensional_force : α) : α :=
  Polymers.ufjc.lennard_jones.thermodynamics.isotensional.nondimensional_gibbs_free_energy number_of_links 1.0 1.0 nondimensional_link_stiffness nondimensional_force 300.0 - Polymers.ufjc.lennard_jones.thermodynamics.isotensional.nondimensional_gibbs_free_energy number_of_links 1.0 1.0 nondimensional_link_stiffness (Polymers.ZERO : α) 300.0

/-- `src/physics/single_chain/ufjc/lennard_jones/thermodynamics/isotensional/mod.rs` lines 142-145. -/
def nondimensional_relative_gibbs_free_energy_per_link (nondimensional_link_stiffness : α) (nondimensional_force : α) : α :=
  Polymers.ufjc.lennard_jones.thermodynamics.isotensional.nondimensional_gibbs_free_energy_per_link 1.0 1.0 nondimensional_link_stiffness nondimensional_force 300.0 - Polymers.ufjc.lennard_jones.thermodynamics.isotensional.nondimensional_gibbs_free_energy_per_link 1.0 1.0 nondimensional_link_stiffness (Polymers.ZERO : α) 300.0

/-- `src/physics/single_chain/ufjc/lennard_jones/thermodynamics/isotensional/mod.rs` lines 151-162. -/
def LENNARDJONESFJC.init (number_of_links : Nat) (link_length : α) (hinge_mass : α) (link_stiffness : α) : Polymers.ufjc.lennard_jones.thermodynamics.isotensional.LENNARDJONESFJC α :=
  { hinge_mass := hinge_mass, link_length := link_length, number_of_links := number_of_links, link_stiffness := link_stiffness, asymptotic := Polymers.ufjc.lennard_jones.thermodynamics.isotensional.asymptotic.LENNARDJONESFJC.init number_of_links link_length hinge_mass link_stiffness, legendre := Polymers.ufjc.lennard_jones.thermodynamics.isotensional.legendre.LENNARDJONESFJC.init number_of_links link_length hinge_mass link_stiffness }

/-- `src/physics/single_chain/ufjc/lennard_jones/thermodynamics/isotensional/mod.rs` lines 164-167. -/
def LENNARDJONESFJC.end_to_end_length (self : Polymers.ufjc.lennard_jones.thermodynamics.isotensional.LENNARDJONESFJC α) (force : α) (temperature : α) : α :=
  Polymers.ufjc.lennard_jones.thermodynamics.isotensional.end_to_end_length self.number_of_links self.link_length self.link_stiffness force temperature

/-- `src/physics/single_chain/ufjc/lennard_jones/thermodynamics/isotensional/mod.rs` lines 169-172. -/
def LENNARDJONESFJC.end_to_end_length_per_link (self : Polymers.ufjc.lennard_jones.thermodynamics.isotensional.LENNARDJONESFJC α) (force : α) (temperature : α) : α :=
  Polymers.ufjc.lennard_jones.thermodynamics.isotensional.end_to_end_length_per_link self.link_length self.link_stiffness force temperature

/-- `src/physics/single_chain/ufjc/lennard_jones/thermodynamics/isotensional/mod.rs` lines 174-177. -/
def LENNARDJONESFJC.nondimensional_end_to_end_length (self : Polymers.ufjc.lennard_jones.thermodynamics.isotensional.LENNARDJONESFJC α) (nondimensional_force : α) (temperature : α) : α :=
  Polymers.ufjc.lennard_jones.thermodynamics.isotensional.nondimensional_end_to_end_length self.number_of_links (self.link_stiffness * Elem.powi self.link_length 2 / (Polymers.BOLTZMANN_CONSTANT : α) / temperature) nondimensional_force

/-- `src/physics/single_chain/ufjc/lennard_jones/thermodynamics/isotensional/mod.rs` lines 179-182. -/
def LENNARDJONESFJC.nondimensional_end_to_end_length_per_link (self : Polymers.ufjc.lennard_jones.thermodynamics.isotensional.LENNARDJONESFJC α) (nondimensional_force : α) (temperature : α) : α :=
  Polymers.ufjc.lennard_jones.thermodynamics.isotensional.nondimensional_end_to_end_length_per_link (self.link_stiffness * Elem.powi self.link_length 2 / (Polymers.BOLTZMANN_CONSTANT : α) / temperature) nondimensional_force

/-- `src/physics/single_chain/ufjc/lennard_jones/thermodynamics/isotensional/mod.rs` lines 184-187. -/
def LENNARDJONESFJC.gibbs_free_energy (self : Polymers.ufjc.lennard_jones.thermodynamics.isotensional.LENNARDJONESFJC α) (force : α) (temperature : α) : α :=
  Polymers.ufjc.lennard_jones.thermodynamics.isotensional.gibbs_free_energy self.number_of_links self.link_length self.hinge_mass self.link_stiffness force temperature

/-- `src/physics/single_chain/ufjc/lennard_jones/thermodynamics/isotensional/mod.rs` lines 189-192. -/
def LENNARDJONESFJC.gibbs_free_energy_per_link (self : Polymers.ufjc.lennard_jones.thermodynamics.isotensional.LENNARDJONESFJC α) (force : α) (temperature : α) : α :=
  Polymers.ufjc.lennard_jones.thermodynamics.isotensional.gibbs_free_energy_per_link self.link_length self.hinge_mass self.link_stiffness force temperature

/-- `src/physics/single_chain/ufjc/lennard_jones/thermodynamics/isotensional/mod.rs` lines 194-197. -/
def LENNARDJONESFJC.relative_gibbs_free_energy (self : Polymers.ufjc.lennard_jones.thermodynamics.isotensional.LENNARDJONESFJC α) (force : α) (temperature : α) : α :=
  Polymers.ufjc.lennard_jones.thermodynamics.isotensional.relative_gibbs_free_energy self.number_of_links self.link_length self.link_stiffness force temperature

/-- `src/physics/single_chain/ufjc/lennard_jones/thermodynamics/isotensional/mod.rs` lines 199-202. -/
def LENNARDJONESFJC.relative_gibbs_free_energy_per_link (self : Polymers.ufjc.lennard_jones.thermodynamics.isotensional.LENNARDJONESFJC α) (force : α) (temperature : α) : α :=
  Polymers.ufjc.lennard_jones.thermodynamics.isotensional.relative_gibbs_free_energy_per_link self.link_length self.link_stiffness force temperature

/-- `src/physics/single_chain/ufjc/lennard_jones/thermodynamics/isotensional/mod.rs` lines 204-207. -/
def LENNARDJONESFJC.nondimensional_gibbs_free_energy (self : Polymers.ufjc.lennard_jones.thermodynamics.isotensional.LENNARDJONESFJC α) (nondimensional_force : α) (temperature : α) : α :=
  Polymers.ufjc.lennard_jones.thermodynamics.isotensional.nondimensional_gibbs_free_energy self.number_of_links self.link_length self.hinge_mass (self.link_stiffness * Elem.powi self.link_length 2 / (Polymers.BOLTZMANN_CONSTANT : α) / temperature) nondimensional_force temperature

/-- `src/physics/single_chain/ufjc/lennard_jones/thermodynamics/isotensional/mod.rs` lines 209-212. -/
def LENNARDJONESFJC.nondimensional_gibbs_free_energy_per_link (self : Polymers.ufjc.lennard_jones.thermodynamics.isotensional.LENNARDJONESFJC α) (nondimensional_force : α) (temperature : α) : α :=
  Polymers.ufjc.lennard_jones.thermodynamics.isotensional.nondimensional_gibbs_free_energy_per_link self.link_length self.hinge_mass (self.link_stiffness * Elem.powi self.link_length 2 / (Polymers.BOLTZMANN_CONSTANT : α) / temperature) nondimensional_force temperature

/-- `src/physics/single_chain/ufjc/lennard_jones/thermodynamics/isotensional/mod.rs` lines 214-217. -/
def LENNARDJONESFJC.nondimensional_relative_gibbs_free_energy (self : Polymers.ufjc.lennard_jones.thermodynamics.isotensional.LENNARDJONESFJC α) (nondimensional_force : α) (temperature : α) : α :=
  Polymers.ufjc.lennard_jones.thermodynamics.isotensional.nondimensional_relative_gibbs_free_energy self.number_of_links (self.link_stiffness * Elem.powi self.link_length 2 / (Polymers.BOLTZMANN_CONSTANT : α) / temperature) nondimensional_force

/-- `src/physics/single_chain/ufjc/lennard_jones/thermodynamics/isotensional/mod.rs` lines 219-222. -/
def LENNARDJONESFJC.nondimensional_relative_gibbs_free_energy_per_link (self : Polymers.ufjc.lennard_jones.thermodynamics.isotensional.LENNARDJONESFJC α) (nondimensional_force : α) (temperature : α) : α :=
  Polymers.ufjc.lennard_jones.thermodynamics.isotensional.nondimensional_relative_gibbs_free_energy_per_link (self.link_stiffness * Elem.powi self.link_length 2 / (Polymers.BOLTZMANN_CONSTANT : α) / temperature) nondimensional_force

end Polymers.ufjc.lennard_jones.thermodynamics.isotensional

namespace Polymers.ufjc.lennard_jones.thermodynamics

/-- `src/physics/single_chain/ufjc/lennard_jones/thermodynamics/mod.rs` lines 15-34: struct `LENNARDJONESFJC`. -/
structure LENNARDJONESFJC (α : Type) where
  /-- field `hinge_mass` -/
  hinge_mass : α
  /-- field `link_length` -/
  link_length : α
  /-- field `number_of_links` -/
  number_of_links : Nat
  /-- field `link_stiffness` -/
  link_stiffness : α
  /-- field `isometric` -/
  isometric : Polymers.ufjc.lennard_jones.thermodynamics.isometric.LENNARDJONESFJC α
  /-- field `isotensional` -/
  isotensional : Polymers.ufjc.lennard_jones.thermodynamics.isotensional.LENNARDJONESFJC α

/-- `src/physics/single_chain/ufjc/lennard_jones/thermodynamics/mod.rs` lines 40-51. -/
def LENNARDJONESFJC.init (number_of_links : Nat) (link_length : α) (hinge_mass : α) (link_stiffness : α) : Polymers.ufjc.lennard_jones.thermodynamics.LENNARDJONESFJC α :=
  { hinge_mass := hinge_mass, link_length := link_length, number_of_links := number_of_links, link_stiffness := link_stiffness, isometric := Polymers.ufjc.lennard_jones.thermodynamics.isometric.LENNARDJONESFJC.init number_of_links link_length hinge_mass link_stiffness, isotensional := Polymers.ufjc.lennard_jones.thermodynamics.isotensional.LENNARDJONESFJC.init number_of_links link_length hinge_mass link_stiffness }

end Polymers.ufjc.lennard_jones.thermodynamics

namespace Polymers.ufjc.lennard_jones

/-- `src/physics/single_chain/ufjc/lennard_jones/mod.rs` lines 10-26: struct `LENNARDJONESFJC`. -/
structure LENNARDJONESFJC (α : Type) where
  /-- field `hinge_mass` -/
  hinge_mass : α
  /-- field `link_length` -/
  link_length : α
  /-- field `number_of_links` -/
  number_of_links : Nat
  /-- field `link_stiffness` -/
  link_stiffness : α
  /-- field `thermodynamics` -/
  thermodynamics : Polymers.ufjc.lennard_jones.thermodynamics.LENNARDJONESFJC α

/-- `src/physics/single_chain/ufjc/lennard_jones/mod.rs` lines 32-42. -/
def LENNARDJONESFJC.init (number_of_links : Nat) (link_length : α) (hinge_mass : α) (link_stiffness : α) : Polymers.ufjc.lennard_jones.LENNARDJONESFJC α :=
  { hinge_mass := hinge_mass, link_length := link_length, number_of_links := number_of_links, link_stiffness := link_stiffness, thermodynamics := Polymers.ufjc.lennard_jones.thermodynamics.LENNARDJONESFJC.init number_of_links link_length hinge_mass link_stiffness }

end Polymers.ufjc.lennard_jones
