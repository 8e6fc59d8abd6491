/- Generated by tools/rust2lean.py from /repo/src/physics/single_chain/efjc ; do not edit by hand. -/
import Verif.Model.Math

set_option linter.unusedVariables false

open Polymers

variable {α : Type} [Add α] [Sub α] [Mul α] [Div α] [Neg α] [OfScientific α] [NatCast α] [Elem α]

namespace Polymers.efjc.thermodynamics.isometric.asymptotic.alternative.legendre

/-- `src/physics/single_chain/efjc/thermodynamics/isometric/asymptotic/alternative/legendre/mod.rs` lines 23-36: struct `EFJC`. -/
structure EFJC (α : Type) where
  /-- field `hinge_mass` -/
  hinge_mass : α
  /-- field `link_length` -/
  link_length : α
  /-- field `number_of_links` -/
  number_of_links : Nat
  /-- field `link_stiffness` -/
  link_stiffness : α

/-- `src/physics/single_chain/efjc/thermodynamics/isometric/asymptotic/alternative/legendre/mod.rs` lines 45-56. -/
def nondimensional_force (nondimensional_link_stiffness : α) (nondimensional_end_to_end_length_per_link : α) : α :=
  let guess : α := if Elem.lt nondimensional_end_to_end_length_per_link 1.0 then (Polymers.math.inverse_langevin nondimensional_end_to_end_length_per_link) else (nondimensional_link_stiffness * (nondimensional_end_to_end_length_per_link - 1.0))
  Polymers.math.inverse_newton_raphson nondimensional_end_to_end_length_per_link (fun (nondimensional_force : α) => 1.0 / Elem.tanh nondimensional_force - 1.0 / nondimensional_force + (nondimensional_force + 1.0 / Elem.tanh nondimensional_force - nondimensional_force / Elem.powi (Elem.sinh nondimensional_force) 2) / nondimensional_link_stiffness) (fun (nondimensional_force : α) => 1.0 / Elem.powi nondimensional_force 2 - 1.0 / Elem.powi (Elem.sinh nondimensional_force) 2 + (1.0 + 2.0 * (nondimensional_force / Elem.tanh nondimensional_force - 1.0) / Elem.powi (Elem.sinh nondimensional_force) 2) / nondimensional_link_stiffness) guess 1e-6 100

/-- `src/physics/single_chain/efjc/thermodynamics/isometric/asymptotic/alternative/legendre/mod.rs` lines 39-42. -/
def force (number_of_links : Nat) (link_length : α) (link_stiffness : α) (end_to_end_length : α) (temperature : α) : α :=
  (Polymers.BOLTZMANN_CONSTANT : α) * temperature / link_length * Polymers.efjc.thermodynamics.isometric.asymptotic.alternative.legendre.nondimensional_force (link_stiffness * Elem.powi link_length 2 / (Polymers.BOLTZMANN_CONSTANT : α) / temperature) (end_to_end_length / ((number_of_links : α) * link_length))

/-- `src/physics/single_chain/efjc/thermodynamics/isometric/asymptotic/alternative/legendre/mod.rs` lines 89-93. -/
def nondimensional_helmholtz_free_energy_per_link (number_of_links : Nat) (link_length : α) (hinge_mass : α) (nondimensional_link_stiffness : α) (nondimensional_end_to_end_length_per_link : α) (temperature : α) : α :=
  let nondimensional_force : α := Polymers.efjc.thermodynamics.isometric.asymptotic.alternative.legendre.nondimensional_force nondimensional_link_stiffness nondimensional_end_to_end_length_per_link
  (-Elem.ln (Elem.sinh nondimensional_force / nondimensional_force)) - (0.5 * Elem.powi nondimensional_force 2 + nondimensional_force / Elem.tanh nondimensional_force) / nondimensional_link_stiffness + nondimensional_force * nondimensional_end_to_end_length_per_link - (1.0 - 1.0 / (number_of_links : α)) * (0.5 * Elem.ln (2.0 * (Elem.pi : α) * Elem.powi link_length 2 / nondimensional_link_stiffness) + Elem.ln (8.0 * Elem.powi (Elem.pi : α) 2 * hinge_mass * Elem.powi link_length 2 * (Polymers.BOLTZMANN_CONSTANT : α) * temperature / Elem.powi (Polymers.PLANCK_CONSTANT : α) 2))

/-- `src/physics/single_chain/efjc/thermodynamics/isometric/asymptotic/alternative/legendre/mod.rs` lines 83-86. -/
def nondimensional_helmholtz_free_energy (number_of_links : Nat) (link_length : α) (hinge_mass : α) (nondimensional_link_stiffness : α) (nondimensional_end_to_end_length_per_link : α) (temperature : α) : α :=
  (number_of_links : α) * Polymers.efjc.thermodynamics.isometric.asymptotic.alternative.legendre.nondimensional_helmholtz_free_energy_per_link number_of_links link_length hinge_mass nondimensional_link_stiffness nondimensional_end_to_end_length_per_link temperature

/-- `src/physics/single_chain/efjc/thermodynamics/isometric/asymptotic/alternative/legendre/mod.rs` lines 59-62. -/
def helmholtz_free_energy (number_of_links : Nat) (link_length : α) (hinge_mass : α) (link_stiffness : α) (end_to_end_length : α) (temperature : α) : α :=
  (Polymers.BOLTZMANN_CONSTANT : α) * temperature * Polymers.efjc.thermodynamics.isometric.asymptotic.alternative.legendre.nondimensional_helmholtz_free_energy number_of_links link_length hinge_mass (link_stiffness * Elem.powi link_length 2 / (Polymers.BOLTZMANN_CONSTANT : α) / temperature) (end_to_end_length / (number_of_links : α) / link_length) temperature

/-- `src/physics/single_chain/efjc/thermodynamics/isometric/asymptotic/alternative/legendre/mod.rs` lines 65-68. -/
def helmholtz_free_energy_per_link (number_of_links : Nat) (link_length : α) (hinge_mass : α) (link_stiffness : α) (end_to_end_length : α) (temperature : α) : α :=
  (Polymers.BOLTZMANN_CONSTANT : α) * temperature * Polymers.efjc.thermodynamics.isometric.asymptotic.alternative.legendre.nondimensional_helmholtz_free_energy_per_link number_of_links link_length hinge_mass (link_stiffness * Elem.powi link_length 2 / (Polymers.BOLTZMANN_CONSTANT : α) / temperature) (end_to_end_length / (number_of_links : α) / link_length) temperature

/-- `src/physics/single_chain/efjc/thermodynamics/isometric/asymptotic/alternative/legendre/mod.rs` lines 71-74. -/
def relative_helmholtz_free_energy (number_of_links : Nat) (link_length : α) (link_stiffness : α) (end_to_end_length : α) (temperature : α) : α :=
  Polymers.efjc.thermodynamics.isometric.asymptotic.alternative.legendre.helmholtz_free_energy number_of_links link_length 1.0 link_stiffness end_to_end_length temperature - Polymers.efjc.thermodynamics.isometric.asymptotic.alternative.legendre.helmholtz_free_energy number_of_links link_length 1.0 link_stiffness ((Polymers.ZERO : α) * (number_of_links : α) * link_length) temperature

/-- `src/physics/single_chain/efjc/thermodynamics/isometric/asymptotic/alternative/legendre/mod.rs` lines 77-80. -/
def relative_helmholtz_free_energy_per_link (number_of_links : Nat) (link_length : α) (link_stiffness : α) (end_to_end_length : α) (temperature : α) : α :=
  Polymers.efjc.thermodynamics.isometric.asymptotic.alternative.legendre.helmholtz_free_energy_per_link number_of_links link_length 1.0 link_stiffness end_to_end_length temperature - Polymers.efjc.thermodynamics.isometric.asymptotic.alternative.legendre.helmholtz_free_energy_per_link number_of_links link_length 1.0 link_stiffness ((Polymers.ZERO : α) * (number_of_links : α) * link_length) temperature

/-- `src/physics/single_chain/efjc/thermodynamics/isometric/asymptotic/alternative/legendre/mod.rs` lines 96-99. -/
def nondimensional_relative_helmholtz_free_energy (number_of_links : Nat) (nondimensional_link_stiffness : α) (nondimensional_end_to_end_length_per_link : α) : α :=
  Polymers.efjc.thermodynamics.isometric.asymptotic.alternative.legendre.nondimensional_helmholtz_free_energy number_of_links 1.0 1.0 nondimensional_link_stiffness nondimensional_end_to_end_length_per_link 300.0 - Polymers.efjc.thermodynamics.isometric.asymptotic.alternative.legendre.nondimensional_helmholtz_free_energy number_of_links 1.0 1.0 nondimensional_link_stiffness (Polymers.ZERO : α) 300.0

/-- `src/physics/single_chain/efjc/thermodynamics/isometric/asymptotic/alternative/legendre/mod.rs` lines 102-105. -/
def nondimensional_relative_helmholtz_free_energy_per_link (nondimensional_link_stiffness : α) (nondimensional_end_to_end_length_per_link : α) : α :=
  Polymers.efjc.thermodynamics.isometric.asymptotic.alternative.legendre.nondimensional_helmholtz_free_energy_per_link 8 1.0 1.0 nondimensional_link_stiffness nondimensional_end_to_end_length_per_link 300.0 - Polymers.efjc.thermodynamics.isometric.asymptotic.alternative.legendre.nondimensional_helmholtz_free_energy_per_link 8 1.0 1.0 nondimensional_link_stiffness (Polymers.ZERO : α) 300.0

/-- `src/physics/single_chain/efjc/thermodynamics/isometric/asymptotic/alternative/legendre/mod.rs` lines 111-120. -/
def EFJC.init (number_of_links : Nat) (link_length : α) (hinge_mass : α) (link_stiffness : α) : Polymers.efjc.thermodynamics.isometric.asymptotic.alternative.legendre.EFJC α :=
  { hinge_mass := hinge_mass, link_length := link_length, number_of_links := number_of_links, link_stiffness := link_stiffness }

/-- `src/physics/single_chain/efjc/thermodynamics/isometric/asymptotic/alternative/legendre/mod.rs` lines 122-125. -/
def EFJC.force (self : Polymers.efjc.thermodynamics.isometric.asymptotic.alternative.legendre.EFJC α) (end_to_end_length : α) (temperature : α) : α :=
  Polymers.efjc.thermodynamics.isometric.asymptotic.alternative.legendre.force self.number_of_links self.link_length self.link_stiffness end_to_end_length temperature

/-- `src/physics/single_chain/efjc/thermodynamics/isometric/asymptotic/alternative/legendre/mod.rs` lines 127-130. -/
def EFJC.nondimensional_force (self : Polymers.efjc.thermodynamics.isometric.asymptotic.alternative.legendre.EFJC α) (nondimensional_end_to_end_length_per_link : α) (temperature : α) : α :=
  Polymers.efjc.thermodynamics.isometric.asymptotic.alternative.legendre.nondimensional_force (self.link_stiffness * Elem.powi self.link_length 2 / (Polymers.BOLTZMANN_CONSTANT : α) / temperature) nondimensional_end_to_end_length_per_link

/-- `src/physics/single_chain/efjc/thermodynamics/isometric/asymptotic/alternative/legendre/mod.rs` lines 132-135. -/
def EFJC.helmholtz_free_energy (self : Polymers.efjc.thermodynamics.isometric.asymptotic.alternative.legendre.EFJC α) (end_to_end_length : α) (temperature : α) : α :=
  Polymers.efjc.thermodynamics.isometric.asymptotic.alternative.legendre.helmholtz_free_energy self.number_of_links self.link_length self.hinge_mass self.link_stiffness end_to_end_length temperature

/-- `src/physics/single_chain/efjc/thermodynamics/isometric/asymptotic/alternative/legendre/mod.rs` lines 137-140. -/
def EFJC.helmholtz_free_energy_per_link (self : Polymers.efjc.thermodynamics.isometric.asymptotic.alternative.legendre.EFJC α) (end_to_end_length : α) (temperature : α) : α :=
  Polymers.efjc.thermodynamics.isometric.asymptotic.alternative.legendre.helmholtz_free_energy_per_link self.number_of_links self.link_length self.hinge_mass self.link_stiffness end_to_end_length temperature

/-- `src/physics/single_chain/efjc/thermodynamics/isometric/asymptotic/alternative/legendre/mod.rs` lines 142-145. -/
def EFJC.relative_helmholtz_free_energy (self : Polymers.efjc.thermodynamics.isometric.asymptotic.alternative.legendre.EFJC α) (end_to_end_length : α) (temperature : α) : α :=
  Polymers.efjc.thermodynamics.isometric.asymptotic.alternative.legendre.relative_helmholtz_free_energy self.number_of_links self.link_length self.link_stiffness end_to_end_length temperature

/-- `src/physics/single_chain/efjc/thermodynamics/isometric/asymptotic/alternative/legendre/mod.rs` lines 147-150. -/
def EFJC.relative_helmholtz_free_energy_per_link (self : Polymers.efjc.thermodynamics.isometric.asymptotic.alternative.legendre.EFJC α) (end_to_end_length : α) (temperature : α) : α :=
  Polymers.efjc.thermodynamics.isometric.asymptotic.alternative.legendre.relative_helmholtz_free_energy_per_link self.number_of_links self.link_length self.link_stiffness end_to_end_length temperature

/-- `src/physics/single_chain/efjc/thermodynamics/isometric/asymptotic/alternative/legendre/mod.rs` lines 152-155. -/
def EFJC.nondimensional_helmholtz_free_energy (self : Polymers.efjc.thermodynamics.isometric.asymptotic.alternative.legendre.EFJC α) (nondimensional_end_to_end_length_per_link : α) (temperature : α) : α :=
  Polymers.efjc.thermodynamics.isometric.asymptotic.alternative.legendre.nondimensional_helmholtz_free_energy self.number_of_links self.link_length self.hinge_mass (self.link_stiffness * Elem.powi self.link_length 2 / (Polymers.BOLTZMANN_CONSTANT : α) / temperature) nondimensional_end_to_end_length_per_link temperature

/-- `src/physics/single_chain/efjc/thermodynamics/isometric/asymptotic/alternative/legendre/mod.rs` lines 157-160. -/
def EFJC.nondimensional_helmholtz_free_energy_per_link (self : Polymers.efjc.thermodynamics.isometric.asymptotic.alternative.legendre.EFJC α) (nondimensional_end_to_end_length_per_link : α) (temperature : α) : α :=
  Polymers.efjc.thermodynamics.isometric.asymptotic.alternative.legendre.nondimensional_helmholtz_free_energy_per_link self.number_of_links self.link_length self.hinge_mass (self.link_stiffness * Elem.powi self.link_length 2 / (Polymers.BOLTZMANN_CONSTANT : α) / temperature) nondimensional_end_to_end_length_per_link temperature

/-- `src/physics/single_chain/efjc/thermodynamics/isometric/asymptotic/alternative/legendre/mod.rs` lines 162-165. -/
def EFJC.nondimensional_relative_helmholtz_free_energy (self : Polymers.efjc.thermodynamics.isometric.asymptotic.alternative.legendre.EFJC α) (nondimensional_end_to_end_length_per_link : α) (temperature : α) : α :=
  Polymers.efjc.thermodynamics.isometric.asymptotic.alternative.legendre.nondimensional_relative_helmholtz_free_energy self.number_of_links (self.link_stiffness * Elem.powi self.link_length 2 / (Polymers.BOLTZMANN_CONSTANT : α) / temperature) nondimensional_end_to_end_length_per_link

/-- `src/physics/single_chain/efjc/thermodynamics/isometric/asymptotic/alternative/legendre/mod.rs` lines 167-170. -/
def EFJC.nondimensional_relative_helmholtz_free_energy_per_link (self : Polymers.efjc.thermodynamics.isometric.asymptotic.alternative.legendre.EFJC α) (nondimensional_end_to_end_length_per_link : α) (temperature : α) : α :=
  Polymers.efjc.thermodynamics.isometric.asymptotic.alternative.legendre.nondimensional_relative_helmholtz_free_energy_per_link (self.link_stiffness * Elem.powi self.link_length 2 / (Polymers.BOLTZMANN_CONSTANT : α) / temperature) nondimensional_end_to_end_length_per_link

end Polymers.efjc.thermodynamics.isometric.asymptotic.alternative.legendre

namespace Polymers.efjc.thermodynamics.isometric.asymptotic.reduced.legendre

/-- `src/physics/single_chain/efjc/thermodynamics/isometric/asymptotic/reduced/legendre/mod.rs` lines 23-36: struct `EFJC`. -/
structure EFJC (α : Type) where
  /-- field `hinge_mass` -/
  hinge_mass : α
  /-- field `link_length` -/
  link_length : α
  /-- field `number_of_links` -/
  number_of_links : Nat
  /-- field `link_stiffness` -/
  link_stiffness : α

/-- `src/physics/single_chain/efjc/thermodynamics/isometric/asymptotic/reduced/legendre/mod.rs` lines 45-56. -/
def nondimensional_force (nondimensional_link_stiffness : α) (nondimensional_end_to_end_length_per_link : α) : α :=
  let guess : α := if Elem.lt nondimensional_end_to_end_length_per_link 1.0 then (Polymers.math.inverse_langevin nondimensional_end_to_end_length_per_link) else (nondimensional_link_stiffness * (nondimensional_end_to_end_length_per_link - 1.0))
  Polymers.math.inverse_newton_raphson nondimensional_end_to_end_length_per_link (fun (nondimensional_force : α) => 1.0 / Elem.tanh nondimensional_force - 1.0 / nondimensional_force + nondimensional_force / nondimensional_link_stiffness) (fun (nondimensional_force : α) => 1.0 / Elem.powi nondimensional_force 2 - 1.0 / Elem.powi (Elem.sinh nondimensional_force) 2 + 1.0 / nondimensional_link_stiffness) guess 1e-6 100

/-- `src/physics/single_chain/efjc/thermodynamics/isometric/asymptotic/reduced/legendre/mod.rs` lines 39-42. -/
def force (number_of_links : Nat) (link_length : α) (link_stiffness : α) (end_to_end_length : α) (temperature : α) : α :=
  (Polymers.BOLTZMANN_CONSTANT : α) * temperature / link_length * Polymers.efjc.thermodynamics.isometric.asymptotic.reduced.legendre.nondimensional_force (link_stiffness * Elem.powi link_length 2 / (Polymers.BOLTZMANN_CONSTANT : α) / temperature) (end_to_end_length / ((number_of_links : α) * link_length))

/-- `src/physics/single_chain/efjc/thermodynamics/isometric/asymptotic/reduced/legendre/mod.rs` lines 89-93. -/
def nondimensional_helmholtz_free_energy_per_link (number_of_links : Nat) (link_length : α) (hinge_mass : α) (nondimensional_link_stiffness : α) (nondimensional_end_to_end_length_per_link : α) (temperature : α) : α :=
  let nondimensional_force : α := Polymers.efjc.thermodynamics.isometric.asymptotic.reduced.legendre.nondimensional_force nondimensional_link_stiffness nondimensional_end_to_end_length_per_link
  (-Elem.ln (Elem.sinh nondimensional_force / nondimensional_force)) - 0.5 * Elem.powi nondimensional_force 2 / nondimensional_link_stiffness + nondimensional_force * nondimensional_end_to_end_length_per_link - (1.0 - 1.0 / (number_of_links : α)) * (0.5 * Elem.ln (2.0 * (Elem.pi : α) * Elem.powi link_length 2 / nondimensional_link_stiffness) + Elem.ln (8.0 * Elem.powi (Elem.pi : α) 2 * hinge_mass * Elem.powi link_length 2 * (Polymers.BOLTZMANN_CONSTANT : α) * temperature / Elem.powi (Polymers.PLANCK_CONSTANT : α) 2))

/-- `src/physics/single_chain/efjc/thermodynamics/isometric/asymptotic/reduced/legendre/mod.rs` lines 83-86. -/
def nondimensional_helmholtz_free_energy (number_of_links : Nat) (link_length : α) (hinge_mass : α) (nondimensional_link_stiffness : α) (nondimensional_end_to_end_length_per_link : α) (temperature : α) : α :=
  (number_of_links : α) * Polymers.efjc.thermodynamics.isometric.asymptotic.reduced.legendre.nondimensional_helmholtz_free_energy_per_link number_of_links link_length hinge_mass nondimensional_link_stiffness nondimensional_end_to_end_length_per_link temperature

/-- `src/physics/single_chain/efjc/thermodynamics/isometric/asymptotic/reduced/legendre/mod.rs` lines 59-62. -/
def helmholtz_free_energy (number_of_links : Nat) (link_length : α) (hinge_mass : α) (link_stiffness : α) (end_to_end_length : α) (temperature : α) : α :=
  (Polymers.BOLTZMANN_CONSTANT : α) * temperature * Polymers.efjc.thermodynamics.isometric.asymptotic.reduced.legendre.nondimensional_helmholtz_free_energy number_of_links link_length hinge_mass (link_stiffness * Elem.powi link_length 2 / (Polymers.BOLTZMANN_CONSTANT : α) / temperature) (end_to_end_length / (number_of_links : α) / link_length) temperature

/-- `src/physics/single_chain/efjc/thermodynamics/isometric/asymptotic/reduced/legendre/mod.rs` lines 65-68. -/
def helmholtz_free_energy_per_link (number_of_links : Nat) (link_length : α) (hinge_mass : α) (link_stiffness : α) (end_to_end_length : α) (temperature : α) : α :=
  (Polymers.BOLTZMANN_CONSTANT : α) * temperature * Polymers.efjc.thermodynamics.isometric.asymptotic.reduced.legendre.nondimensional_helmholtz_free_energy_per_link number_of_links link_length hinge_mass (link_stiffness * Elem.powi link_length 2 / (Polymers.BOLTZMANN_CONSTANT : α) / temperature) (end_to_end_length / (number_of_links : α) / link_length) temperature

/-- `src/physics/single_chain/efjc/thermodynamics/isometric/asymptotic/reduced/legendre/mod.rs` lines 71-74. -/
def relative_helmholtz_free_energy (number_of_links : Nat) (link_length : α) (link_stiffness : α) (end_to_end_length : α) (temperature : α) : α :=
  Polymers.efjc.thermodynamics.isometric.asymptotic.reduced.legendre.helmholtz_free_energy number_of_links link_length 1.0 link_stiffness end_to_end_length temperature - Polymers.efjc.thermodynamics.isometric.asymptotic.reduced.legendre.helmholtz_free_energy number_of_links link_length 1.0 link_stiffness ((Polymers.ZERO : α) * (number_of_links : α) * link_length) temperature

/-- `src/physics/single_chain/efjc/thermodynamics/isometric/asymptotic/reduced/legendre/mod.rs` lines 77-80. -/
def relative_helmholtz_free_energy_per_link (number_of_links : Nat) (link_length : α) (link_stiffness : α) (end_to_end_length : α) (temperature : α) : α :=
  Polymers.efjc.thermodynamics.isometric.asymptotic.reduced.legendre.helmholtz_free_energy_per_link number_of_links link_length 1.0 link_stiffness end_to_end_length temperature - Polymers.efjc.thermodynamics.isometric.asymptotic.reduced.legendre.helmholtz_free_energy_per_link number_of_links link_length 1.0 link_stiffness ((Polymers.ZERO : α) * (number_of_links : α) * link_length) temperature

/-- `src/physics/single_chain/efjc/thermodynamics/isometric/asymptotic/reduced/legendre/mod.rs` lines 96-99. -/
def nondimensional_relative_helmholtz_free_energy (number_of_links : Nat) (nondimensional_link_stiffness : α) (nondimensional_end_to_end_length_per_link : α) : α :=
  Polymers.efjc.thermodynamics.isometric.asymptotic.reduced.legendre.nondimensional_helmholtz_free_energy number_of_links 1.0 1.0 nondimensional_link_stiffness nondimensional_end_to_end_length_per_link 300.0 - Polymers.efjc.thermodynamics.isometric.asymptotic.reduced.legendre.nondimensional_helmholtz_free_energy number_of_links 1.0 1.0 nondimensional_link_stiffness (Polymers.ZERO : α) 300.0

/-- `src/physics/single_chain/efjc/thermodynamics/isometric/asymptotic/reduced/legendre/mod.rs` lines 102-105. -/
def nondimensional_relative_helmholtz_free_energy_per_link (nondimensional_link_stiffness : α) (nondimensional_end_to_end_length_per_link : α) : α :=
  Polymers.efjc.thermodynamics.isometric.asymptotic.reduced.legendre.nondimensional_helmholtz_free_energy_per_link 8 1.0 1.0 nondimensional_link_stiffness nondimensional_end_to_end_length_per_link 300.0 - Polymers.efjc.thermodynamics.isometric.asymptotic.reduced.legendre.nondimensional_helmholtz_free_energy_per_link 8 1.0 1.0 nondimensional_link_stiffness (Polymers.ZERO : α) 300.0

/-- `src/physics/single_chain/efjc/thermodynamics/isometric/asymptotic/reduced/legendre/mod.rs` lines 111-120. -/
def EFJC.init (number_of_links : Nat) (link_length : α) (hinge_mass : α) (link_stiffness : α) : Polymers.efjc.thermodynamics.isometric.asymptotic.reduced.legendre.EFJC α :=
  { hinge_mass := hinge_mass, link_length := link_length, number_of_links := number_of_links, link_stiffness := link_stiffness }

/-- `src/physics/single_chain/efjc/thermodynamics/isometric/asymptotic/reduced/legendre/mod.rs` lines 122-125. -/
def EFJC.force (self : Polymers.efjc.thermodynamics.isometric.asymptotic.reduced.legendre.EFJC α) (end_to_end_length : α) (temperature : α) : α :=
  Polymers.efjc.thermodynamics.isometric.asymptotic.reduced.legendre.force self.number_of_links self.link_length self.link_stiffness end_to_end_length temperature

/-- `src/physics/single_chain/efjc/thermodynamics/isometric/asymptotic/reduced/legendre/mod.rs` lines 127-130. -/
def EFJC.nondimensional_force (self : Polymers.efjc.thermodynamics.isometric.asymptotic.reduced.legendre.EFJC α) (nondimensional_end_to_end_length_per_link : α) (temperature : α) : α :=
  Polymers.efjc.thermodynamics.isometric.asymptotic.reduced.legendre.nondimensional_force (self.link_stiffness * Elem.powi self.link_length 2 / (Polymers.BOLTZMANN_CONSTANT : α) / temperature) nondimensional_end_to_end_length_per_link

/-- `src/physics/single_chain/efjc/thermodynamics/isometric/asymptotic/reduced/legendre/mod.rs` lines 132-135. -/
def EFJC.helmholtz_free_energy (self : Polymers.efjc.thermodynamics.isometric.asymptotic.reduced.legendre.EFJC α) (end_to_end_length : α) (temperature : α) : α :=
  Polymers.efjc.thermodynamics.isometric.asymptotic.reduced.legendre.helmholtz_free_energy self.number_of_links self.link_length self.hinge_mass self.link_stiffness end_to_end_length temperature

/-- `src/physics/single_chain/efjc/thermodynamics/isometric/asymptotic/reduced/legendre/mod.rs` lines 137-140. -/
def EFJC.helmholtz_free_energy_per_link (self : Polymers.efjc.thermodynamics.isometric.asymptotic.reduced.legendre.EFJC α) (end_to_end_length : α) (temperature : α) : α :=
  Polymers.efjc.thermodynamics.isometric.asymptotic.reduced.legendre.helmholtz_free_energy_per_link self.number_of_links self.link_length self.hinge_mass self.link_stiffness end_to_end_length temperature

/-- `src/physics/single_chain/efjc/thermodynamics/isometric/asymptotic/reduced/legendre/mod.rs` lines 142-145. -/
def EFJC.relative_helmholtz_free_energy (self : Polymers.efjc.thermodynamics.isometric.asymptotic.reduced.legendre.EFJC α) (end_to_end_length : α) (temperature : α) : α :=
  Polymers.efjc.thermodynamics.isometric.asymptotic.reduced.legendre.relative_helmholtz_free_energy self.number_of_links self.link_length self.link_stiffness end_to_end_length temperature

/-- `src/physics/single_chain/efjc/thermodynamics/isometric/asymptotic/reduced/legendre/mod.rs` lines 147-150. -/
def EFJC.relative_helmholtz_free_energy_per_link (self : Polymers.efjc.thermodynamics.isometric.asymptotic.reduced.legendre.EFJC α) (end_to_end_length : α) (temperature : α) : α :=
  Polymers.efjc.thermodynamics.isometric.asymptotic.reduced.legendre.relative_helmholtz_free_energy_per_link self.number_of_links self.link_length self.link_stiffness end_to_end_length temperature

/-- `src/physics/single_chain/efjc/thermodynamics/isometric/asymptotic/reduced/legendre/mod.rs` lines 152-155. -/
def EFJC.nondimensional_helmholtz_free_energy (self : Polymers.efjc.thermodynamics.isometric.asymptotic.reduced.legendre.EFJC α) (nondimensional_end_to_end_length_per_link : α) (temperature : α) : α :=
  Polymers.efjc.thermodynamics.isometric.asymptotic.reduced.legendre.nondimensional_helmholtz_free_energy self.number_of_links self.link_length self.hinge_mass (self.link_stiffness * Elem.powi self.link_length 2 / (Polymers.BOLTZMANN_CONSTANT : α) / temperature) nondimensional_end_to_end_length_per_link temperature

/-- `src/physics/single_chain/efjc/thermodynamics/isometric/asymptotic/reduced/legendre/mod.rs` lines 157-160. -/
def EFJC.nondimensional_helmholtz_free_energy_per_link (self : Polymers.efjc.thermodynamics.isometric.asymptotic.reduced.legendre.EFJC α) (nondimensional_end_to_end_length_per_link : α) (temperature : α) : α :=
  Polymers.efjc.thermodynamics.isometric.asymptotic.reduced.legendre.nondimensional_helmholtz_free_energy_per_link self.number_of_links self.link_length self.hinge_mass (self.link_stiffness * Elem.powi self.link_length 2 / (Polymers.BOLTZMANN_CONSTANT : α) / temperature) nondimensional_end_to_end_length_per_link temperature

/-- `src/physics/single_chain/efjc/thermodynamics/isometric/asymptotic/reduced/legendre/mod.rs` lines 162-165. -/
def EFJC.nondimensional_relative_helmholtz_free_energy (self : Polymers.efjc.thermodynamics.isometric.asymptotic.reduced.legendre.EFJC α) (nondimensional_end_to_end_length_per_link : α) (temperature : α) : α :=
  Polymers.efjc.thermodynamics.isometric.asymptotic.reduced.legendre.nondimensional_relative_helmholtz_free_energy self.number_of_links (self.link_stiffness * Elem.powi self.link_length 2 / (Polymers.BOLTZMANN_CONSTANT : α) / temperature) nondimensional_end_to_end_length_per_link

/-- `src/physics/single_chain/efjc/thermodynamics/isometric/asymptotic/reduced/legendre/mod.rs` lines 167-170. -/
def EFJC.nondimensional_relative_helmholtz_free_energy_per_link (self : Polymers.efjc.thermodynamics.isometric.asymptotic.reduced.legendre.EFJC α) (nondimensional_end_to_end_length_per_link : α) (temperature : α) : α :=
  Polymers.efjc.thermodynamics.isometric.asymptotic.reduced.legendre.nondimensional_relative_helmholtz_free_energy_per_link (self.link_stiffness * Elem.powi self.link_length 2 / (Polymers.BOLTZMANN_CONSTANT : α) / temperature) nondimensional_end_to_end_length_per_link

end Polymers.efjc.thermodynamics.isometric.asymptotic.reduced.legendre

namespace Polymers.efjc.thermodynamics.isotensional.asymptotic.alternative.legendre

/-- `src/physics/single_chain/efjc/thermodynamics/isotensional/asymptotic/alternative/legendre/mod.rs` lines 18-31: struct `EFJC`. -/
structure EFJC (α : Type) where
  /-- field `hinge_mass` -/
  hinge_mass : α
  /-- field `link_length` -/
  link_length : α
  /-- field `number_of_links` -/
  number_of_links : Nat
  /-- field `link_stiffness` -/
  link_stiffness : α

/-- `src/physics/single_chain/efjc/thermodynamics/isotensional/asymptotic/alternative/legendre/mod.rs` lines 64-67. -/
def nondimensional_helmholtz_free_energy_per_link (link_length : α) (hinge_mass : α) (nondimensional_link_stiffness : α) (nondimensional_force : α) (temperature : α) : α :=
  (-Elem.ln (Elem.sinh nondimensional_force / nondimensional_force)) - (0.5 * Elem.powi nondimensional_force 2 + nondimensional_force / Elem.tanh nondimensional_force) / nondimensional_link_stiffness - 0.5 * Elem.ln (2.0 * (Elem.pi : α) * Elem.powi link_length 2 / nondimensional_link_stiffness) - Elem.ln (8.0 * Elem.powi (Elem.pi : α) 2 * hinge_mass * Elem.powi link_length 2 * (Polymers.BOLTZMANN_CONSTANT : α) * temperature / Elem.powi (Polymers.PLANCK_CONSTANT : α) 2) + nondimensional_force / Elem.tanh nondimensional_force - 1.0 + nondimensional_force * (nondimensional_force + 1.0 / Elem.tanh nondimensional_force - nondimensional_force / Elem.powi (Elem.sinh nondimensional_force) 2) / nondimensional_link_stiffness

/-- `src/physics/single_chain/efjc/thermodynamics/isotensional/asymptotic/alternative/legendre/mod.rs` lines 58-61. -/
def nondimensional_helmholtz_free_energy (number_of_links : Nat) (link_length : α) (hinge_mass : α) (nondimensional_link_stiffness : α) (nondimensional_force : α) (temperature : α) : α :=
  (number_of_links : α) * Polymers.efjc.thermodynamics.isotensional.asymptotic.alternative.legendre.nondimensional_helmholtz_free_energy_per_link link_length hinge_mass nondimensional_link_stiffness nondimensional_force temperature

/-- `src/physics/single_chain/efjc/thermodynamics/isotensional/asymptotic/alternative/legendre/mod.rs` lines 34-37. -/
def helmholtz_free_energy (number_of_links : Nat) (link_length : α) (hinge_mass : α) (link_stiffness : α) (force : α) (temperature : α) : α :=
  (Polymers.BOLTZMANN_CONSTANT : α) * temperature * Polymers.efjc.thermodynamics.isotensional.asymptotic.alternative.legendre.nondimensional_helmholtz_free_energy number_of_links link_length hinge_mass (link_stiffness * Elem.powi link_length 2 / (Polymers.BOLTZMANN_CONSTANT : α) / temperature) (force / (Polymers.BOLTZMANN_CONSTANT : α) / temperature * link_length) temperature

/-- `src/physics/single_chain/efjc/thermodynamics/isotensional/asymptotic/alternative/legendre/mod.rs` lines 40-43. -/
def helmholtz_free_energy_per_link (link_length : α) (hinge_mass : α) (link_stiffness : α) (force : α) (temperature : α) : α :=
  (Polymers.BOLTZMANN_CONSTANT : α) * temperature * Polymers.efjc.thermodynamics.isotensional.asymptotic.alternative.legendre.nondimensional_helmholtz_free_energy_per_link link_length hinge_mass (link_stiffness * Elem.powi link_length 2 / (Polymers.BOLTZMANN_CONSTANT : α) / temperature) (force / (Polymers.BOLTZMANN_CONSTANT : α) / temperature * link_length) temperature

/-- `src/physics/single_chain/efjc/thermodynamics/isotensional/asymptotic/alternative/legendre/mod.rs` lines 46-49. -/
def relative_helmholtz_free_energy (number_of_links : Nat) (link_length : α) (link_stiffness : α) (force : α) (temperature : α) : α :=
  Polymers.efjc.thermodynamics.isotensional.asymptotic.alternative.legendre.helmholtz_free_energy number_of_links link_length 1.0 link_stiffness force temperature - Polymers.efjc.thermodynamics.isotensional.asymptotic.alternative.legendre.helmholtz_free_energy number_of_links link_length 1.0 link_stiffness ((Polymers.ZERO : α) * (Polymers.BOLTZMANN_CONSTANT : α) * temperature / link_length) temperature

/-- `src/physics/single_chain/efjc/thermodynamics/isotensional/asymptotic/alternative/legendre/mod.rs` lines 52-55. -/
def relative_helmholtz_free_energy_per_link (link_length : α) (link_stiffness : α) (force : α) (temperature : α) : α :=
  Polymers.efjc.thermodynamics.isotensional.asymptotic.alternative.legendre.helmholtz_free_energy_per_link link_length 1.0 link_stiffness force temperature - Polymers.efjc.thermodynamics.isotensional.asymptotic.alternative.legendre.helmholtz_free_energy_per_link link_length 1.0 link_stiffness ((Polymers.ZERO : α) * (Polymers.BOLTZMANN_CONSTANT : α) * temperature / link_length) temperature

/-- `src/physics/single_chain/efjc/thermodynamics/isotensional/asymptotic/alternative/legendre/mod.rs` lines 70-73. -/
def nondimensional_relative_helmholtz_free_energy (number_of_links : Nat) (nondimensional_link_stiffness : α) (nondimensional_force : α) : α :=
  Polymers.efjc.thermodynamics.isotensional.asymptotic.alternative.legendre.nondimensional_helmholtz_free_energy number_of_links 1.0 1.0 nondimensional_link_stiffness nondimensional_force 300.0 - Polymers.efjc.thermodynamics.isotensional.asymptotic.alternative.legendre.nondimensional_helmholtz_free_energy number_of_links 1.0 1.0 nondimensional_link_stiffness (Polymers.ZERO : α) 300.0

/-- `src/physics/single_chain/efjc/thermodynamics/isotensional/asymptotic/alternative/legendre/mod.rs` lines 76-79. -/
def nondimensional_relative_helmholtz_free_energy_per_link (nondimensional_link_stiffness : α) (nondimensional_force : α) : α :=
  Polymers.efjc.thermodynamics.isotensional.asymptotic.alternative.legendre.nondimensional_helmholtz_free_energy_per_link 1.0 1.0 nondimensional_link_stiffness nondimensional_force 300.0 - Polymers.efjc.thermodynamics.isotensional.asymptotic.alternative.legendre.nondimensional_helmholtz_free_energy_per_link 1.0 1.0 nondimensional_link_stiffness (Polymers.ZERO : α) 300.0

/-- `src/physics/single_chain/efjc/thermodynamics/isotensional/asymptotic/alternative/legendre/mod.rs` lines 85-94. -/
def EFJC.init (number_of_links : Nat) (link_length : α) (hinge_mass : α) (link_stiffness : α) : Polymers.efjc.thermodynamics.isotensional.asymptotic.alternative.legendre.EFJC α :=
  { hinge_mass := hinge_mass, link_length := link_length, number_of_links := number_of_links, link_stiffness := link_stiffness }

/-- `src/physics/single_chain/efjc/thermodynamics/isotensional/asymptotic/alternative/legendre/mod.rs` lines 96-99. -/
def EFJC.helmholtz_free_energy (self : Polymers.efjc.thermodynamics.isotensional.asymptotic.alternative.legendre.EFJC α) (force : α) (temperature : α) : α :=
  Polymers.efjc.thermodynamics.isotensional.asymptotic.alternative.legendre.helmholtz_free_energy self.number_of_links self.link_length self.hinge_mass self.link_stiffness force temperature

/-- `src/physics/single_chain/efjc/thermodynamics/isotensional/asymptotic/alternative/legendre/mod.rs` lines 101-104. -/
def EFJC.helmholtz_free_energy_per_link (self : Polymers.efjc.thermodynamics.isotensional.asymptotic.alternative.legendre.EFJC α) (force : α) (temperature : α) : α :=
  Polymers.efjc.thermodynamics.isotensional.asymptotic.alternative.legendre.helmholtz_free_energy_per_link self.link_length self.hinge_mass self.link_stiffness force temperature

/-- `src/physics/single_chain/efjc/thermodynamics/isotensional/asymptotic/alternative/legendre/mod.rs` lines 106-109. -/
def EFJC.relative_helmholtz_free_energy (self : Polymers.efjc.thermodynamics.isotensional.asymptotic.alternative.legendre.EFJC α) (force : α) (temperature : α) : α :=
  Polymers.efjc.thermodynamics.isotensional.asymptotic.alternative.legendre.relative_helmholtz_free_energy self.number_of_links self.link_length self.link_stiffness force temperature

/-- `src/physics/single_chain/efjc/thermodynamics/isotensional/asymptotic/alternative/legendre/mod.rs` lines 111-114. -/
def EFJC.relative_helmholtz_free_energy_per_link (self : Polymers.efjc.thermodynamics.isotensional.asymptotic.alternative.legendre.EFJC α) (force : α) (temperature : α) : α :=
  Polymers.efjc.thermodynamics.isotensional.asymptotic.alternative.legendre.relative_helmholtz_free_energy_per_link self.link_length self.link_stiffness force temperature

/-- `src/physics/single_chain/efjc/thermodynamics/isotensional/asymptotic/alternative/legendre/mod.rs` lines 116-119. -/
def EFJC.nondimensional_helmholtz_free_energy (self : Polymers.efjc.thermodynamics.isotensional.asymptotic.alternative.legendre.EFJC α) (nondimensional_force : α) (temperature : α) : α :=
  Polymers.efjc.thermodynamics.isotensional.asymptotic.alternative.legendre.nondimensional_helmholtz_free_energy self.number_of_links self.link_length self.hinge_mass (self.link_stiffness * Elem.powi self.link_length 2 / (Polymers.BOLTZMANN_CONSTANT : α) / temperature) nondimensional_force temperature

/-- `src/physics/single_chain/efjc/thermodynamics/isotensional/asymptotic/alternative/legendre/mod.rs` lines 121-124. -/
def EFJC.nondimensional_helmholtz_free_energy_per_link (self : Polymers.efjc.thermodynamics.isotensional.asymptotic.alternative.legendre.EFJC α) (nondimensional_force : α) (temperature : α) : α :=
  Polymers.efjc.thermodynamics.isotensional.asymptotic.alternative.legendre.nondimensional_helmholtz_free_energy_per_link self.link_length self.hinge_mass (self.link_stiffness * Elem.powi self.link_length 2 / (Polymers.BOLTZMANN_CONSTANT : α) / temperature) nondimensional_force temperature

/-- `src/physics/single_chain/efjc/thermodynamics/isotensional/asymptotic/alternative/legendre/mod.rs` lines 126-129. -/
def EFJC.nondimensional_relative_helmholtz_free_energy (self : Polymers.efjc.thermodynamics.isotensional.asymptotic.alternative.legendre.EFJC α) (nondimensional_force : α) (temperature : α) : α :=
  Polymers.efjc.thermodynamics.isotensional.asymptotic.alternative.legendre.nondimensional_relative_helmholtz_free_energy self.number_of_links (self.link_stiffness * Elem.powi self.link_length 2 / (Polymers.BOLTZMANN_CONSTANT : α) / temperature) nondimensional_force

/-- `src/physics/single_chain/efjc/thermodynamics/isotensional/asymptotic/alternative/legendre/mod.rs` lines 131-134. -/
def EFJC.nondimensional_relative_helmholtz_free_energy_per_link (self : Polymers.efjc.thermodynamics.isotensional.asymptotic.alternative.legendre.EFJC α) (nondimensional_force : α) (temperature : α) : α :=
  Polymers.efjc.thermodynamics.isotensional.asymptotic.alternative.legendre.nondimensional_relative_helmholtz_free_energy_per_link (self.link_stiffness * Elem.powi self.link_length 2 / (Polymers.BOLTZMANN_CONSTANT : α) / temperature) nondimensional_force

end Polymers.efjc.thermodynamics.isotensional.asymptotic.alternative.legendre

namespace Polymers.efjc.thermodynamics.isotensional.asymptotic.reduced.legendre

/-- `src/physics/single_chain/efjc/thermodynamics/isotensional/asymptotic/reduced/legendre/mod.rs` lines 18-31: struct `EFJC`. -/
structure EFJC (α : Type) where
  /-- field `hinge_mass` -/
  hinge_mass : α
  /-- field `link_length` -/
  link_length : α
  /-- field `number_of_links` -/
  number_of_links : Nat
  /-- field `link_stiffness` -/
  link_stiffness : α

/-- `src/physics/single_chain/efjc/thermodynamics/isotensional/asymptotic/reduced/legendre/mod.rs` lines 64-67. -/
def nondimensional_helmholtz_free_energy_per_link (link_length : α) (hinge_mass : α) (nondimensional_link_stiffness : α) (nondimensional_force : α) (temperature : α) : α :=
  (-Elem.ln (Elem.sinh nondimensional_force / nondimensional_force)) + 0.5 * Elem.powi nondimensional_force 2 / nondimensional_link_stiffness - 0.5 * Elem.ln (2.0 * (Elem.pi : α) * Elem.powi link_length 2 / nondimensional_link_stiffness) - Elem.ln (8.0 * Elem.powi (Elem.pi : α) 2 * hinge_mass * Elem.powi link_length 2 * (Polymers.BOLTZMANN_CONSTANT : α) * temperature / Elem.powi (Polymers.PLANCK_CONSTANT : α) 2) + nondimensional_force / Elem.tanh nondimensional_force - 1.0

/-- `src/physics/single_chain/efjc/thermodynamics/isotensional/asymptotic/reduced/legendre/mod.rs` lines 58-61. -/
def nondimensional_helmholtz_free_energy (number_of_links : Nat) (link_length : α) (hinge_mass : α) (nondimensional_link_stiffness : α) (nondimensional_force : α) (temperature : α) : α :=
  (number_of_links : α) * Polymers.efjc.thermodynamics.isotensional.asymptotic.reduced.legendre.nondimensional_helmholtz_free_energy_per_link link_length hinge_mass nondimensional_link_stiffness nondimensional_force temperature

/-- `src/physics/single_chain/efjc/thermodynamics/isotensional/asymptotic/reduced/legendre/mod.rs` lines 34-37. -/
def helmholtz_free_energy (number_of_links : Nat) (link_length : α) (hinge_mass : α) (link_stiffness : α) (force : α) (temperature : α) : α :=
  (Polymers.BOLTZMANN_CONSTANT : α) * temperature * Polymers.efjc.thermodynamics.isotensional.asymptotic.reduced.legendre.nondimensional_helmholtz_free_energy number_of_links link_length hinge_mass (link_stiffness * Elem.powi link_length 2 / (Polymers.BOLTZMANN_CONSTANT : α) / temperature) (force / (Polymers.BOLTZMANN_CONSTANT : α) / temperature * link_length) temperature

/-- `src/physics/single_chain/efjc/thermodynamics/isotensional/asymptotic/reduced/legendre/mod.rs` lines 40-43. -/
def helmholtz_free_energy_per_link (link_length : α) (hinge_mass : α) (link_stiffness : α) (force : α) (temperature : α) : α :=
  (Polymers.BOLTZMANN_CONSTANT : α) * temperature * Polymers.efjc.thermodynamics.isotensional.asymptotic.reduced.legendre.nondimensional_helmholtz_free_energy_per_link link_length hinge_mass (link_stiffness * Elem.powi link_length 2 / (Polymers.BOLTZMANN_CONSTANT : α) / temperature) (force / (Polymers.BOLTZMANN_CONSTANT : α) / temperature * link_length) temperature

/-- `src/physics/single_chain/efjc/thermodynamics/isotensional/asymptotic/reduced/legendre/mod.rs` lines 46-49. -/
def relative_helmholtz_free_energy (number_of_links : Nat) (link_length : α) (link_stiffness : α) (force : α) (temperature : α) : α :=
  Polymers.efjc.thermodynamics.isotensional.asymptotic.reduced.legendre.helmholtz_free_energy number_of_links link_length 1.0 link_stiffness force temperature - Polymers.efjc.thermodynamics.isotensional.asymptotic.reduced.legendre.helmholtz_free_energy number_of_links link_length 1.0 link_stiffness ((Polymers.ZERO : α) * (Polymers.BOLTZMANN_CONSTANT : α) * temperature / link_length) temperature

/-- `src/physics/single_chain/efjc/thermodynamics/isotensional/asymptotic/reduced/legendre/mod.rs` lines 52-55. -/
def relative_helmholtz_free_energy_per_link (link_length : α) (link_stiffness : α) (force : α) (temperature : α) : α :=
  Polymers.efjc.thermodynamics.isotensional.asymptotic.reduced.legendre.helmholtz_free_energy_per_link link_length 1.0 link_stiffness force temperature - Polymers.efjc.thermodynamics.isotensional.asymptotic.reduced.legendre.helmholtz_free_energy_per_link link_length 1.0 link_stiffness ((Polymers.ZERO : α) * (Polymers.BOLTZMANN_CONSTANT : α) * temperature / link_length) temperature

/-- `src/physics/single_chain/efjc/thermodynamics/isotensional/asymptotic/reduced/legendre/mod.rs` lines 70-73. -/
def nondimensional_relative_helmholtz_free_energy (number_of_links : Nat) (nondimensional_link_stiffness : α) (nondimensional_force : α) : α :=
  Polymers.efjc.thermodynamics.isotensional.asymptotic.reduced.legendre.nondimensional_helmholtz_free_energy number_of_links 1.0 1.0 nondimensional_link_stiffness nondimensional_force 300.0 - Polymers.efjc.thermodynamics.isotensional.asymptotic.reduced.legendre.nondimensional_helmholtz_free_energy number_of_links 1.0 1.0 nondimensional_link_stiffness (Polymers.ZERO : α) 300.0

/-- `src/physics/single_chain/efjc/thermodynamics/isotensional/asymptotic/reduced/legendre/mod.rs` lines 76-79. -/
def nondimensional_relative_helmholtz_free_energy_per_link (nondimensional_link_stiffness : α) (nondimensional_force : α) : α :=
  Polymers.efjc.thermodynamics.isotensional.asymptotic.reduced.legendre.nondimensional_helmholtz_free_energy_per_link 1.0 1.0 nondimensional_link_stiffness nondimensional_force 300.0 - Polymers.efjc.thermodynamics.isotensional.asymptotic.reduced.legendre.nondimensional_helmholtz_free_energy_per_link 1.0 1.0 nondimensional_link_stiffness (Polymers.ZERO : α) 300.0

/-- `src/physics/single_chain/efjc/thermodynamics/isotensional/asymptotic/reduced/legendre/mod.rs` lines 85-94. -/
def EFJC.init (number_of_links : Nat) (link_length : α) (hinge_mass : α) (link_stiffness : α) : Polymers.efjc.thermodynamics.isotensional.asymptotic.reduced.legendre.EFJC α :=
  { hinge_mass := hinge_mass, link_length := link_length, number_of_links := number_of_links, link_stiffness := link_stiffness }

/-- `src/physics/single_chain/efjc/thermodynamics/isotensional/asymptotic/reduced/legendre/mod.rs` lines 96-99. -/
def EFJC.helmholtz_free_energy (self : Polymers.efjc.thermodynamics.isotensional.asymptotic.reduced.legendre.EFJC α) (force : α) (temperature : α) : α :=
  Polymers.efjc.thermodynamics.isotensional.asymptotic.reduced.legendre.helmholtz_free_energy self.number_of_links self.link_length self.hinge_mass self.link_stiffness force temperature

/-- `src/physics/single_chain/efjc/thermodynamics/isotensional/asymptotic/reduced/legendre/mod.rs` lines 101-104. -/
def EFJC.helmholtz_free_energy_per_link (self : Polymers.efjc.thermodynamics.isotensional.asymptotic.reduced.legendre.EFJC α) (force : α) (temperature : α) : α :=
  Polymers.efjc.thermodynamics.isotensional.asymptotic.reduced.legendre.helmholtz_free_energy_per_link self.link_length self.hinge_mass self.link_stiffness force temperature

/-- `src/physics/single_chain/efjc/thermodynamics/isotensional/asymptotic/reduced/legendre/mod.rs` lines 106-109. -/
def EFJC.relative_helmholtz_free_energy (self : Polymers.efjc.thermodynamics.isotensional.asymptotic.reduced.legendre.EFJC α) (force : α) (temperature : α) : α :=
  Polymers.efjc.thermodynamics.isotensional.asymptotic.reduced.legendre.relative_helmholtz_free_energy self.number_of_links self.link_length self.link_stiffness force temperature

/-- `src/physics/single_chain/efjc/thermodynamics/isotensional/asymptotic/reduced/legendre/mod.rs` lines 111-114. -/
def EFJC.relative_helmholtz_free_energy_per_link (self : Polymers.efjc.thermodynamics.isotensional.asymptotic.reduced.legendre.EFJC α) (force : α) (temperature : α) : α :=
  Polymers.efjc.thermodynamics.isotensional.asymptotic.reduced.legendre.relative_helmholtz_free_energy_per_link self.link_length self.link_stiffness force temperature

/-- `src/physics/single_chain/efjc/thermodynamics/isotensional/asymptotic/reduced/legendre/mod.rs` lines 116-119. -/
def EFJC.nondimensional_helmholtz_free_energy (self : Polymers.efjc.thermodynamics.isotensional.asymptotic.reduced.legendre.EFJC α) (nondimensional_force : α) (temperature : α) : α :=
  Polymers.efjc.thermodynamics.isotensional.asymptotic.reduced.legendre.nondimensional_helmholtz_free_energy self.number_of_links self.link_length self.hinge_mass (self.link_stiffness * Elem.powi self.link_length 2 / (Polymers.BOLTZMANN_CONSTANT : α) / temperature) nondimensional_force temperature

/-- `src/physics/single_chain/efjc/thermodynamics/isotensional/asymptotic/reduced/legendre/mod.rs` lines 121-124. -/
def EFJC.nondimensional_helmholtz_free_energy_per_link (self : Polymers.efjc.thermodynamics.isotensional.asymptotic.reduced.legendre.EFJC α) (nondimensional_force : α) (temperature : α) : α :=
  Polymers.efjc.thermodynamics.isotensional.asymptotic.reduced.legendre.nondimensional_helmholtz_free_energy_per_link self.link_length self.hinge_mass (self.link_stiffness * Elem.powi self.link_length 2 / (Polymers.BOLTZMANN_CONSTANT : α) / temperature) nondimensional_force temperature

/-- `src/physics/single_chain/efjc/thermodynamics/isotensional/asymptotic/reduced/legendre/mod.rs` lines 126-129. -/
def EFJC.nondimensional_relative_helmholtz_free_energy (self : Polymers.efjc.thermodynamics.isotensional.asymptotic.reduced.legendre.EFJC α) (nondimensional_force : α) (temperature : α) : α :=
  Polymers.efjc.thermodynamics.isotensional.asymptotic.reduced.legendre.nondimensional_relative_helmholtz_free_energy self.number_of_links (self.link_stiffness * Elem.powi self.link_length 2 / (Polymers.BOLTZMANN_CONSTANT : α) / temperature) nondimensional_force

/-- `src/physics/single_chain/efjc/thermodynamics/isotensional/asymptotic/reduced/legendre/mod.rs` lines 131-134. -/
def EFJC.nondimensional_relative_helmholtz_free_energy_per_link (self : Polymers.efjc.thermodynamics.isotensional.asymptotic.reduced.legendre.EFJC α) (nondimensional_force : α) (temperature : α) : α :=
  Polymers.efjc.thermodynamics.isotensional.asymptotic.reduced.legendre.nondimensional_relative_helmholtz_free_energy_per_link (self.link_stiffness * Elem.powi self.link_length 2 / (Polymers.BOLTZMANN_CONSTANT : α) / temperature) nondimensional_force

end Polymers.efjc.thermodynamics.isotensional.asymptotic.reduced.legendre

namespace Polymers.efjc.thermodynamics.isometric.asymptotic.alternative

/-- `src/physics/single_chain/efjc/thermodynamics/isometric/asymptotic/alternative/mod.rs` lines 10-26: struct `EFJC`. -/
structure EFJC (α : Type) where
  /-- field `hinge_mass` -/
  hinge_mass : α
  /-- field `link_length` -/
  link_length : α
  /-- field `number_of_links` -/
  number_of_links : Nat
  /-- field `link_stiffness` -/
  link_stiffness : α
  /-- field `legendre` -/
  legendre : Polymers.efjc.thermodynamics.isometric.asymptotic.alternative.legendre.EFJC α

/-- `src/physics/single_chain/efjc/thermodynamics/isometric/asymptotic/alternative/mod.rs` lines 32-42. -/
def EFJC.init (number_of_links : Nat) (link_length : α) (hinge_mass : α) (link_stiffness : α) : Polymers.efjc.thermodynamics.isometric.asymptotic.alternative.EFJC α :=
  { hinge_mass := hinge_mass, link_length := link_length, number_of_links := number_of_links, link_stiffness := link_stiffness, legendre := Polymers.efjc.thermodynamics.isometric.asymptotic.alternative.legendre.EFJC.init number_of_links link_length hinge_mass link_stiffness }

end Polymers.efjc.thermodynamics.isometric.asymptotic.alternative

namespace Polymers.efjc.thermodynamics.isometric.asymptotic.legendre

/-- `src/physics/single_chain/efjc/thermodynamics/isometric/asymptotic/legendre/mod.rs` lines 23-36: struct `EFJC`. -/
structure EFJC (α : Type) where
  /-- field `hinge_mass` -/
  hinge_mass : α
  /-- field `link_length` -/
  link_length : α
  /-- field `number_of_links` -/
  number_of_links : Nat
  /-- field `link_stiffness` -/
  link_stiffness : α

/-- `src/physics/single_chain/efjc/thermodynamics/isometric/asymptotic/legendre/mod.rs` lines 45-56. -/
def nondimensional_force (nondimensional_link_stiffness : α) (nondimensional_end_to_end_length_per_link : α) : α :=
  let guess : α := if Elem.lt nondimensional_end_to_end_length_per_link 1.0 then (Polymers.math.inverse_langevin nondimensional_end_to_end_length_per_link) else (nondimensional_link_stiffness * (nondimensional_end_to_end_length_per_link - 1.0))
  Polymers.math.inverse_newton_raphson nondimensional_end_to_end_length_per_link (fun (nondimensional_force : α) => 1.0 / Elem.tanh nondimensional_force - 1.0 / nondimensional_force + nondimensional_force / nondimensional_link_stiffness * (1.0 + (Elem.tanh nondimensional_force - 1.0 / Elem.tanh nondimensional_force + 1.0 / nondimensional_force) / (Elem.tanh nondimensional_force + nondimensional_force / nondimensional_link_stiffness))) (fun (nondimensional_force : α) => 1.0 / Elem.powi nondimensional_force 2 - 1.0 / Elem.powi (Elem.sinh nondimensional_force) 2 + (nondimensional_link_stiffness * Elem.powi nondimensional_force 2 / Elem.powi (Elem.sinh nondimensional_force) 4 - (2.0 * nondimensional_link_stiffness + 1.0) * (nondimensional_link_stiffness - Elem.powi nondimensional_force 2) / Elem.powi (Elem.sinh nondimensional_force) 2 + 2.0 * nondimensional_link_stiffness * nondimensional_force / Elem.tanh nondimensional_force * (nondimensional_link_stiffness / Elem.powi (Elem.sinh nondimensional_force) 2 + 1.0) + (nondimensional_link_stiffness - 1.0) * nondimensional_link_stiffness + Elem.powi nondimensional_force 2) / Elem.powi (nondimensional_link_stiffness + nondimensional_force / Elem.tanh nondimensional_force) 2 / nondimensional_link_stiffness) guess 1e-6 100

/-- `src/physics/single_chain/efjc/thermodynamics/isometric/asymptotic/legendre/mod.rs` lines 39-42. -/
def force (number_of_links : Nat) (link_length : α) (link_stiffness : α) (end_to_end_length : α) (temperature : α) : α :=
  (Polymers.BOLTZMANN_CONSTANT : α) * temperature / link_length * Polymers.efjc.thermodynamics.isometric.asymptotic.legendre.nondimensional_force (link_stiffness * Elem.powi link_length 2 / (Polymers.BOLTZMANN_CONSTANT : α) / temperature) (end_to_end_length / ((number_of_links : α) * link_length))

/-- `src/physics/single_chain/efjc/thermodynamics/isometric/asymptotic/legendre/mod.rs` lines 89-93. -/
def nondimensional_helmholtz_free_energy_per_link (number_of_links : Nat) (link_length : α) (hinge_mass : α) (nondimensional_link_stiffness : α) (nondimensional_end_to_end_length_per_link : α) (temperature : α) : α :=
  let nondimensional_force : α := Polymers.efjc.thermodynamics.isometric.asymptotic.legendre.nondimensional_force nondimensional_link_stiffness nondimensional_end_to_end_length_per_link
  (-Elem.ln (Elem.sinh nondimensional_force / nondimensional_force)) - 0.5 * Elem.powi nondimensional_force 2 / nondimensional_link_stiffness - Elem.ln (1.0 + nondimensional_force / Elem.tanh nondimensional_force / nondimensional_link_stiffness) + nondimensional_force * nondimensional_end_to_end_length_per_link - (1.0 - 1.0 / (number_of_links : α)) * (0.5 * Elem.ln (2.0 * (Elem.pi : α) * Elem.powi link_length 2 / nondimensional_link_stiffness) + Elem.ln (8.0 * Elem.powi (Elem.pi : α) 2 * hinge_mass * Elem.powi link_length 2 * (Polymers.BOLTZMANN_CONSTANT : α) * temperature / Elem.powi (Polymers.PLANCK_CONSTANT : α) 2))

/-- `src/physics/single_chain/efjc/thermodynamics/isometric/asymptotic/legendre/mod.rs` lines 83-86. -/
def nondimensional_helmholtz_free_energy (number_of_links : Nat) (link_length : α) (hinge_mass : α) (nondimensional_link_stiffness : α) (nondimensional_end_to_end_length_per_link : α) (temperature : α) : α :=
  (number_of_links : α) * Polymers.efjc.thermodynamics.isometric.asymptotic.legendre.nondimensional_helmholtz_free_energy_per_link number_of_links link_length hinge_mass nondimensional_link_stiffness nondimensional_end_to_end_length_per_link temperature

/-- `src/physics/single_chain/efjc/thermodynamics/isometric/asymptotic/legendre/mod.rs` lines 59-62. -/
def helmholtz_free_energy (number_of_links : Nat) (link_length : α) (hinge_mass : α) (link_stiffness : α) (end_to_end_length : α) (temperature : α) : α :=
  (Polymers.BOLTZMANN_CONSTANT : α) * temperature * Polymers.efjc.thermodynamics.isometric.asymptotic.legendre.nondimensional_helmholtz_free_energy number_of_links link_length hinge_mass (link_stiffness * Elem.powi link_length 2 / (Polymers.BOLTZMANN_CONSTANT : α) / temperature) (end_to_end_length / (number_of_links : α) / link_length) temperature

/-- `src/physics/single_chain/efjc/thermodynamics/isometric/asymptotic/legendre/mod.rs` lines 65-68. -/
def helmholtz_free_energy_per_link (number_of_links : Nat) (link_length : α) (hinge_mass : α) (link_stiffness : α) (end_to_end_length : α) (temperature : α) : α :=
  (Polymers.BOLTZMANN_CONSTANT : α) * temperature * Polymers.efjc.thermodynamics.isometric.asymptotic.legendre.nondimensional_helmholtz_free_energy_per_link number_of_links link_length hinge_mass (link_stiffness * Elem.powi link_length 2 / (Polymers.BOLTZMANN_CONSTANT : α) / temperature) (end_to_end_length / (number_of_links : α) / link_length) temperature

/-- `src/physics/single_chain/efjc/thermodynamics/isometric/asymptotic/legendre/mod.rs` lines 71-74. -/
def relative_helmholtz_free_energy (number_of_links : Nat) (link_length : α) (link_stiffness : α) (end_to_end_length : α) (temperature : α) : α :=
  Polymers.efjc.thermodynamics.isometric.asymptotic.legendre.helmholtz_free_energy number_of_links link_length 1.0 link_stiffness end_to_end_length temperature - Polymers.efjc.thermodynamics.isometric.asymptotic.legendre.helmholtz_free_energy number_of_links link_length 1.0 link_stiffness ((Polymers.ZERO : α) * (number_of_links : α) * link_length) temperature

/-- `src/physics/single_chain/efjc/thermodynamics/isometric/asymptotic/legendre/mod.rs` lines 77-80. -/
def relative_helmholtz_free_energy_per_link (number_of_links : Nat) (link_length : α) (link_stiffness : α) (end_to_end_length : α) (temperature : α) : α :=
  Polymers.efjc.thermodynamics.isometric.asymptotic.legendre.helmholtz_free_energy_per_link number_of_links link_length 1.0 link_stiffness end_to_end_length temperature - Polymers.efjc.thermodynamics.isometric.asymptotic.legendre.helmholtz_free_energy_per_link number_of_links link_length 1.0 link_stiffness ((Polymers.ZERO : α) * (number_of_links : α) * link_length) temperature

/-- `src/physics/single_chain/efjc/thermodynamics/isometric/asymptotic/legendre/mod.rs` lines 96-99. -/
def nondimensional_relative_helmholtz_free_energy (number_of_links : Nat) (nondimensional_link_stiffness : α) (nondimensional_end_to_end_length_per_link : α) : α :=
  Polymers.efjc.thermodynamics.isometric.asymptotic.legendre.nondimensional_helmholtz_free_energy number_of_links 1.0 1.0 nondimensional_link_stiffness nondimensional_end_to_end_length_per_link 300.0 - Polymers.efjc.thermodynamics.isometric.asymptotic.legendre.nondimensional_helmholtz_free_energy number_of_links 1.0 1.0 nondimensional_link_stiffness (Polymers.ZERO : α) 300.0

/-- `src/physics/single_chain/efjc/thermodynamics/isometric/asymptotic/legendre/mod.rs` lines 102-105. -/
def nondimensional_relative_helmholtz_free_energy_per_link (nondimensional_link_stiffness : α) (nondimensional_end_to_end_length_per_link : α) : α :=
  Polymers.efjc.thermodynamics.isometric.asymptotic.legendre.nondimensional_helmholtz_free_energy_per_link 8 1.0 1.0 nondimensional_link_stiffness nondimensional_end_to_end_length_per_link 300.0 - Polymers.efjc.thermodynamics.isometric.asymptotic.legendre.nondimensional_helmholtz_free_energy_per_link 8 1.0 1.0 nondimensional_link_stiffness (Polymers.ZERO : α) 300.0

/-- `src/physics/single_chain/efjc/thermodynamics/isometric/asymptotic/legendre/mod.rs` lines 111-120. -/
def EFJC.init (number_of_links : Nat) (link_length : α) (hinge_mass : α) (link_stiffness : α) : Polymers.efjc.thermodynamics.isometric.asymptotic.legendre.EFJC α :=
  { hinge_mass := hinge_mass, link_length := link_length, number_of_links := number_of_links, link_stiffness := link_stiffness }

/-- `src/physics/single_chain/efjc/thermodynamics/isometric/asymptotic/legendre/mod.rs` lines 122-125. -/
def EFJC.force (self : Polymers.efjc.thermodynamics.isometric.asymptotic.legendre.EFJC α) (end_to_end_length : α) (temperature : α) : α :=
  Polymers.efjc.thermodynamics.isometric.asymptotic.legendre.force self.number_of_links self.link_length self.link_stiffness end_to_end_length temperature

/-- `src/physics/single_chain/efjc/thermodynamics/isometric/asymptotic/legendre/mod.rs` lines 127-130. -/
def EFJC.nondimensional_force (self : Polymers.efjc.thermodynamics.isometric.asymptotic.legendre.EFJC α) (nondimensional_end_to_end_length_per_link : α) (temperature : α) : α :=
  Polymers.efjc.thermodynamics.isometric.asymptotic.legendre.nondimensional_force (self.link_stiffness * Elem.powi self.link_length 2 / (Polymers.BOLTZMANN_CONSTANT : α) / temperature) nondimensional_end_to_end_length_per_link

/-- `src/physics/single_chain/efjc/thermodynamics/isometric/asymptotic/legendre/mod.rs` lines 132-135. -/
def EFJC.helmholtz_free_energy (self : Polymers.efjc.thermodynamics.isometric.asymptotic.legendre.EFJC α) (end_to_end_length : α) (temperature : α) : α :=
  Polymers.efjc.thermodynamics.isometric.asymptotic.legendre.helmholtz_free_energy self.number_of_links self.link_length self.hinge_mass self.link_stiffness end_to_end_length temperature

/-- `src/physics/single_chain/efjc/thermodynamics/isometric/asymptotic/legendre/mod.rs` lines 137-140. -/
def EFJC.helmholtz_free_energy_per_link (self : Polymers.efjc.thermodynamics.isometric.asymptotic.legendre.EFJC α) (end_to_end_length : α) (temperature : α) : α :=
  Polymers.efjc.thermodynamics.isometric.asymptotic.legendre.helmholtz_free_energy_per_link self.number_of_links self.link_length self.hinge_mass self.link_stiffness end_to_end_length temperature

/-- `src/physics/single_chain/efjc/thermodynamics/isometric/asymptotic/legendre/mod.rs` lines 142-145. -/
def EFJC.relative_helmholtz_free_energy (self : Polymers.efjc.thermodynamics.isometric.asymptotic.legendre.EFJC α) (end_to_end_length : α) (temperature : α) : α :=
  Polymers.efjc.thermodynamics.isometric.asymptotic.legendre.relative_helmholtz_free_energy self.number_of_links self.link_length self.link_stiffness end_to_end_length temperature

/-- `src/physics/single_chain/efjc/thermodynamics/isometric/asymptotic/legendre/mod.rs` lines 147-150. -/
def EFJC.relative_helmholtz_free_energy_per_link (self : Polymers.efjc.thermodynamics.isometric.asymptotic.legendre.EFJC α) (end_to_end_length : α) (temperature : α) : α :=
  Polymers.efjc.thermodynamics.isometric.asymptotic.legendre.relative_helmholtz_free_energy_per_link self.number_of_links self.link_length self.link_stiffness end_to_end_length temperature

/-- `src/physics/single_chain/efjc/thermodynamics/isometric/asymptotic/legendre/mod.rs` lines 152-155. -/
def EFJC.nondimensional_helmholtz_free_energy (self : Polymers.efjc.thermodynamics.isometric.asymptotic.legendre.EFJC α) (nondimensional_end_to_end_length_per_link : α) (temperature : α) : α :=
  Polymers.efjc.thermodynamics.isometric.asymptotic.legendre.nondimensional_helmholtz_free_energy self.number_of_links self.link_length self.hinge_mass (self.link_stiffness * Elem.powi self.link_length 2 / (Polymers.BOLTZMANN_CONSTANT : α) / temperature) nondimensional_end_to_end_length_per_link temperature

/-- `src/physics/single_chain/efjc/thermodynamics/isometric/asymptotic/legendre/mod.rs` lines 157-160. -/
def EFJC.nondimensional_helmholtz_free_energy_per_link (self : Polymers.efjc.thermodynamics.isometric.asymptotic.legendre.EFJC α) (nondimensional_end_to_end_length_per_link : α) (temperature : α) : α :=
  Polymers.efjc.thermodynamics.isometric.asymptotic.legendre.nondimensional_helmholtz_free_energy_per_link self.number_of_links self.link_length self.hinge_mass (self.link_stiffness * Elem.powi self.link_length 2 / (Polymers.BOLTZMANN_CONSTANT : α) / temperature) nondimensional_end_to_end_length_per_link temperature

/-- `src/physics/single_chain/efjc/thermodynamics/isometric/asymptotic/legendre/mod.rs` lines 162-165. -/
def EFJC.nondimensional_relative_helmholtz_free_energy (self : Polymers.efjc.thermodynamics.isometric.asymptotic.legendre.EFJC α) (nondimensional_end_to_end_length_per_link : α) (temperature : α) : α :=
  Polymers.efjc.thermodynamics.isometric.asymptotic.legendre.nondimensional_relative_helmholtz_free_energy self.number_of_links (self.link_stiffness * Elem.powi self.link_length 2 / (Polymers.BOLTZMANN_CONSTANT : α) / temperature) nondimensional_end_to_end_length_per_link

/-- `src/physics/single_chain/efjc/thermodynamics/isometric/asymptotic/legendre/mod.rs` lines 167-170. -/
def EFJC.nondimensional_relative_helmholtz_free_energy_per_link (self : Polymers.efjc.thermodynamics.isometric.asymptotic.legendre.EFJC α) (nondimensional_end_to_end_length_per_link : α) (temperature : α) : α :=
  Polymers.efjc.thermodynamics.isometric.asymptotic.legendre.nondimensional_relative_helmholtz_free_energy_per_link (self.link_stiffness * Elem.powi self.link_length 2 / (Polymers.BOLTZMANN_CONSTANT : α) / temperature) nondimensional_end_to_end_length_per_link

end Polymers.efjc.thermodynamics.isometric.asymptotic.legendre

namespace Polymers.efjc.thermodynamics.isometric.asymptotic.reduced

/-- `src/physics/single_chain/efjc/thermodynamics/isometric/asymptotic/reduced/mod.rs` lines 10-26: struct `EFJC`. -/
structure EFJC (α : Type) where
  /-- field `hinge_mass` -/
  hinge_mass : α
  /-- field `link_length` -/
  link_length : α
  /-- field `number_of_links` -/
  number_of_links : Nat
  /-- field `link_stiffness` -/
  link_stiffness : α
  /-- field `legendre` -/
  legendre : Polymers.efjc.thermodynamics.isometric.asymptotic.reduced.legendre.EFJC α

/-- `src/physics/single_chain/efjc/thermodynamics/isometric/asymptotic/reduced/mod.rs` lines 32-42. -/
def EFJC.init (number_of_links : Nat) (link_length : α) (hinge_mass : α) (link_stiffness : α) : Polymers.efjc.thermodynamics.isometric.asymptotic.reduced.EFJC α :=
  { hinge_mass := hinge_mass, link_length := link_length, number_of_links := number_of_links, link_stiffness := link_stiffness, legendre := Polymers.efjc.thermodynamics.isometric.asymptotic.reduced.legendre.EFJC.init number_of_links link_length hinge_mass link_stiffness }

end Polymers.efjc.thermodynamics.isometric.asymptotic.reduced

namespace Polymers.efjc.thermodynamics.isotensional.asymptotic.alternative

/-- `src/physics/single_chain/efjc/thermodynamics/isotensional/asymptotic/alternative/mod.rs` lines 21-37: struct `EFJC`. -/
structure EFJC (α : Type) where
  /-- field `hinge_mass` -/
  hinge_mass : α
  /-- field `link_length` -/
  link_length : α
  /-- field `number_of_links` -/
  number_of_links : Nat
  /-- field `link_stiffness` -/
  link_stiffness : α
  /-- field `legendre` -/
  legendre : Polymers.efjc.thermodynamics.isotensional.asymptotic.alternative.legendre.EFJC α

/-- `src/physics/single_chain/efjc/thermodynamics/isotensional/asymptotic/alternative/mod.rs` lines 40-44. -/
def end_to_end_length (number_of_links : Nat) (link_length : α) (link_stiffness : α) (force : α) (temperature : α) : α :=
  let nondimensional_force : α := force * link_length / (Polymers.BOLTZMANN_CONSTANT : α) / temperature
  (number_of_links : α) * link_length * (1.0 / Elem.tanh nondimensional_force - 1.0 / nondimensional_force + (nondimensional_force + 1.0 / Elem.tanh nondimensional_force - nondimensional_force / Elem.powi (Elem.sinh nondimensional_force) 2) / (link_stiffness * Elem.powi link_length 2 / (Polymers.BOLTZMANN_CONSTANT : α) / temperature))

/-- `src/physics/single_chain/efjc/thermodynamics/isotensional/asymptotic/alternative/mod.rs` lines 47-51. -/
def end_to_end_length_per_link (link_length : α) (link_stiffness : α) (force : α) (temperature : α) : α :=
  let nondimensional_force : α := force * link_length / (Polymers.BOLTZMANN_CONSTANT : α) / temperature
  link_length * (1.0 / Elem.tanh nondimensional_force - 1.0 / nondimensional_force + (nondimensional_force + 1.0 / Elem.tanh nondimensional_force - nondimensional_force / Elem.powi (Elem.sinh nondimensional_force) 2) / (link_stiffness * Elem.powi link_length 2 / (Polymers.BOLTZMANN_CONSTANT : α) / temperature))

/-- `src/physics/single_chain/efjc/thermodynamics/isotensional/asymptotic/alternative/mod.rs` lines 54-57. -/
def nondimensional_end_to_end_length (number_of_links : Nat) (nondimensional_link_stiffness : α) (nondimensional_force : α) : α :=
  (number_of_links : α) * (1.0 / Elem.tanh nondimensional_force - 1.0 / nondimensional_force + (nondimensional_force + 1.0 / Elem.tanh nondimensional_force - nondimensional_force / Elem.powi (Elem.sinh nondimensional_force) 2) / nondimensional_link_stiffness)

/-- `src/physics/single_chain/efjc/thermodynamics/isotensional/asymptotic/alternative/mod.rs` lines 60-63. -/
def nondimensional_end_to_end_length_per_link (nondimensional_link_stiffness : α) (nondimensional_force : α) : α :=
  1.0 / Elem.tanh nondimensional_force - 1.0 / nondimensional_force + (nondimensional_force + 1.0 / Elem.tanh nondimensional_force - nondimensional_force / Elem.powi (Elem.sinh nondimensional_force) 2) / nondimensional_link_stiffness

/-- `src/physics/single_chain/efjc/thermodynamics/isotensional/asymptotic/alternative/mod.rs` lines 66-70. -/
def gibbs_free_energy (number_of_links : Nat) (link_length : α) (hinge_mass : α) (link_stiffness : α) (force : α) (temperature : α) : α :=
  let nondimensional_force : α := force * link_length / (Polymers.BOLTZMANN_CONSTANT : α) / temperature
  (number_of_links : α) * (Polymers.BOLTZMANN_CONSTANT : α) * temperature * ((-Elem.ln (Elem.sinh nondimensional_force / nondimensional_force)) - (0.5 * Elem.powi nondimensional_force 2 + nondimensional_force / Elem.tanh nondimensional_force) / (link_stiffness * Elem.powi link_length 2 / (Polymers.BOLTZMANN_CONSTANT : α) / temperature) - 0.5 * Elem.ln (2.0 * (Elem.pi : α) * (Polymers.BOLTZMANN_CONSTANT : α) * temperature / link_stiffness) - Elem.ln (8.0 * Elem.powi (Elem.pi : α) 2 * hinge_mass * Elem.powi link_length 2 * (Polymers.BOLTZMANN_CONSTANT : α) * temperature / Elem.powi (Polymers.PLANCK_CONSTANT : α) 2))

/-- `src/physics/single_chain/efjc/thermodynamics/isotensional/asymptotic/alternative/mod.rs` lines 73-77. -/
def gibbs_free_energy_per_link (link_length : α) (hinge_mass : α) (link_stiffness : α) (force : α) (temperature : α) : α :=
  let nondimensional_force : α := force * link_length / (Polymers.BOLTZMANN_CONSTANT : α) / temperature
  (Polymers.BOLTZMANN_CONSTANT : α) * temperature * ((-Elem.ln (Elem.sinh nondimensional_force / nondimensional_force)) - (0.5 * Elem.powi nondimensional_force 2 + nondimensional_force / Elem.tanh nondimensional_force) / (link_stiffness * Elem.powi link_length 2 / (Polymers.BOLTZMANN_CONSTANT : α) / temperature) - 0.5 * Elem.ln (2.0 * (Elem.pi : α) * (Polymers.BOLTZMANN_CONSTANT : α) * temperature / link_stiffness) - Elem.ln (8.0 * Elem.powi (Elem.pi : α) 2 * hinge_mass * Elem.powi link_length 2 * (Polymers.BOLTZMANN_CONSTANT : α) * temperature / Elem.powi (Polymers.PLANCK_CONSTANT : α) 2))

/-- `src/physics/single_chain/efjc/thermodynamics/isotensional/asymptotic/alternative/mod.rs` lines 80-83. -/
def relative_gibbs_free_energy (number_of_links : Nat) (link_length : α) (link_stiffness : α) (force : α) (temperature : α) : α :=
  Polymers.efjc.thermodynamics.isotensional.asymptotic.alternative.gibbs_free_energy number_of_links link_length 1.0 link_stiffness force temperature - Polymers.efjc.thermodynamics.isotensional.asymptotic.alternative.gibbs_free_energy number_of_links link_length 1.0 link_stiffness ((Polymers.ZERO : α) * (Polymers.BOLTZMANN_CONSTANT : α) * temperature / link_length) temperature

/-- `src/physics/single_chain/efjc/thermodynamics/isotensional/asymptotic/alternative/mod.rs` lines 86-89. -/
def relative_gibbs_free_energy_per_link (link_length : α) (link_stiffness : α) (force : α) (temperature : α) : α :=
  Polymers.efjc.thermodynamics.isotensional.asymptotic.alternative.gibbs_free_energy_per_link link_length 1.0 link_stiffness force temperature - Polymers.efjc.thermodynamics.isotensional.asymptotic.alternative.gibbs_free_energy_per_link link_length 1.0 link_stiffness ((Polymers.ZERO : α) * (Polymers.BOLTZMANN_CONSTANT : α) * temperature / link_length) temperature

/-- `src/physics/single_chain/efjc/thermodynamics/isotensional/asymptotic/alternative/mod.rs` lines 92-95. -/
def nondimensional_gibbs_free_energy (number_of_links : Nat) (link_length : α) (hinge_mass : α) (nondimensional_link_stiffness : α) (nondimensional_force : α) (temperature : α) : α :=
  (number_of_links : α) * ((-Elem.ln (Elem.sinh nondimensional_force / nondimensional_force)) - (0.5 * Elem.powi nondimensional_force 2 + nondimensional_force / Elem.tanh nondimensional_force) / nondimensional_link_stiffness - 0.5 * Elem.ln (2.0 * (Elem.pi : α) * Elem.powi link_length 2 / nondimensional_link_stiffness) - Elem.ln (8.0 * Elem.powi (Elem.pi : α) 2 * hinge_mass * Elem.powi link_length 2 * (Polymers.BOLTZMANN_CONSTANT : α) * temperature / Elem.powi (Polymers.PLANCK_CONSTANT : α) 2))

/-- `src/physics/single_chain/efjc/thermodynamics/isotensional/asymptotic/alternative/mod.rs` lines 98-101. -/
def nondimensional_gibbs_free_energy_per_link (link_length : α) (hinge_mass : α) (nondimensional_link_stiffness : α) (nondimensional_force : α) (temperature : α) : α :=
  (-Elem.ln (Elem.sinh nondimensional_force / nondimensional_force)) - (0.5 * Elem.powi nondimensional_force 2 + nondimensional_force / Elem.tanh nondimensional_force) / nondimensional_link_stiffness - 0.5 * Elem.ln (2.0 * (Elem.pi : α) * Elem.powi link_length 2 / nondimensional_link_stiffness) - Elem.ln (8.0 * Elem.powi (Elem.pi : α) 2 * hinge_mass * Elem.powi link_length 2 * (Polymers.BOLTZMANN_CONSTANT : α) * temperature / Elem.powi (Polymers.PLANCK_CONSTANT : α) 2)

/-- `src/physics/single_chain/efjc/thermodynamics/isotensional/asymptotic/alternative/mod.rs` lines 104-107. -/
def nondimensional_relative_gibbs_free_energy (number_of_links : Nat) (nondimensional_link_stiffness : α) (nondimensional_force : α) : α :=
  Polymers.efjc.thermodynamics.isotensional.asymptotic.alternative.nondimensional_gibbs_free_energy number_of_links 1.0 1.0 nondimensional_link_stiffness nondimensional_force 300.0 - Polymers.efjc.thermodynamics.isotensional.asymptotic.alternative.nondimensional_gibbs_free_energy number_of_links 1.0 1.0 nondimensional_link_stiffness (Polymers.ZERO : α) 300.0

/-- `src/physics/single_chain/efjc/thermodynamics/isotensional/asymptotic/alternative/mod.rs` lines 110-113. -/
def nondimensional_relative_gibbs_free_energy_per_link (nondimensional_link_stiffness : α) (nondimensional_force : α) : α :=
  Polymers.efjc.thermodynamics.isotensional.asymptotic.alternative.nondimensional_gibbs_free_energy_per_link 1.0 1.0 nondimensional_link_stiffness nondimensional_force 300.0 - Polymers.efjc.thermodynamics.isotensional.asymptotic.alternative.nondimensional_gibbs_free_energy_per_link 1.0 1.0 nondimensional_link_stiffness (Polymers.ZERO : α) 300.0

/-- `src/physics/single_chain/efjc/thermodynamics/isotensional/asymptotic/alternative/mod.rs` lines 119-129. -/
def EFJC.init (number_of_links : Nat) (link_length : α) (hinge_mass : α) (link_stiffness : α) : Polymers.efjc.thermodynamics.isotensional.asymptotic.alternative.EFJC α :=
  { hinge_mass := hinge_mass, link_length := link_length, number_of_links := number_of_links, link_stiffness := link_stiffness, legendre := Polymers.efjc.thermodynamics.isotensional.asymptotic.alternative.legendre.EFJC.init number_of_links link_length hinge_mass link_stiffness }

/-- `src/physics/single_chain/efjc/thermodynamics/isotensional/asymptotic/alternative/mod.rs` lines 131-134. -/
def EFJC.end_to_end_length (self : Polymers.efjc.thermodynamics.isotensional.asymptotic.alternative.EFJC α) (force : α) (temperature : α) : α :=
  Polymers.efjc.thermodynamics.isotensional.asymptotic.alternative.end_to_end_length self.number_of_links self.link_length self.link_stiffness force temperature

/-- `src/physics/single_chain/efjc/thermodynamics/isotensional/asymptotic/alternative/mod.rs` lines 136-139. -/
def EFJC.end_to_end_length_per_link (self : Polymers.efjc.thermodynamics.isotensional.asymptotic.alternative.EFJC α) (force : α) (temperature : α) : α :=
  Polymers.efjc.thermodynamics.isotensional.asymptotic.alternative.end_to_end_length_per_link self.link_length self.link_stiffness force temperature

/-- `src/physics/single_chain/efjc/thermodynamics/isotensional/asymptotic/alternative/mod.rs` lines 141-144. -/
def EFJC.nondimensional_end_to_end_length (self : Polymers.efjc.thermodynamics.isotensional.asymptotic.alternative.EFJC α) (nondimensional_force : α) (temperature : α) : α :=
  Polymers.efjc.thermodynamics.isotensional.asymptotic.alternative.nondimensional_end_to_end_length self.number_of_links (self.link_stiffness * Elem.powi self.link_length 2 / (Polymers.BOLTZMANN_CONSTANT : α) / temperature) nondimensional_force

/-- `src/physics/single_chain/efjc/thermodynamics/isotensional/asymptotic/alternative/mod.rs` lines 146-149. -/
def EFJC.nondimensional_end_to_end_length_per_link (self : Polymers.efjc.thermodynamics.isotensional.asymptotic.alternative.EFJC α) (nondimensional_force : α) (temperature : α) : α :=
  Polymers.efjc.thermodynamics.isotensional.asymptotic.alternative.nondimensional_end_to_end_length_per_link (self.link_stiffness * Elem.powi self.link_length 2 / (Polymers.BOLTZMANN_CONSTANT : α) / temperature) nondimensional_force

/-- `src/physics/single_chain/efjc/thermodynamics/isotensional/asymptotic/alternative/mod.rs` lines 151-154. -/
def EFJC.gibbs_free_energy (self : Polymers.efjc.thermodynamics.isotensional.asymptotic.alternative.EFJC α) (force : α) (temperature : α) : α :=
  Polymers.efjc.thermodynamics.isotensional.asymptotic.alternative.gibbs_free_energy self.number_of_links self.link_length self.hinge_mass self.link_stiffness force temperature

/-- `src/physics/single_chain/efjc/thermodynamics/isotensional/asymptotic/alternative/mod.rs` lines 156-159. -/
def EFJC.gibbs_free_energy_per_link (self : Polymers.efjc.thermodynamics.isotensional.asymptotic.alternative.EFJC α) (force : α) (temperature : α) : α :=
  Polymers.efjc.thermodynamics.isotensional.asymptotic.alternative.gibbs_free_energy_per_link self.link_length self.hinge_mass self.link_stiffness force temperature

/-- `src/physics/single_chain/efjc/thermodynamics/isotensional/asymptotic/alternative/mod.rs` lines 161-164. -/
def EFJC.relative_gibbs_free_energy (self : Polymers.efjc.thermodynamics.isotensional.asymptotic.alternative.EFJC α) (force : α) (temperature : α) : α :=
  Polymers.efjc.thermodynamics.isotensional.asymptotic.alternative.relative_gibbs_free_energy self.number_of_links self.link_length self.link_stiffness force temperature

/-- `src/physics/single_chain/efjc/thermodynamics/isotensional/asymptotic/alternative/mod.rs` lines 166-169. -/
def EFJC.relative_gibbs_free_energy_per_link (self : Polymers.efjc.thermodynamics.isotensional.asymptotic.alternative.EFJC α) (force : α) (temperature : α) : α :=
  Polymers.efjc.thermodynamics.isotensional.asymptotic.alternative.relative_gibbs_free_energy_per_link self.link_length self.link_stiffness force temperature

/-- `src/physics/single_chain/efjc/thermodynamics/isotensional/asymptotic/alternative/mod.rs` lines 171-174. -/
def EFJC.nondimensional_gibbs_free_energy (self : Polymers.efjc.thermodynamics.isotensional.asymptotic.alternative.EFJC α) (nondimensional_force : α) (temperature : α) : α :=
  Polymers.efjc.thermodynamics.isotensional.asymptotic.alternative.nondimensional_gibbs_free_energy self.number_of_links self.link_length self.hinge_mass (self.link_stiffness * Elem.powi self.link_length 2 / (Polymers.BOLTZMANN_CONSTANT : α) / temperature) nondimensional_force temperature

/-- `src/physics/single_chain/efjc/thermodynamics/isotensional/asymptotic/alternative/mod.rs` lines 176-179. -/
def EFJC.nondimensional_gibbs_free_energy_per_link (self : Polymers.efjc.thermodynamics.isotensional.asymptotic.alternative.EFJC α) (nondimensional_force : α) (temperature : α) : α :=
  Polymers.efjc.thermodynamics.isotensional.asymptotic.alternative.nondimensional_gibbs_free_energy_per_link self.link_length self.hinge_mass (self.link_stiffness * Elem.powi self.link_length 2 / (Polymers.BOLTZMANN_CONSTANT : α) / temperature) nondimensional_force temperature

/-- `src/physics/single_chain/efjc/thermodynamics/isotensional/asymptotic/alternative/mod.rs` lines 181-184. -/
def EFJC.nondimensional_relative_gibbs_free_energy (self : Polymers.efjc.thermodynamics.isotensional.asymptotic.alternative.EFJC α) (nondimensional_force : α) (temperature : α) : α :=
  Polymers.efjc.thermodynamics.isotensional.asymptotic.alternative.nondimensional_relative_gibbs_free_energy self.number_of_links (self.link_stiffness * Elem.powi self.link_length 2 / (Polymers.BOLTZMANN_CONSTANT : α) / temperature) nondimensional_force

/-- `src/physics/single_chain/efjc/thermodynamics/isotensional/asymptotic/alternative/mod.rs` lines 186-189. -/
def EFJC.nondimensional_relative_gibbs_free_energy_per_link (self : Polymers.efjc.thermodynamics.isotensional.asymptotic.alternative.EFJC α) (nondimensional_force : α) (temperature : α) : α :=
  Polymers.efjc.thermodynamics.isotensional.asymptotic.alternative.nondimensional_relative_gibbs_free_energy_per_link (self.link_stiffness * Elem.powi self.link_length 2 / (Polymers.BOLTZMANN_CONSTANT : α) / temperature) nondimensional_force

end Polymers.efjc.thermodynamics.isotensional.asymptotic.alternative

namespace Polymers.efjc.thermodynamics.isotensional.asymptotic.legendre

/-- `src/physics/single_chain/efjc/thermodynamics/isotensional/asymptotic/legendre/mod.rs` lines 18-31: struct `EFJC`. -/
structure EFJC (α : Type) where
  /-- field `hinge_mass` -/
  hinge_mass : α
  /-- field `link_length` -/
  link_length : α
  /-- field `number_of_links` -/
  number_of_links : Nat
  /-- field `link_stiffness` -/
  link_stiffness : α

/-- `src/physics/single_chain/efjc/thermodynamics/isotensional/asymptotic/legendre/mod.rs` lines 64-67. -/
def nondimensional_helmholtz_free_energy_per_link (link_length : α) (hinge_mass : α) (nondimensional_link_stiffness : α) (nondimensional_force : α) (temperature : α) : α :=
  (-Elem.ln (Elem.sinh nondimensional_force / nondimensional_force)) - 0.5 * Elem.powi nondimensional_force 2 / nondimensional_link_stiffness - Elem.ln (1.0 + nondimensional_force / nondimensional_link_stiffness / Elem.tanh nondimensional_force) - 0.5 * Elem.ln (2.0 * (Elem.pi : α) * Elem.powi link_length 2 / nondimensional_link_stiffness) - Elem.ln (8.0 * Elem.powi (Elem.pi : α) 2 * hinge_mass * Elem.powi link_length 2 * (Polymers.BOLTZMANN_CONSTANT : α) * temperature / Elem.powi (Polymers.PLANCK_CONSTANT : α) 2) + nondimensional_force / Elem.tanh nondimensional_force - 1.0 + Elem.powi nondimensional_force 2 / nondimensional_link_stiffness * (1.0 + (Elem.tanh nondimensional_force - 1.0 / Elem.tanh nondimensional_force + 1.0 / nondimensional_force) / (Elem.tanh nondimensional_force + nondimensional_force / nondimensional_link_stiffness))

/-- `src/physics/single_chain/efjc/thermodynamics/isotensional/asymptotic/legendre/mod.rs` lines 58-61. -/
def nondimensional_helmholtz_free_energy (number_of_links : Nat) (link_length : α) (hinge_mass : α) (nondimensional_link_stiffness : α) (nondimensional_force : α) (temperature : α) : α :=
  (number_of_links : α) * Polymers.efjc.thermodynamics.isotensional.asymptotic.legendre.nondimensional_helmholtz_free_energy_per_link link_length hinge_mass nondimensional_link_stiffness nondimensional_force temperature

/-- `src/physics/single_chain/efjc/thermodynamics/isotensional/asymptotic/legendre/mod.rs` lines 34-37. -/
def helmholtz_free_energy (number_of_links : Nat) (link_length : α) (hinge_mass : α) (link_stiffness : α) (force : α) (temperature : α) : α :=
  (Polymers.BOLTZMANN_CONSTANT : α) * temperature * Polymers.efjc.thermodynamics.isotensional.asymptotic.legendre.nondimensional_helmholtz_free_energy number_of_links link_length hinge_mass (link_stiffness * Elem.powi link_length 2 / (Polymers.BOLTZMANN_CONSTANT : α) / temperature) (force / (Polymers.BOLTZMANN_CONSTANT : α) / temperature * link_length) temperature

/-- `src/physics/single_chain/efjc/thermodynamics/isotensional/asymptotic/legendre/mod.rs` lines 40-43. -/
def helmholtz_free_energy_per_link (link_length : α) (hinge_mass : α) (link_stiffness : α) (force : α) (temperature : α) : α :=
  (Polymers.BOLTZMANN_CONSTANT : α) * temperature * Polymers.efjc.thermodynamics.isotensional.asymptotic.legendre.nondimensional_helmholtz_free_energy_per_link link_length hinge_mass (link_stiffness * Elem.powi link_length 2 / (Polymers.BOLTZMANN_CONSTANT : α) / temperature) (force / (Polymers.BOLTZMANN_CONSTANT : α) / temperature * link_length) temperature

/-- `src/physics/single_chain/efjc/thermodynamics/isotensional/asymptotic/legendre/mod.rs` lines 46-49. -/
def relative_helmholtz_free_energy (number_of_links : Nat) (link_length : α) (link_stiffness : α) (force : α) (temperature : α) : α :=
  Polymers.efjc.thermodynamics.isotensional.asymptotic.legendre.helmholtz_free_energy number_of_links link_length 1.0 link_stiffness force temperature - Polymers.efjc.thermodynamics.isotensional.asymptotic.legendre.helmholtz_free_energy number_of_links link_length 1.0 link_stiffness ((Polymers.ZERO : α) * (Polymers.BOLTZMANN_CONSTANT : α) * temperature / link_length) temperature

/-- `src/physics/single_chain/efjc/thermodynamics/isotensional/asymptotic/legendre/mod.rs` lines 52-55. -/
def relative_helmholtz_free_energy_per_link (link_length : α) (link_stiffness : α) (force : α) (temperature : α) : α :=
  Polymers.efjc.thermodynamics.isotensional.asymptotic.legendre.helmholtz_free_energy_per_link link_length 1.0 link_stiffness force temperature - Polymers.efjc.thermodynamics.isotensional.asymptotic.legendre.helmholtz_free_energy_per_link link_length 1.0 link_stiffness ((Polymers.ZERO : α) * (Polymers.BOLTZMANN_CONSTANT : α) * temperature / link_length) temperature

/-- `src/physics/single_chain/efjc/thermodynamics/isotensional/asymptotic/legendre/mod.rs` lines 70-73. -/
def nondimensional_relative_helmholtz_free_energy (number_of_links : Nat) (nondimensional_link_stiffness : α) (nondimensional_force : α) : α :=
  Polymers.efjc.thermodynamics.isotensional.asymptotic.legendre.nondimensional_helmholtz_free_energy number_of_links 1.0 1.0 nondimensional_link_stiffness nondimensional_force 300.0 - Polymers.efjc.thermodynamics.isotensional.asymptotic.legendre.nondimensional_helmholtz_free_energy number_of_links 1.0 1.0 nondimensional_link_stiffness (Polymers.ZERO : α) 300.0

/-- `src/physics/single_chain/efjc/thermodynamics/isotensional/asymptotic/legendre/mod.rs` lines 76-79. -/
def nondimensional_relative_helmholtz_free_energy_per_link (nondimensional_link_stiffness : α) (nondimensional_force : α) : α :=
  Polymers.efjc.thermodynamics.isotensional.asymptotic.legendre.nondimensional_helmholtz_free_energy_per_link 1.0 1.0 nondimensional_link_stiffness nondimensional_force 300.0 - Polymers.efjc.thermodynamics.isotensional.asymptotic.legendre.nondimensional_helmholtz_free_energy_per_link 1.0 1.0 nondimensional_link_stiffness (Polymers.ZERO : α) 300.0

/-- `src/physics/single_chain/efjc/thermodynamics/isotensional/asymptotic/legendre/mod.rs` lines 85-94. -/
def EFJC.init (number_of_links : Nat) (link_length : α) (hinge_mass : α) (link_stiffness : α) : Polymers.efjc.thermodynamics.isotensional.asymptotic.legendre.EFJC α :=
  { hinge_mass := hinge_mass, link_length := link_length, number_of_links := number_of_links, link_stiffness := link_stiffness }

/-- `src/physics/single_chain/efjc/thermodynamics/isotensional/asymptotic/legendre/mod.rs` lines 96-99. -/
def EFJC.helmholtz_free_energy (self : Polymers.efjc.thermodynamics.isotensional.asymptotic.legendre.EFJC α) (force : α) (temperature : α) : α :=
  Polymers.efjc.thermodynamics.isotensional.asymptotic.legendre.helmholtz_free_energy self.number_of_links self.link_length self.hinge_mass self.link_stiffness force temperature

/-- `src/physics/single_chain/efjc/thermodynamics/isotensional/asymptotic/legendre/mod.rs` lines 101-104. -/
def EFJC.helmholtz_free_energy_per_link (self : Polymers.efjc.thermodynamics.isotensional.asymptotic.legendre.EFJC α) (force : α) (temperature : α) : α :=
  Polymers.efjc.thermodynamics.isotensional.asymptotic.legendre.helmholtz_free_energy_per_link self.link_length self.hinge_mass self.link_stiffness force temperature

/-- `src/physics/single_chain/efjc/thermodynamics/isotensional/asymptotic/legendre/mod.rs` lines 106-109. -/
def EFJC.relative_helmholtz_free_energy (self : Polymers.efjc.thermodynamics.isotensional.asymptotic.legendre.EFJC α) (force : α) (temperature : α) : α :=
  Polymers.efjc.thermodynamics.isotensional.asymptotic.legendre.relative_helmholtz_free_energy self.number_of_links self.link_length self.link_stiffness force temperature

/-- `src/physics/single_chain/efjc/thermodynamics/isotensional/asymptotic/legendre/mod.rs` lines 111-114. -/
def EFJC.relative_helmholtz_free_energy_per_link (self : Polymers.efjc.thermodynamics.isotensional.asymptotic.legendre.EFJC α) (force : α) (temperature : α) : α :=
  Polymers.efjc.thermodynamics.isotensional.asymptotic.legendre.relative_helmholtz_free_energy_per_link self.link_length self.link_stiffness force temperature

/-- `src/physics/single_chain/efjc/thermodynamics/isotensional/asymptotic/legendre/mod.rs` lines 116-119. -/
def EFJC.nondimensional_helmholtz_free_energy (self : Polymers.efjc.thermodynamics.isotensional.asymptotic.legendre.EFJC α) (nondimensional_force : α) (temperature : α) : α :=
  Polymers.efjc.thermodynamics.isotensional.asymptotic.legendre.nondimensional_helmholtz_free_energy self.number_of_links self.link_length self.hinge_mass (self.link_stiffness * Elem.powi self.link_length 2 / (Polymers.BOLTZMANN_CONSTANT : α) / temperature) nondimensional_force temperature

/-- `src/physics/single_chain/efjc/thermodynamics/isotensional/asymptotic/legendre/mod.rs` lines 121-124. -/
def EFJC.nondimensional_helmholtz_free_energy_per_link (self : Polymers.efjc.thermodynamics.isotensional.asymptotic.legendre.EFJC α) (nondimensional_force : α) (temperature : α) : α :=
  (-Elem.ln (Elem.sinh nondimensional_force / nondimensional_force)) - 0.5 * Elem.powi nondimensional_force 2 / (self.link_stiffness * Elem.powi self.link_length 2 / (Polymers.BOLTZMANN_CONSTANT : α) / temperature) - Elem.ln (1.0 + nondimensional_force / (self.link_stiffness * Elem.powi self.link_length 2 / (Polymers.BOLTZMANN_CONSTANT : α) / temperature) / Elem.tanh nondimensional_force) - 0.5 * Elem.ln (2.0 * (Elem.pi : α) * (Polymers.BOLTZMANN_CONSTANT : α) * temperature / self.link_stiffness) - Elem.ln (8.0 * Elem.powi (Elem.pi : α) 2 * self.hinge_mass * Elem.powi self.link_length 2 * (Polymers.BOLTZMANN_CONSTANT : α) * temperature / Elem.powi (Polymers.PLANCK_CONSTANT : α) 2) + nondimensional_force / Elem.tanh nondimensional_force - 1.0 + Elem.powi nondimensional_force 2 / (self.link_stiffness * Elem.powi self.link_length 2 / (Polymers.BOLTZMANN_CONSTANT : α) / temperature) * (1.0 + (Elem.tanh nondimensional_force - 1.0 / Elem.tanh nondimensional_force + 1.0 / nondimensional_force) / (Elem.tanh nondimensional_force + nondimensional_force / (self.link_stiffness * Elem.powi self.link_length 2 / (Polymers.BOLTZMANN_CONSTANT : α) / temperature)))

/-- `src/physics/single_chain/efjc/thermodynamics/isotensional/asymptotic/legendre/mod.rs` lines 126-129. -/
def EFJC.nondimensional_relative_helmholtz_free_energy (self : Polymers.efjc.thermodynamics.isotensional.asymptotic.legendre.EFJC α) (nondimensional_force : α) (temperature : α) : α :=
  Polymers.efjc.thermodynamics.isotensional.asymptotic.legendre.nondimensional_relative_helmholtz_free_energy self.number_of_links (self.link_stiffness * Elem.powi self.link_length 2 / (Polymers.BOLTZMANN_CONSTANT : α) / temperature) nondimensional_force

/-- `src/physics/single_chain/efjc/thermodynamics/isotensional/asymptotic/legendre/mod.rs` lines 131-134. -/
def EFJC.nondimensional_relative_helmholtz_free_energy_per_link (self : Polymers.efjc.thermodynamics.isotensional.asymptotic.legendre.EFJC α) (nondimensional_force : α) (temperature : α) : α :=
  Polymers.efjc.thermodynamics.isotensional.asymptotic.legendre.nondimensional_relative_helmholtz_free_energy_per_link (self.link_stiffness * Elem.powi self.link_length 2 / (Polymers.BOLTZMANN_CONSTANT : α) / temperature) nondimensional_force

end Polymers.efjc.thermodynamics.isotensional.asymptotic.legendre

namespace Polymers.efjc.thermodynamics.isotensional.asymptotic.reduced

/-- `src/physics/single_chain/efjc/thermodynamics/isotensional/asymptotic/reduced/mod.rs` lines 21-37: struct `EFJC`. -/
structure EFJC (α : Type) where
  /-- field `hinge_mass` -/
  hinge_mass : α
  /-- field `link_length` -/
  link_length : α
  /-- field `number_of_links` -/
  number_of_links : Nat
  /-- field `link_stiffness` -/
  link_stiffness : α
  /-- field `legendre` -/
  legendre : Polymers.efjc.thermodynamics.isotensional.asymptotic.reduced.legendre.EFJC α

/-- `src/physics/single_chain/efjc/thermodynamics/isotensional/asymptotic/reduced/mod.rs` lines 40-43. -/
def end_to_end_length (number_of_links : Nat) (link_length : α) (link_stiffness : α) (force : α) (temperature : α) : α :=
  (number_of_links : α) * (link_length / Elem.tanh (force * link_length / (Polymers.BOLTZMANN_CONSTANT : α) / temperature) - (Polymers.BOLTZMANN_CONSTANT : α) * temperature / force + force / link_stiffness)

/-- `src/physics/single_chain/efjc/thermodynamics/isotensional/asymptotic/reduced/mod.rs` lines 46-49. -/
def end_to_end_length_per_link (link_length : α) (link_stiffness : α) (force : α) (temperature : α) : α :=
  link_length / Elem.tanh (force * link_length / (Polymers.BOLTZMANN_CONSTANT : α) / temperature) - (Polymers.BOLTZMANN_CONSTANT : α) * temperature / force + force / link_stiffness

/-- `src/physics/single_chain/efjc/thermodynamics/isotensional/asymptotic/reduced/mod.rs` lines 52-55. -/
def nondimensional_end_to_end_length (number_of_links : Nat) (nondimensional_link_stiffness : α) (nondimensional_force : α) : α :=
  (number_of_links : α) * (1.0 / Elem.tanh nondimensional_force - 1.0 / nondimensional_force + nondimensional_force / nondimensional_link_stiffness)

/-- `src/physics/single_chain/efjc/thermodynamics/isotensional/asymptotic/reduced/mod.rs` lines 58-61. -/
def nondimensional_end_to_end_length_per_link (nondimensional_link_stiffness : α) (nondimensional_force : α) : α :=
  1.0 / Elem.tanh nondimensional_force - 1.0 / nondimensional_force + nondimensional_force / nondimensional_link_stiffness

/-- `src/physics/single_chain/efjc/thermodynamics/isotensional/asymptotic/reduced/mod.rs` lines 64-68. -/
def gibbs_free_energy (number_of_links : Nat) (link_length : α) (hinge_mass : α) (link_stiffness : α) (force : α) (temperature : α) : α :=
  let nondimensional_force : α := force * link_length / (Polymers.BOLTZMANN_CONSTANT : α) / temperature
  (number_of_links : α) * (Polymers.BOLTZMANN_CONSTANT : α) * temperature * ((-Elem.ln (Elem.sinh nondimensional_force / nondimensional_force)) - 0.5 * Elem.powi nondimensional_force 2 / (link_stiffness * Elem.powi link_length 2 / (Polymers.BOLTZMANN_CONSTANT : α) / temperature) - 0.5 * Elem.ln (2.0 * (Elem.pi : α) * (Polymers.BOLTZMANN_CONSTANT : α) * temperature / link_stiffness) - Elem.ln (8.0 * Elem.powi (Elem.pi : α) 2 * hinge_mass * Elem.powi link_length 2 * (Polymers.BOLTZMANN_CONSTANT : α) * temperature / Elem.powi (Polymers.PLANCK_CONSTANT : α) 2))

/-- `src/physics/single_chain/efjc/thermodynamics/isotensional/asymptotic/reduced/mod.rs` lines 71-75. -/
def gibbs_free_energy_per_link (link_length : α) (hinge_mass : α) (link_stiffness : α) (force : α) (temperature : α) : α :=
  let nondimensional_force : α := force * link_length / (Polymers.BOLTZMANN_CONSTANT : α) / temperature
  (Polymers.BOLTZMANN_CONSTANT : α) * temperature * ((-Elem.ln (Elem.sinh nondimensional_force / nondimensional_force)) - 0.5 * Elem.powi nondimensional_force 2 / (link_stiffness * Elem.powi link_length 2 / (Polymers.BOLTZMANN_CONSTANT : α) / temperature) - 0.5 * Elem.ln (2.0 * (Elem.pi : α) * (Polymers.BOLTZMANN_CONSTANT : α) * temperature / link_stiffness) - Elem.ln (8.0 * Elem.powi (Elem.pi : α) 2 * hinge_mass * Elem.powi link_length 2 * (Polymers.BOLTZMANN_CONSTANT : α) * temperature / Elem.powi (Polymers.PLANCK_CONSTANT : α) 2))

/-- `src/physics/single_chain/efjc/thermodynamics/isotensional/asymptotic/reduced/mod.rs` lines 78-81. -/
def relative_gibbs_free_energy (number_of_links : Nat) (link_length : α) (link_stiffness : α) (force : α) (temperature : α) : α :=
  Polymers.efjc.thermodynamics.isotensional.asymptotic.reduced.gibbs_free_energy number_of_links link_length 1.0 link_stiffness force temperature - Polymers.efjc.thermodynamics.isotensional.asymptotic.reduced.gibbs_free_energy number_of_links link_length 1.0 link_stiffness ((Polymers.ZERO : α) * (Polymers.BOLTZMANN_CONSTANT : α) * temperature / link_length) temperature

/-- `src/physics/single_chain/efjc/thermodynamics/isotensional/asymptotic/reduced/mod.rs` lines 84-87. -/
def relative_gibbs_free_energy_per_link (link_length : α) (link_stiffness : α) (force : α) (temperature : α) : α :=
  Polymers.efjc.thermodynamics.isotensional.asymptotic.reduced.gibbs_free_energy_per_link link_length 1.0 link_stiffness force temperature - Polymers.efjc.thermodynamics.isotensional.asymptotic.reduced.gibbs_free_energy_per_link link_length 1.0 link_stiffness ((Polymers.ZERO : α) * (Polymers.BOLTZMANN_CONSTANT : α) * temperature / link_length) temperature

/-- `src/physics/single_chain/efjc/thermodynamics/isotensional/asymptotic/reduced/mod.rs` lines 90-93. -/
def nondimensional_gibbs_free_energy (number_of_links : Nat) (link_length : α) (hinge_mass : α) (nondimensional_link_stiffness : α) (nondimensional_force : α) (temperature : α) : α :=
  (number_of_links : α) * ((-Elem.ln (Elem.sinh nondimensional_force / nondimensional_force)) - 0.5 * Elem.powi nondimensional_force 2 / nondimensional_link_stiffness - 0.5 * Elem.ln (2.0 * (Elem.pi : α) * Elem.powi link_length 2 / nondimensional_link_stiffness) - Elem.ln (8.0 * Elem.powi (Elem.pi : α) 2 * hinge_mass * Elem.powi link_length 2 * (Polymers.BOLTZMANN_CONSTANT : α) * temperature / Elem.powi (Polymers.PLANCK_CONSTANT : α) 2))

/-- `src/physics/single_chain/efjc/thermodynamics/isotensional/asymptotic/reduced/mod.rs` lines 96-99. -/
def nondimensional_gibbs_free_energy_per_link (link_length : α) (hinge_mass : α) (nondimensional_link_stiffness : α) (nondimensional_force : α) (temperature : α) : α :=
  (-Elem.ln (Elem.sinh nondimensional_force / nondimensional_force)) - 0.5 * Elem.powi nondimensional_force 2 / nondimensional_link_stiffness - 0.5 * Elem.ln (2.0 * (Elem.pi : α) * Elem.powi link_length 2 / nondimensional_link_stiffness) - Elem.ln (8.0 * Elem.powi (Elem.pi : α) 2 * hinge_mass * Elem.powi link_length 2 * (Polymers.BOLTZMANN_CONSTANT : α) * temperature / Elem.powi (Polymers.PLANCK_CONSTANT : α) 2)

/-- `src/physics/single_chain/efjc/thermodynamics/isotensional/asymptotic/reduced/mod.rs` lines 102-105. -/
def nondimensional_relative_gibbs_free_energy (number_of_links : Nat) (nondimensional_link_stiffness : α) (nondimensional_force : α) : α :=
  Polymers.efjc.thermodynamics.isotensional.asymptotic.reduced.nondimensional_gibbs_free_energy number_of_links 1.0 1.0 nondimensional_link_stiffness nondimensional_force 300.0 - Polymers.efjc.thermodynamics.isotensional.asymptotic.reduced.nondimensional_gibbs_free_energy number_of_links 1.0 1.0 nondimensional_link_stiffness (Polymers.ZERO : α) 300.0

/-- `src/physics/single_chain/efjc/thermodynamics/isotensional/asymptotic/reduced/mod.rs` lines 108-111. -/
def nondimensional_relative_gibbs_free_energy_per_link (nondimensional_link_stiffness : α) (nondimensional_force : α) : α :=
  Polymers.efjc.thermodynamics.isotensional.asymptotic.reduced.nondimensional_gibbs_free_energy_per_link 1.0 1.0 nondimensional_link_stiffness nondimensional_force 300.0 - Polymers.efjc.thermodynamics.isotensional.asymptotic.reduced.nondimensional_gibbs_free_energy_per_link 1.0 1.0 nondimensional_link_stiffness (Polymers.ZERO : α) 300.0

/-- `src/physics/single_chain/efjc/thermodynamics/isotensional/asymptotic/reduced/mod.rs` lines 117-127. -/
def EFJC.init (number_of_links : Nat) (link_length : α) (hinge_mass : α) (link_stiffness : α) : Polymers.efjc.thermodynamics.isotensional.asymptotic.reduced.EFJC α :=
  { hinge_mass := hinge_mass, link_length := link_length, number_of_links := number_of_links, link_stiffness := link_stiffness, legendre := Polymers.efjc.thermodynamics.isotensional.asymptotic.reduced.legendre.EFJC.init number_of_links link_length hinge_mass link_stiffness }

/-- `src/physics/single_chain/efjc/thermodynamics/isotensional/asymptotic/reduced/mod.rs` lines 129-132. -/
def EFJC.end_to_end_length (self : Polymers.efjc.thermodynamics.isotensional.asymptotic.reduced.EFJC α) (force : α) (temperature : α) : α :=
  Polymers.efjc.thermodynamics.isotensional.asymptotic.reduced.end_to_end_length self.number_of_links self.link_length self.link_stiffness force temperature

/-- `src/physics/single_chain/efjc/thermodynamics/isotensional/asymptotic/reduced/mod.rs` lines 134-137. -/
def EFJC.end_to_end_length_per_link (self : Polymers.efjc.thermodynamics.isotensional.asymptotic.reduced.EFJC α) (force : α) (temperature : α) : α :=
  Polymers.efjc.thermodynamics.isotensional.asymptotic.reduced.end_to_end_length_per_link self.link_length self.link_stiffness force temperature

/-- `src/physics/single_chain/efjc/thermodynamics/isotensional/asymptotic/reduced/mod.rs` lines 139-142. -/
def EFJC.nondimensional_end_to_end_length (self : Polymers.efjc.thermodynamics.isotensional.asymptotic.reduced.EFJC α) (nondimensional_force : α) (temperature : α) : α :=
  Polymers.efjc.thermodynamics.isotensional.asymptotic.reduced.nondimensional_end_to_end_length self.number_of_links (self.link_stiffness * Elem.powi self.link_length 2 / (Polymers.BOLTZMANN_CONSTANT : α) / temperature) nondimensional_force

/-- `src/physics/single_chain/efjc/thermodynamics/isotensional/asymptotic/reduced/mod.rs` lines 144-147. -/
def EFJC.nondimensional_end_to_end_length_per_link (self : Polymers.efjc.thermodynamics.isotensional.asymptotic.reduced.EFJC α) (nondimensional_force : α) (temperature : α) : α :=
  Polymers.efjc.thermodynamics.isotensional.asymptotic.reduced.nondimensional_end_to_end_length_per_link (self.link_stiffness * Elem.powi self.link_length 2 / (Polymers.BOLTZMANN_CONSTANT : α) / temperature) nondimensional_force

/-- `src/physics/single_chain/efjc/thermodynamics/isotensional/asymptotic/reduced/mod.rs` lines 149-152. -/
def EFJC.gibbs_free_energy (self : Polymers.efjc.thermodynamics.isotensional.asymptotic.reduced.EFJC α) (force : α) (temperature : α) : α :=
  Polymers.efjc.thermodynamics.isotensional.asymptotic.reduced.gibbs_free_energy self.number_of_links self.link_length self.hinge_mass self.link_stiffness force temperature

/-- `src/physics/single_chain/efjc/thermodynamics/isotensional/asymptotic/reduced/mod.rs` lines 154-157. -/
def EFJC.gibbs_free_energy_per_link (self : Polymers.efjc.thermodynamics.isotensional.asymptotic.reduced.EFJC α) (force : α) (temperature : α) : α :=
  Polymers.efjc.thermodynamics.isotensional.asymptotic.reduced.gibbs_free_energy_per_link self.link_length self.hinge_mass self.link_stiffness force temperature

/-- `src/physics/single_chain/efjc/thermodynamics/isotensional/asymptotic/reduced/mod.rs` lines 159-162. -/
def EFJC.relative_gibbs_free_energy (self : Polymers.efjc.thermodynamics.isotensional.asymptotic.reduced.EFJC α) (force : α) (temperature : α) : α :=
  Polymers.efjc.thermodynamics.isotensional.asymptotic.reduced.relative_gibbs_free_energy self.number_of_links self.link_length self.link_stiffness force temperature

/-- `src/physics/single_chain/efjc/thermodynamics/isotensional/asymptotic/reduced/mod.rs` lines 164-167. -/
def EFJC.relative_gibbs_free_energy_per_link (self : Polymers.efjc.thermodynamics.isotensional.asymptotic.reduced.EFJC α) (force : α) (temperature : α) : α :=
  Polymers.efjc.thermodynamics.isotensional.asymptotic.reduced.relative_gibbs_free_energy_per_link self.link_length self.link_stiffness force temperature

/-- `src/physics/single_chain/efjc/thermodynamics/isotensional/asymptotic/reduced/mod.rs` lines 169-172. -/
def EFJC.nondimensional_gibbs_free_energy (self : Polymers.efjc.thermodynamics.isotensional.asymptotic.reduced.EFJC α) (nondimensional_force : α) (temperature : α) : α :=
  Polymers.efjc.thermodynamics.isotensional.asymptotic.reduced.nondimensional_gibbs_free_energy self.number_of_links self.link_length self.hinge_mass (self.link_stiffness * Elem.powi self.link_length 2 / (Polymers.BOLTZMANN_CONSTANT : α) / temperature) nondimensional_force temperature

/-- `src/physics/single_chain/efjc/thermodynamics/isotensional/asymptotic/reduced/mod.rs` lines 174-177. -/
def EFJC.nondimensional_gibbs_free_energy_per_link (self : Polymers.efjc.thermodynamics.isotensional.asymptotic.reduced.EFJC α) (nondimensional_force : α) (temperature : α) : α :=
  Polymers.efjc.thermodynamics.isotensional.asymptotic.reduced.nondimensional_gibbs_free_energy_per_link self.link_length self.hinge_mass (self.link_stiffness * Elem.powi self.link_length 2 / (Polymers.BOLTZMANN_CONSTANT : α) / temperature) nondimensional_force temperature

/-- `src/physics/single_chain/efjc/thermodynamics/isotensional/asymptotic/reduced/mod.rs` lines 179-182. -/
def EFJC.nondimensional_relative_gibbs_free_energy (self : Polymers.efjc.thermodynamics.isotensional.asymptotic.reduced.EFJC α) (nondimensional_force : α) (temperature : α) : α :=
  Polymers.efjc.thermodynamics.isotensional.asymptotic.reduced.nondimensional_relative_gibbs_free_energy self.number_of_links (self.link_stiffness * Elem.powi self.link_length 2 / (Polymers.BOLTZMANN_CONSTANT : α) / temperature) nondimensional_force

/-- `src/physics/single_chain/efjc/thermodynamics/isotensional/asymptotic/reduced/mod.rs` lines 184-187. -/
def EFJC.nondimensional_relative_gibbs_free_energy_per_link (self : Polymers.efjc.thermodynamics.isotensional.asymptotic.reduced.EFJC α) (nondimensional_force : α) (temperature : α) : α :=
  Polymers.efjc.thermodynamics.isotensional.asymptotic.reduced.nondimensional_relative_gibbs_free_energy_per_link (self.link_stiffness * Elem.powi self.link_length 2 / (Polymers.BOLTZMANN_CONSTANT : α) / temperature) nondimensional_force

end Polymers.efjc.thermodynamics.isotensional.asymptotic.reduced

namespace Polymers.efjc.thermodynamics.isometric.asymptotic

/-- `src/physics/single_chain/efjc/thermodynamics/isometric/asymptotic/mod.rs` lines 16-38: struct `EFJC`. -/
structure EFJC (α : Type) where
  /-- field `hinge_mass` -/
  hinge_mass : α
  /-- field `link_length` -/
  link_length : α
  /-- field `number_of_links` -/
  number_of_links : Nat
  /-- field `link_stiffness` -/
  link_stiffness : α
  /-- field `alternative` -/
  alternative : Polymers.efjc.thermodynamics.isometric.asymptotic.alternative.EFJC α
  /-- field `reduced` -/
  reduced : Polymers.efjc.thermodynamics.isometric.asymptotic.reduced.EFJC α
  /-- field `legendre` -/
  legendre : Polymers.efjc.thermodynamics.isometric.asymptotic.legendre.EFJC α

/-- `src/physics/single_chain/efjc/thermodynamics/isometric/asymptotic/mod.rs` lines 44-56. -/
def EFJC.init (number_of_links : Nat) (link_length : α) (hinge_mass : α) (link_stiffness : α) : Polymers.efjc.thermodynamics.isometric.asymptotic.EFJC α :=
  { hinge_mass := hinge_mass, link_length := link_length, number_of_links := number_of_links, link_stiffness := link_stiffness, alternative := Polymers.efjc.thermodynamics.isometric.asymptotic.alternative.EFJC.init number_of_links link_length hinge_mass link_stiffness, reduced := Polymers.efjc.thermodynamics.isometric.asymptotic.reduced.EFJC.init number_of_links link_length hinge_mass link_stiffness, legendre := Polymers.efjc.thermodynamics.isometric.asymptotic.legendre.EFJC.init number_of_links link_length hinge_mass link_stiffness }

end Polymers.efjc.thermodynamics.isometric.asymptotic

namespace Polymers.efjc.thermodynamics.isotensional.asymptotic

/-- `src/physics/single_chain/efjc/thermodynamics/isotensional/asymptotic/mod.rs` lines 27-49: struct `EFJC`. -/
structure EFJC (α : Type) where
  /-- field `hinge_mass` -/
  hinge_mass : α
  /-- field `link_length` -/
  link_length : α
  /-- field `number_of_links` -/
  number_of_links : Nat
  /-- field `link_stiffness` -/
  link_stiffness : α
  /-- field `alternative` -/
  alternative : Polymers.efjc.thermodynamics.isotensional.asymptotic.alternative.EFJC α
  /-- field `reduced` -/
  reduced : Polymers.efjc.thermodynamics.isotensional.asymptotic.reduced.EFJC α
  /-- field `legendre` -/
  legendre : Polymers.efjc.thermodynamics.isotensional.asymptotic.legendre.EFJC α

/-- `src/physics/single_chain/efjc/thermodynamics/isotensional/asymptotic/mod.rs` lines 64-67. -/
def nondimensional_end_to_end_length (number_of_links : Nat) (nondimensional_link_stiffness : α) (nondimensional_force : α) : α :=
  (number_of_links : α) * (1.0 / Elem.tanh nondimensional_force - 1.0 / nondimensional_force + nondimensional_force / nondimensional_link_stiffness * (1.0 + (Elem.tanh nondimensional_force - 1.0 / Elem.tanh nondimensional_force + 1.0 / nondimensional_force) / (Elem.tanh nondimensional_force + nondimensional_force / nondimensional_link_stiffness)))

/-- `src/physics/single_chain/efjc/thermodynamics/isotensional/asymptotic/mod.rs` lines 52-55. -/
def end_to_end_length (number_of_links : Nat) (link_length : α) (link_stiffness : α) (force : α) (temperature : α) : α :=
  link_length * Polymers.efjc.thermodynamics.isotensional.asymptotic.nondimensional_end_to_end_length number_of_links (link_stiffness * Elem.powi link_length 2 / (Polymers.BOLTZMANN_CONSTANT : α) / temperature) (force * link_length / (Polymers.BOLTZMANN_CONSTANT : α) / temperature)

/-- `src/physics/single_chain/efjc/thermodynamics/isotensional/asymptotic/mod.rs` lines 70-73. -/
def nondimensional_end_to_end_length_per_link (nondimensional_link_stiffness : α) (nondimensional_force : α) : α :=
  1.0 / Elem.tanh nondimensional_force - 1.0 / nondimensional_force + nondimensional_force / nondimensional_link_stiffness * (1.0 + (Elem.tanh nondimensional_force - 1.0 / Elem.tanh nondimensional_force + 1.0 / nondimensional_force) / (Elem.tanh nondimensional_force + nondimensional_force / nondimensional_link_stiffness))

/-- `src/physics/single_chain/efjc/thermodynamics/isotensional/asymptotic/mod.rs` lines 58-61. -/
def end_to_end_length_per_link (link_length : α) (link_stiffness : α) (force : α) (temperature : α) : α :=
  link_length * Polymers.efjc.thermodynamics.isotensional.asymptotic.nondimensional_end_to_end_length_per_link (link_stiffness * Elem.powi link_length 2 / (Polymers.BOLTZMANN_CONSTANT : α) / temperature) (force * link_length / (Polymers.BOLTZMANN_CONSTANT : α) / temperature)

/-- `src/physics/single_chain/efjc/thermodynamics/isotensional/asymptotic/mod.rs` lines 76-81. -/
def gibbs_free_energy (number_of_links : Nat) (link_length : α) (hinge_mass : α) (link_stiffness : α) (force : α) (temperature : α) : α :=
  let nondimensional_force : α := force * link_length / (Polymers.BOLTZMANN_CONSTANT : α) / temperature
  let nondimensional_link_stiffness : α := link_stiffness * Elem.powi link_length 2 / (Polymers.BOLTZMANN_CONSTANT : α) / temperature
  (number_of_links : α) * (Polymers.BOLTZMANN_CONSTANT : α) * temperature * ((-Elem.ln (Elem.sinh nondimensional_force / nondimensional_force)) - 0.5 * Elem.powi nondimensional_force 2 / nondimensional_link_stiffness - Elem.ln (1.0 + nondimensional_force / Elem.tanh nondimensional_force / nondimensional_link_stiffness) - 0.5 * Elem.ln (2.0 * (Elem.pi : α) * (Polymers.BOLTZMANN_CONSTANT : α) * temperature / link_stiffness) - Elem.ln (8.0 * Elem.powi (Elem.pi : α) 2 * hinge_mass * Elem.powi link_length 2 * (Polymers.BOLTZMANN_CONSTANT : α) * temperature / Elem.powi (Polymers.PLANCK_CONSTANT : α) 2))

/-- `src/physics/single_chain/efjc/thermodynamics/isotensional/asymptotic/mod.rs` lines 84-89. -/
def gibbs_free_energy_per_link (link_length : α) (hinge_mass : α) (link_stiffness : α) (force : α) (temperature : α) : α :=
  let nondimensional_force : α := force * link_length / (Polymers.BOLTZMANN_CONSTANT : α) / temperature
  let nondimensional_link_stiffness : α := link_stiffness * Elem.powi link_length 2 / (Polymers.BOLTZMANN_CONSTANT : α) / temperature
  (Polymers.BOLTZMANN_CONSTANT : α) * temperature * ((-Elem.ln (Elem.sinh nondimensional_force / nondimensional_force)) - 0.5 * Elem.powi nondimensional_force 2 / nondimensional_link_stiffness - Elem.ln (1.0 + nondimensional_force / Elem.tanh nondimensional_force / nondimensional_link_stiffness) - 0.5 * Elem.ln (2.0 * (Elem.pi : α) * (Polymers.BOLTZMANN_CONSTANT : α) * temperature / link_stiffness) - Elem.ln (8.0 * Elem.powi (Elem.pi : α) 2 * hinge_mass * Elem.powi link_length 2 * (Polymers.BOLTZMANN_CONSTANT : α) * temperature / Elem.powi (Polymers.PLANCK_CONSTANT : α) 2))

/-- `src/physics/single_chain/efjc/thermodynamics/isotensional/asymptotic/mod.rs` lines 92-95. -/
def relative_gibbs_free_energy (number_of_links : Nat) (link_length : α) (link_stiffness : α) (force : α) (temperature : α) : α :=
  Polymers.efjc.thermodynamics.isotensional.asymptotic.gibbs_free_energy number_of_links link_length 1.0 link_stiffness force temperature - Polymers.efjc.thermodynamics.isotensional.asymptotic.gibbs_free_energy number_of_links link_length 1.0 link_stiffness ((Polymers.ZERO : α) * (Polymers.BOLTZMANN_CONSTANT : α) * temperature / link_length) temperature

/-- `src/physics/single_chain/efjc/thermodynamics/isotensional/asymptotic/mod.rs` lines 98-101. -/
def relative_gibbs_free_energy_per_link (link_length : α) (link_stiffness : α) (force : α) (temperature : α) : α :=
  Polymers.efjc.thermodynamics.isotensional.asymptotic.gibbs_free_energy_per_link link_length 1.0 link_stiffness force temperature - Polymers.efjc.thermodynamics.isotensional.asymptotic.gibbs_free_energy_per_link link_length 1.0 link_stiffness ((Polymers.ZERO : α) * (Polymers.BOLTZMANN_CONSTANT : α) * temperature / link_length) temperature

/-- `src/physics/single_chain/efjc/thermodynamics/isotensional/asymptotic/mod.rs` lines 104-107. -/
def nondimensional_gibbs_free_energy (number_of_links : Nat) (link_length : α) (hinge_mass : α) (nondimensional_link_stiffness : α) (nondimensional_force : α) (temperature : α) : α :=
  (number_of_links : α) * ((-Elem.ln (Elem.sinh nondimensional_force / nondimensional_force)) - 0.5 * Elem.powi nondimensional_force 2 / nondimensional_link_stiffness - Elem.ln (1.0 + nondimensional_force / Elem.tanh nondimensional_force / nondimensional_link_stiffness) - 0.5 * Elem.ln (2.0 * (Elem.pi : α) * Elem.powi link_length 2 / nondimensional_link_stiffness) - Elem.ln (8.0 * Elem.powi (Elem.pi : α) 2 * hinge_mass * Elem.powi link_length 2 * (Polymers.BOLTZMANN_CONSTANT : α) * temperature / Elem.powi (Polymers.PLANCK_CONSTANT : α) 2))

/-- `src/physics/single_chain/efjc/thermodynamics/isotensional/asymptotic/mod.rs` lines 110-113. -/
def nondimensional_gibbs_free_energy_per_link (link_length : α) (hinge_mass : α) (nondimensional_link_stiffness : α) (nondimensional_force : α) (temperature : α) : α :=
  (-Elem.ln (Elem.sinh nondimensional_force / nondimensional_force)) - 0.5 * Elem.powi nondimensional_force 2 / nondimensional_link_stiffness - Elem.ln (1.0 + nondimensional_force / Elem.tanh nondimensional_force / nondimensional_link_stiffness) - 0.5 * Elem.ln (2.0 * (Elem.pi : α) * Elem.powi link_length 2 / nondimensional_link_stiffness) - Elem.ln (8.0 * Elem.powi (Elem.pi : α) 2 * hinge_mass * Elem.powi link_length 2 * (Polymers.BOLTZMANN_CONSTANT : α) * temperature / Elem.powi (Polymers.PLANCK_CONSTANT : α) 2)

/-- `src/physics/single_chain/efjc/thermodynamics/isotensional/asymptotic/mod.rs` lines 116-119. -/
def nondimensional_relative_gibbs_free_energy (number_of_links : Nat) (nondimensional_link_stiffness : α) (nondimensional_force : α) : α :=
  Polymers.efjc.thermodynamics.isotensional.asymptotic.nondimensional_gibbs_free_energy number_of_links 1.0 1.0 nondimensional_link_stiffness nondimensional_force 300.0 - Polymers.efjc.thermodynamics.isotensional.asymptotic.nondimensional_gibbs_free_energy number_of_links 1.0 1.0 nondimensional_link_stiffness (Polymers.ZERO : α) 300.0

/-- `src/physics/single_chain/efjc/thermodynamics/isotensional/asymptotic/mod.rs` lines 122-125. -/
def nondimensional_relative_gibbs_free_energy_per_link (nondimensional_link_stiffness : α) (nondimensional_force : α) : α :=
  Polymers.efjc.thermodynamics.isotensional.asymptotic.nondimensional_gibbs_free_energy_per_link 1.0 1.0 nondimensional_link_stiffness nondimensional_force 300.0 - Polymers.efjc.thermodynamics.isotensional.asymptotic.nondimensional_gibbs_free_energy_per_link 1.0 1.0 nondimensional_link_stiffness (Polymers.ZERO : α) 300.0

/-- `src/physics/single_chain/efjc/thermodynamics/isotensional/asymptotic/mod.rs` lines 131-143. -/
def EFJC.init (number_of_links : Nat) (link_length : α) (hinge_mass : α) (link_stiffness : α) : Polymers.efjc.thermodynamics.isotensional.asymptotic.EFJC α :=
  { hinge_mass := hinge_mass, link_length := link_length, number_of_links := number_of_links, link_stiffness := link_stiffness, alternative := Polymers.efjc.thermodynamics.isotensional.asymptotic.alternative.EFJC.init number_of_links link_length hinge_mass link_stiffness, reduced := Polymers.efjc.thermodynamics.isotensional.asymptotic.reduced.EFJC.init number_of_links link_length hinge_mass link_stiffness, legendre := Polymers.efjc.thermodynamics.isotensional.asymptotic.legendre.EFJC.init number_of_links link_length hinge_mass link_stiffness }

/-- `src/physics/single_chain/efjc/thermodynamics/isotensional/asymptotic/mod.rs` lines 145-148. -/
def EFJC.end_to_end_length (self : Polymers.efjc.thermodynamics.isotensional.asymptotic.EFJC α) (force : α) (temperature : α) : α :=
  Polymers.efjc.thermodynamics.isotensional.asymptotic.end_to_end_length self.number_of_links self.link_length self.link_stiffness force temperature

/-- `src/physics/single_chain/efjc/thermodynamics/isotensional/asymptotic/mod.rs` lines 150-153. -/
def EFJC.end_to_end_length_per_link (self : Polymers.efjc.thermodynamics.isotensional.asymptotic.EFJC α) (force : α) (temperature : α) : α :=
  Polymers.efjc.thermodynamics.isotensional.asymptotic.end_to_end_length_per_link self.link_length self.link_stiffness force temperature

/-- `src/physics/single_chain/efjc/thermodynamics/isotensional/asymptotic/mod.rs` lines 155-158. -/
def EFJC.nondimensional_end_to_end_length (self : Polymers.efjc.thermodynamics.isotensional.asymptotic.EFJC α) (nondimensional_force : α) (temperature : α) : α :=
  Polymers.efjc.thermodynamics.isotensional.asymptotic.nondimensional_end_to_end_length self.number_of_links (self.link_stiffness * Elem.powi self.link_length 2 / (Polymers.BOLTZMANN_CONSTANT : α) / temperature) nondimensional_force

/-- `src/physics/single_chain/efjc/thermodynamics/isotensional/asymptotic/mod.rs` lines 160-163. -/
def EFJC.nondimensional_end_to_end_length_per_link (self : Polymers.efjc.thermodynamics.isotensional.asymptotic.EFJC α) (nondimensional_force : α) (temperature : α) : α :=
  Polymers.efjc.thermodynamics.isotensional.asymptotic.nondimensional_end_to_end_length_per_link (self.link_stiffness * Elem.powi self.link_length 2 / (Polymers.BOLTZMANN_CONSTANT : α) / temperature) nondimensional_force

/-- `src/physics/single_chain/efjc/thermodynamics/isotensional/asymptotic/mod.rs` lines 165-168. -/
def EFJC.gibbs_free_energy (self : Polymers.efjc.thermodynamics.isotensional.asymptotic.EFJC α) (force : α) (temperature : α) : α :=
  Polymers.efjc.thermodynamics.isotensional.asymptotic.gibbs_free_energy self.number_of_links self.link_length self.hinge_mass self.link_stiffness force temperature

/-- `src/physics/single_chain/efjc/thermodynamics/isotensional/asymptotic/mod.rs` lines 170-173. -/
def EFJC.gibbs_free_energy_per_link (self : Polymers.efjc.thermodynamics.isotensional.asymptotic.EFJC α) (force : α) (temperature : α) : α :=
  Polymers.efjc.thermodynamics.isotensional.asymptotic.gibbs_free_energy_per_link self.link_length self.hinge_mass self.link_stiffness force temperature

/-- `src/physics/single_chain/efjc/thermodynamics/isotensional/asymptotic/mod.rs` lines 175-178. -/
def EFJC.relative_gibbs_free_energy (self : Polymers.efjc.thermodynamics.isotensional.asymptotic.EFJC α) (force : α) (temperature : α) : α :=
  Polymers.efjc.thermodynamics.isotensional.asymptotic.relative_gibbs_free_energy self.number_of_links self.link_length self.link_stiffness force temperature

/-- `src/physics/single_chain/efjc/thermodynamics/isotensional/asymptotic/mod.rs` lines 180-183. -/
def EFJC.relative_gibbs_free_energy_per_link (self : Polymers.efjc.thermodynamics.isotensional.asymptotic.EFJC α) (force : α) (temperature : α) : α :=
  Polymers.efjc.thermodynamics.isotensional.asymptotic.relative_gibbs_free_energy_per_link self.link_length self.link_stiffness force temperature

/-- `src/physics/single_chain/efjc/thermodynamics/isotensional/asymptotic/mod.rs` lines 185-188. -/
def EFJC.nondimensional_gibbs_free_energy (self : Polymers.efjc.thermodynamics.isotensional.asymptotic.EFJC α) (nondimensional_force : α) (temperature : α) : α :=
  Polymers.efjc.thermodynamics.isotensional.asymptotic.nondimensional_gibbs_free_energy self.number_of_links self.link_length self.hinge_mass (self.link_stiffness * Elem.powi self.link_length 2 / (Polymers.BOLTZMANN_CONSTANT : α) / temperature) nondimensional_force temperature

/-- `src/physics/single_chain/efjc/thermodynamics/isotensional/asymptotic/mod.rs` lines 190-193. -/
def EFJC.nondimensional_gibbs_free_energy_per_link (self : Polymers.efjc.thermodynamics.isotensional.asymptotic.EFJC α) (nondimensional_force : α) (temperature : α) : α :=
  Polymers.efjc.thermodynamics.isotensional.asymptotic.nondimensional_gibbs_free_energy_per_link self.link_length self.hinge_mass (self.link_stiffness * Elem.powi self.link_length 2 / (Polymers.BOLTZMANN_CONSTANT : α) / temperature) nondimensional_force temperature

/-- `src/physics/single_chain/efjc/thermodynamics/isotensional/asymptotic/mod.rs` lines 195-198. -/
def EFJC.nondimensional_relative_gibbs_free_energy (self : Polymers.efjc.thermodynamics.isotensional.asymptotic.EFJC α) (nondimensional_force : α) (temperature : α) : α :=
  Polymers.efjc.thermodynamics.isotensional.asymptotic.nondimensional_relative_gibbs_free_energy self.number_of_links (self.link_stiffness * Elem.powi self.link_length 2 / (Polymers.BOLTZMANN_CONSTANT : α) / temperature) nondimensional_force

/-- `src/physics/single_chain/efjc/thermodynamics/isotensional/asymptotic/mod.rs` lines 200-203. -/
def EFJC.nondimensional_relative_gibbs_free_energy_per_link (self : Polymers.efjc.thermodynamics.isotensional.asymptotic.EFJC α) (nondimensional_force : α) (temperature : α) : α :=
  Polymers.efjc.thermodynamics.isotensional.asymptotic.nondimensional_relative_gibbs_free_energy_per_link (self.link_stiffness * Elem.powi self.link_length 2 / (Polymers.BOLTZMANN_CONSTANT : α) / temperature) nondimensional_force

end Polymers.efjc.thermodynamics.isotensional.asymptotic

namespace Polymers.efjc.thermodynamics.isotensional.legendre

/-- `src/physics/single_chain/efjc/thermodynamics/isotensional/legendre/mod.rs` lines 19-32: struct `EFJC`. -/
structure EFJC (α : Type) where
  /-- field `hinge_mass` -/
  hinge_mass : α
  /-- field `link_length` -/
  link_length : α
  /-- field `number_of_links` -/
  number_of_links : Nat
  /-- field `link_stiffness` -/
  link_stiffness : α

/-- `src/physics/single_chain/efjc/thermodynamics/isotensional/legendre/mod.rs` lines 65-70. -/
def nondimensional_helmholtz_free_energy_per_link (link_length : α) (hinge_mass : α) (nondimensional_link_stiffness : α) (nondimensional_force : α) (temperature : α) : α :=
  let denominator : α := 4.0 * Elem.sinh nondimensional_force * (1.0 + nondimensional_force / Elem.tanh nondimensional_force / nondimensional_link_stiffness)
  let fraction : α := ((nondimensional_force / nondimensional_link_stiffness + 1.0) * Elem.exp nondimensional_force * Polymers.math.erf ((nondimensional_force + nondimensional_link_stiffness) / Elem.sqrt (2.0 * nondimensional_link_stiffness)) - (nondimensional_force / nondimensional_link_stiffness - 1.0) / Elem.exp nondimensional_force * Polymers.math.erf ((nondimensional_force - nondimensional_link_stiffness) / Elem.sqrt (2.0 * nondimensional_link_stiffness))) / denominator
  (-Elem.ln (Elem.sinh nondimensional_force / nondimensional_force)) - 0.5 * Elem.powi nondimensional_force 2 / nondimensional_link_stiffness - Elem.ln (1.0 + nondimensional_force / Elem.tanh nondimensional_force / nondimensional_link_stiffness) - Elem.ln (0.5 + ((nondimensional_force / nondimensional_link_stiffness + 1.0) * Elem.exp nondimensional_force * Polymers.math.erf ((nondimensional_force + nondimensional_link_stiffness) / Elem.sqrt (2.0 * nondimensional_link_stiffness)) - (nondimensional_force / nondimensional_link_stiffness - 1.0) / Elem.exp nondimensional_force * Polymers.math.erf ((nondimensional_force - nondimensional_link_stiffness) / Elem.sqrt (2.0 * nondimensional_link_stiffness))) / (4.0 * Elem.sinh nondimensional_force * (1.0 + nondimensional_force / Elem.tanh nondimensional_force / nondimensional_link_stiffness))) - 0.5 * Elem.ln (2.0 * (Elem.pi : α) * Elem.powi link_length 2 / nondimensional_link_stiffness) - Elem.ln (8.0 * Elem.powi (Elem.pi : α) 2 * hinge_mass * Elem.powi link_length 2 * (Polymers.BOLTZMANN_CONSTANT : α) * temperature / Elem.powi (Polymers.PLANCK_CONSTANT : α) 2) + nondimensional_force * (1.0 / Elem.tanh nondimensional_force - 1.0 / nondimensional_force + nondimensional_force / nondimensional_link_stiffness * (1.0 + (Elem.tanh nondimensional_force - 1.0 / Elem.tanh nondimensional_force + 1.0 / nondimensional_force) / (Elem.tanh nondimensional_force + nondimensional_force / nondimensional_link_stiffness)) + (Elem.exp nondimensional_force * (Elem.sqrt (2.0 / (Elem.pi : α) / nondimensional_link_stiffness) * (nondimensional_force / nondimensional_link_stiffness + 1.0) * Elem.exp ((-Elem.powi (nondimensional_force + nondimensional_link_stiffness) 2) / 2.0 / nondimensional_link_stiffness) + (1.0 + (1.0 + nondimensional_force) / nondimensional_link_stiffness)) - 1.0 / Elem.exp nondimensional_force * (Elem.sqrt (2.0 / (Elem.pi : α) / nondimensional_link_stiffness) * (nondimensional_force / nondimensional_link_stiffness - 1.0) * Elem.exp ((-Elem.powi (nondimensional_force - nondimensional_link_stiffness) 2) / 2.0 / nondimensional_link_stiffness) + (1.0 + (1.0 - nondimensional_force) / nondimensional_link_stiffness) * Polymers.math.erf ((nondimensional_force - nondimensional_link_stiffness) / Elem.sqrt (2.0 * nondimensional_link_stiffness))) - fraction * (4.0 * (Elem.cosh nondimensional_force * (1.0 + (1.0 + nondimensional_force / Elem.tanh nondimensional_force) / nondimensional_link_stiffness) - nondimensional_force / nondimensional_link_stiffness / Elem.sinh nondimensional_force))) / denominator / (1.0 + fraction))

/-- `src/physics/single_chain/efjc/thermodynamics/isotensional/legendre/mod.rs` lines 59-62. -/
def nondimensional_helmholtz_free_energy (number_of_links : Nat) (link_length : α) (hinge_mass : α) (nondimensional_link_stiffness : α) (nondimensional_force : α) (temperature : α) : α :=
  (number_of_links : α) * Polymers.efjc.thermodynamics.isotensional.legendre.nondimensional_helmholtz_free_energy_per_link link_length hinge_mass nondimensional_link_stiffness nondimensional_force temperature

/-- `src/physics/single_chain/efjc/thermodynamics/isotensional/legendre/mod.rs` lines 35-38. -/
def helmholtz_free_energy (number_of_links : Nat) (link_length : α) (hinge_mass : α) (link_stiffness : α) (force : α) (temperature : α) : α :=
  (Polymers.BOLTZMANN_CONSTANT : α) * temperature * Polymers.efjc.thermodynamics.isotensional.legendre.nondimensional_helmholtz_free_energy number_of_links link_length hinge_mass (link_stiffness * Elem.powi link_length 2 / (Polymers.BOLTZMANN_CONSTANT : α) / temperature) (force / (Polymers.BOLTZMANN_CONSTANT : α) / temperature * link_length) temperature

/-- `src/physics/single_chain/efjc/thermodynamics/isotensional/legendre/mod.rs` lines 41-44. -/
def helmholtz_free_energy_per_link (link_length : α) (hinge_mass : α) (link_stiffness : α) (force : α) (temperature : α) : α :=
  (Polymers.BOLTZMANN_CONSTANT : α) * temperature * Polymers.efjc.thermodynamics.isotensional.legendre.nondimensional_helmholtz_free_energy_per_link link_length hinge_mass (link_stiffness * Elem.powi link_length 2 / (Polymers.BOLTZMANN_CONSTANT : α) / temperature) (force / (Polymers.BOLTZMANN_CONSTANT : α) / temperature * link_length) temperature

/-- `src/physics/single_chain/efjc/thermodynamics/isotensional/legendre/mod.rs` lines 47-50. -/
def relative_helmholtz_free_energy (number_of_links : Nat) (link_length : α) (link_stiffness : α) (force : α) (temperature : α) : α :=
  Polymers.efjc.thermodynamics.isotensional.legendre.helmholtz_free_energy number_of_links link_length 1.0 link_stiffness force temperature - Polymers.efjc.thermodynamics.isotensional.legendre.helmholtz_free_energy number_of_links link_length 1.0 link_stiffness ((Polymers.ZERO : α) * (Polymers.BOLTZMANN_CONSTANT : α) * temperature / link_length) temperature

/-- `src/physics/single_chain/efjc/thermodynamics/isotensional/legendre/mod.rs` lines 53-56. -/
def relative_helmholtz_free_energy_per_link (link_length : α) (link_stiffness : α) (force : α) (temperature : α) : α :=
  Polymers.efjc.thermodynamics.isotensional.legendre.helmholtz_free_energy_per_link link_length 1.0 link_stiffness force temperature - Polymers.efjc.thermodynamics.isotensional.legendre.helmholtz_free_energy_per_link link_length 1.0 link_stiffness ((Polymers.ZERO : α) * (Polymers.BOLTZMANN_CONSTANT : α) * temperature / link_length) temperature

/-- `src/physics/single_chain/efjc/thermodynamics/isotensional/legendre/mod.rs` lines 73-76. -/
def nondimensional_relative_helmholtz_free_energy (number_of_links : Nat) (nondimensional_link_stiffness : α) (nondimensional_force : α) : α :=
  Polymers.efjc.thermodynamics.isotensional.legendre.nondimensional_helmholtz_free_energy number_of_links 1.0 1.0 nondimensional_link_stiffness nondimensional_force 300.0 - Polymers.efjc.thermodynamics.isotensional.legendre.nondimensional_helmholtz_free_energy number_of_links 1.0 1.0 nondimensional_link_stiffness (Polymers.ZERO : α) 300.0

/-- `src/physics/single_chain/efjc/thermodynamics/isotensional/legendre/mod.rs` lines 79-82. -/
def nondimensional_relative_helmholtz_free_energy_per_link (nondimensional_link_stiffness : α) (nondimensional_force : α) : α :=
  Polymers.efjc.thermodynamics.isotensional.legendre.nondimensional_helmholtz_free_energy_per_link 1.0 1.0 nondimensional_link_stiffness nondimensional_force 300.0 - Polymers.efjc.thermodynamics.isotensional.legendre.nondimensional_helmholtz_free_energy_per_link 1.0 1.0 nondimensional_link_stiffness (Polymers.ZERO : α) 300.0

/-- `src/physics/single_chain/efjc/thermodynamics/isotensional/legendre/mod.rs` lines 88-97. -/
def EFJC.init (number_of_links : Nat) (link_length : α) (hinge_mass : α) (link_stiffness : α) : Polymers.efjc.thermodynamics.isotensional.legendre.EFJC α :=
  { hinge_mass := hinge_mass, link_length := link_length, number_of_links := number_of_links, link_stiffness := link_stiffness }

/-- `src/physics/single_chain/efjc/thermodynamics/isotensional/legendre/mod.rs` lines 99-102. -/
def EFJC.helmholtz_free_energy (self : Polymers.efjc.thermodynamics.isotensional.legendre.EFJC α) (force : α) (temperature : α) : α :=
  Polymers.efjc.thermodynamics.isotensional.legendre.helmholtz_free_energy self.number_of_links self.link_length self.hinge_mass self.link_stiffness force temperature

/-- `src/physics/single_chain/efjc/thermodynamics/isotensional/legendre/mod.rs` lines 104-107. -/
def EFJC.helmholtz_free_energy_per_link (self : Polymers.efjc.thermodynamics.isotensional.legendre.EFJC α) (force : α) (temperature : α) : α :=
  Polymers.efjc.thermodynamics.isotensional.legendre.helmholtz_free_energy_per_link self.link_length self.hinge_mass self.link_stiffness force temperature

/-- `src/physics/single_chain/efjc/thermodynamics/isotensional/legendre/mod.rs` lines 109-112. -/
def EFJC.relative_helmholtz_free_energy (self : Polymers.efjc.thermodynamics.isotensional.legendre.EFJC α) (force : α) (temperature : α) : α :=
  Polymers.efjc.thermodynamics.isotensional.legendre.relative_helmholtz_free_energy self.number_of_links self.link_length self.link_stiffness force temperature

/-- `src/physics/single_chain/efjc/thermodynamics/isotensional/legendre/mod.rs` lines 114-117. -/
def EFJC.relative_helmholtz_free_energy_per_link (self : Polymers.efjc.thermodynamics.isotensional.legendre.EFJC α) (force : α) (temperature : α) : α :=
  Polymers.efjc.thermodynamics.isotensional.legendre.relative_helmholtz_free_energy_per_link self.link_length self.link_stiffness force temperature

/-- `src/physics/single_chain/efjc/thermodynamics/isotensional/legendre/mod.rs` lines 119-122. -/
def EFJC.nondimensional_helmholtz_free_energy (self : Polymers.efjc.thermodynamics.isotensional.legendre.EFJC α) (nondimensional_force : α) (temperature : α) : α :=
  Polymers.efjc.thermodynamics.isotensional.legendre.nondimensional_helmholtz_free_energy self.number_of_links self.link_length self.hinge_mass (self.link_stiffness * Elem.powi self.link_length 2 / (Polymers.BOLTZMANN_CONSTANT : α) / temperature) nondimensional_force temperature

/-- `src/physics/single_chain/efjc/thermodynamics/isotensional/legendre/mod.rs` lines 124-127. -/
def EFJC.nondimensional_helmholtz_free_energy_per_link (self : Polymers.efjc.thermodynamics.isotensional.legendre.EFJC α) (nondimensional_force : α) (temperature : α) : α :=
  Polymers.efjc.thermodynamics.isotensional.legendre.nondimensional_helmholtz_free_energy_per_link self.link_length self.hinge_mass (self.link_stiffness * Elem.powi self.link_length 2 / (Polymers.BOLTZMANN_CONSTANT : α) / temperature) nondimensional_force temperature

/-- `src/physics/single_chain/efjc/thermodynamics/isotensional/legendre/mod.rs` lines 129-132. -/
def EFJC.nondimensional_relative_helmholtz_free_energy (self : Polymers.efjc.thermodynamics.isotensional.legendre.EFJC α) (nondimensional_force : α) (temperature : α) : α :=
  Polymers.efjc.thermodynamics.isotensional.legendre.nondimensional_relative_helmholtz_free_energy self.number_of_links (self.link_stiffness * Elem.powi self.link_length 2 / (Polymers.BOLTZMANN_CONSTANT : α) / temperature) nondimensional_force

/-- `src/physics/single_chain/efjc/thermodynamics/isotensional/legendre/mod.rs` lines 134-137. -/
def EFJC.nondimensional_relative_helmholtz_free_energy_per_link (self : Polymers.efjc.thermodynamics.isotensional.legendre.EFJC α) (nondimensional_force : α) (temperature : α) : α :=
  Polymers.efjc.thermodynamics.isotensional.legendre.nondimensional_relative_helmholtz_free_energy_per_link (self.link_stiffness * Elem.powi self.link_length 2 / (Polymers.BOLTZMANN_CONSTANT : α) / temperature) nondimensional_force

end Polymers.efjc.thermodynamics.isotensional.legendre

namespace Polymers.efjc.thermodynamics.isometric

/-- `src/physics/single_chain/efjc/thermodynamics/isometric/mod.rs` lines 13-29: struct `EFJC`. -/
structure EFJC (α : Type) where
  /-- field `hinge_mass` -/
  hinge_mass : α
  /-- field `link_length` -/
  link_length : α
  /-- field `number_of_links` -/
  number_of_links : Nat
  /-- field `link_stiffness` -/
  link_stiffness : α
  /-- field `asymptotic` -/
  asymptotic : Polymers.efjc.thermodynamics.isometric.asymptotic.EFJC α

/-- `src/physics/single_chain/efjc/thermodynamics/isometric/mod.rs` lines 35-45. -/
def EFJC.init (number_of_links : Nat) (link_length : α) (hinge_mass : α) (link_stiffness : α) : Polymers.efjc.thermodynamics.isometric.EFJC α :=
  { hinge_mass := hinge_mass, link_length := link_length, number_of_links := number_of_links, link_stiffness := link_stiffness, asymptotic := Polymers.efjc.thermodynamics.isometric.asymptotic.EFJC.init number_of_links link_length hinge_mass link_stiffness }

end Polymers.efjc.thermodynamics.isometric

namespace Polymers.efjc.thermodynamics.isotensional

/-- `src/physics/single_chain/efjc/thermodynamics/isotensional/mod.rs` lines 25-44: struct `EFJC`. -/
structure EFJC (α : Type) where
  /-- field `hinge_mass` -/
  hinge_mass : α
  /-- field `link_length` -/
  link_length : α
  /-- field `number_of_links` -/
  number_of_links : Nat
  /-- field `link_stiffness` -/
  link_stiffness : α
  /-- field `asymptotic` -/
  asymptotic : Polymers.efjc.thermodynamics.isotensional.asymptotic.EFJC α
  /-- field `legendre` -/
  legendre : Polymers.efjc.thermodynamics.isotensional.legendre.EFJC α

/-- `src/physics/single_chain/efjc/thermodynamics/isotensional/mod.rs` lines 65-70. -/
def nondimensional_end_to_end_length_per_link (nondimensional_link_stiffness : α) (nondimensional_force : α) : α :=
  let denominator : α := 4.0 * Elem.sinh nondimensional_force * (1.0 + nondimensional_force / Elem.tanh nondimensional_force / nondimensional_link_stiffness)
  let fraction : α := ((nondimensional_force / nondimensional_link_stiffness + 1.0) * Elem.exp nondimensional_force * Polymers.math.erf ((nondimensional_force + nondimensional_link_stiffness) / Elem.sqrt (2.0 * nondimensional_link_stiffness)) - (nondimensional_force / nondimensional_link_stiffness - 1.0) / Elem.exp nondimensional_force * Polymers.math.erf ((nondimensional_force - nondimensional_link_stiffness) / Elem.sqrt (2.0 * nondimensional_link_stiffness))) / denominator
  1.0 / Elem.tanh nondimensional_force - 1.0 / nondimensional_force + nondimensional_force / nondimensional_link_stiffness * (1.0 + (Elem.tanh nondimensional_force - 1.0 / Elem.tanh nondimensional_force + 1.0 / nondimensional_force) / (Elem.tanh nondimensional_force + nondimensional_force / nondimensional_link_stiffness)) + (Elem.exp nondimensional_force * (Elem.sqrt (2.0 / (Elem.pi : α) / nondimensional_link_stiffness) * (nondimensional_force / nondimensional_link_stiffness + 1.0) * Elem.exp ((-Elem.powi (nondimensional_force + nondimensional_link_stiffness) 2) / 2.0 / nondimensional_link_stiffness) + (1.0 + (1.0 + nondimensional_force) / nondimensional_link_stiffness)) - 1.0 / Elem.exp nondimensional_force * (Elem.sqrt (2.0 / (Elem.pi : α) / nondimensional_link_stiffness) * (nondimensional_force / nondimensional_link_stiffness - 1.0) * Elem.exp ((-Elem.powi (nondimensional_force - nondimensional_link_stiffness) 2) / 2.0 / nondimensional_link_stiffness) + (1.0 + (1.0 - nondimensional_force) / nondimensional_link_stiffness) * Polymers.math.erf ((nondimensional_force - nondimensional_link_stiffness) / Elem.sqrt (2.0 * nondimensional_link_stiffness))) - fraction * (4.0 * (Elem.cosh nondimensional_force * (1.0 + (1.0 + nondimensional_force / Elem.tanh nondimensional_force) / nondimensional_link_stiffness) - nondimensional_force / nondimensional_link_stiffness / Elem.sinh nondimensional_force))) / denominator / (1.0 + fraction)

/-- `src/physics/single_chain/efjc/thermodynamics/isotensional/mod.rs` lines 59-62. -/
def nondimensional_end_to_end_length (number_of_links : Nat) (nondimensional_link_stiffness : α) (nondimensional_force : α) : α :=
  (number_of_links : α) * Polymers.efjc.thermodynamics.isotensional.nondimensional_end_to_end_length_per_link nondimensional_link_stiffness nondimensional_force

/-- `src/physics/single_chain/efjc/thermodynamics/isotensional/mod.rs` lines 47-50. -/
def end_to_end_length (number_of_links : Nat) (link_length : α) (link_stiffness : α) (force : α) (temperature : α) : α :=
  link_length * Polymers.efjc.thermodynamics.isotensional.nondimensional_end_to_end_length number_of_links (link_stiffness * Elem.powi link_length 2 / (Polymers.BOLTZMANN_CONSTANT : α) / temperature) (force * link_length / (Polymers.BOLTZMANN_CONSTANT : α) / temperature)

/-- `src/physics/single_chain/efjc/thermodynamics/isotensional/mod.rs` lines 53-56. -/
def end_to_end_length_per_link (link_length : α) (link_stiffness : α) (force : α) (temperature : α) : α :=
  link_length * Polymers.efjc.thermodynamics.isotensional.nondimensional_end_to_end_length_per_link (link_stiffness * Elem.powi link_length 2 / (Polymers.BOLTZMANN_CONSTANT : α) / temperature) (force * link_length / (Polymers.BOLTZMANN_CONSTANT : α) / temperature)

/-- `src/physics/single_chain/efjc/thermodynamics/isotensional/mod.rs` lines 73-78. -/
def gibbs_free_energy (number_of_links : Nat) (link_length : α) (hinge_mass : α) (link_stiffness : α) (force : α) (temperature : α) : α :=
  let nondimensional_force : α := force * link_length / (Polymers.BOLTZMANN_CONSTANT : α) / temperature
  let nondimensional_link_stiffness : α := link_stiffness * Elem.powi link_length 2 / (Polymers.BOLTZMANN_CONSTANT : α) / temperature
  (number_of_links : α) * (Polymers.BOLTZMANN_CONSTANT : α) * temperature * ((-Elem.ln (Elem.sinh nondimensional_force / nondimensional_force)) - 0.5 * Elem.powi nondimensional_force 2 / nondimensional_link_stiffness - Elem.ln (1.0 + nondimensional_force / Elem.tanh nondimensional_force / nondimensional_link_stiffness) - Elem.ln (0.5 + ((nondimensional_force / nondimensional_link_stiffness + 1.0) * Elem.exp nondimensional_force * Polymers.math.erf ((nondimensional_force + nondimensional_link_stiffness) / Elem.sqrt (2.0 * nondimensional_link_stiffness)) - (nondimensional_force / nondimensional_link_stiffness - 1.0) / Elem.exp nondimensional_force * Polymers.math.erf ((nondimensional_force - nondimensional_link_stiffness) / Elem.sqrt (2.0 * nondimensional_link_stiffness))) / (4.0 * Elem.sinh nondimensional_force * (1.0 + nondimensional_force / Elem.tanh nondimensional_force / nondimensional_link_stiffness))) - 0.5 * Elem.ln (2.0 * (Elem.pi : α) * (Polymers.BOLTZMANN_CONSTANT : α) * temperature / link_stiffness) - Elem.ln (8.0 * Elem.powi (Elem.pi : α) 2 * hinge_mass * Elem.powi link_length 2 * (Polymers.BOLTZMANN_CONSTANT : α) * temperature / Elem.powi (Polymers.PLANCK_CONSTANT : α) 2))

/-- `src/physics/single_chain/efjc/thermodynamics/isotensional/mod.rs` lines 81-86. -/
def gibbs_free_energy_per_link (link_length : α) (hinge_mass : α) (link_stiffness : α) (force : α) (temperature : α) : α :=
  let nondimensional_force : α := force * link_length / (Polymers.BOLTZMANN_CONSTANT : α) / temperature
  let nondimensional_link_stiffness : α := link_stiffness * Elem.powi link_length 2 / (Polymers.BOLTZMANN_CONSTANT : α) / temperature
  (Polymers.BOLTZMANN_CONSTANT : α) * temperature * ((-Elem.ln (Elem.sinh nondimensional_force / nondimensional_force)) - 0.5 * Elem.powi nondimensional_force 2 / nondimensional_link_stiffness - Elem.ln (1.0 + nondimensional_force / Elem.tanh nondimensional_force / nondimensional_link_stiffness) - Elem.ln (0.5 + ((nondimensional_force / nondimensional_link_stiffness + 1.0) * Elem.exp nondimensional_force * Polymers.math.erf ((nondimensional_force + nondimensional_link_stiffness) / Elem.sqrt (2.0 * nondimensional_link_stiffness)) - (nondimensional_force / nondimensional_link_stiffness - 1.0) / Elem.exp nondimensional_force * Polymers.math.erf ((nondimensional_force - nondimensional_link_stiffness) / Elem.sqrt (2.0 * nondimensional_link_stiffness))) / (4.0 * Elem.sinh nondimensional_force * (1.0 + nondimensional_force / Elem.tanh nondimensional_force / nondimensional_link_stiffness))) - 0.5 * Elem.ln (2.0 * (Elem.pi : α) * (Polymers.BOLTZMANN_CONSTANT : α) * temperature / link_stiffness) - Elem.ln (8.0 * Elem.powi (Elem.pi : α) 2 * hinge_mass * Elem.powi link_length 2 * (Polymers.BOLTZMANN_CONSTANT : α) * temperature / Elem.powi (Polymers.PLANCK_CONSTANT : α) 2))

/-- `src/physics/single_chain/efjc/thermodynamics/isotensional/mod.rs` lines 89-92. -/
def relative_gibbs_free_energy (number_of_links : Nat) (link_length : α) (link_stiffness : α) (force : α) (temperature : α) : α :=
  Polymers.efjc.thermodynamics.isotensional.gibbs_free_energy number_of_links link_length 1.0 link_stiffness force temperature - Polymers.efjc.thermodynamics.isotensional.gibbs_free_energy number_of_links link_length 1.0 link_stiffness ((Polymers.ZERO : α) * (Polymers.BOLTZMANN_CONSTANT : α) * temperature / link_length) temperature

/-- `src/physics/single_chain/efjc/thermodynamics/isotensional/mod.rs` lines 95-98. -/
def relative_gibbs_free_energy_per_link (link_length : α) (link_stiffness : α) (force : α) (temperature : α) : α :=
  Polymers.efjc.thermodynamics.isotensional.gibbs_free_energy_per_link link_length 1.0 link_stiffness force temperature - Polymers.efjc.thermodynamics.isotensional.gibbs_free_energy_per_link link_length 1.0 link_stiffness ((Polymers.ZERO : α) * (Polymers.BOLTZMANN_CONSTANT : α) * temperature / link_length) temperature

/-- `src/physics/single_chain/efjc/thermodynamics/isotensional/mod.rs` lines 101-104. -/
def nondimensional_gibbs_free_energy (number_of_links : Nat) (link_length : α) (hinge_mass : α) (nondimensional_link_stiffness : α) (nondimensional_force : α) (temperature : α) : α :=
  (number_of_links : α) * ((-Elem.ln (Elem.sinh nondimensional_force / nondimensional_force)) - 0.5 * Elem.powi nondimensional_force 2 / nondimensional_link_stiffness - Elem.ln (1.0 + nondimensional_force / Elem.tanh nondimensional_force / nondimensional_link_stiffness) - Elem.ln (0.5 + ((nondimensional_force / nondimensional_link_stiffness + 1.0) * Elem.exp nondimensional_force * Polymers.math.erf ((nondimensional_force + nondimensional_link_stiffness) / Elem.sqrt (2.0 * nondimensional_link_stiffness)) - (nondimensional_force / nondimensional_link_stiffness - 1.0) / Elem.exp nondimensional_force * Polymers.math.erf ((nondimensional_force - nondimensional_link_stiffness) / Elem.sqrt (2.0 * nondimensional_link_stiffness))) / (4.0 * Elem.sinh nondimensional_force * (1.0 + nondimensional_force / Elem.tanh nondimensional_force / nondimensional_link_stiffness))) - 0.5 * Elem.ln (2.0 * (Elem.pi : α) * Elem.powi link_length 2 / nondimensional_link_stiffness) - Elem.ln (8.0 * Elem.powi (Elem.pi : α) 2 * hinge_mass * Elem.powi link_length 2 * (Polymers.BOLTZMANN_CONSTANT : α) * temperature / Elem.powi (Polymers.PLANCK_CONSTANT : α) 2))

/-- `src/physics/single_chain/efjc/thermodynamics/isotensional/mod.rs` lines 107-110. -/
def nondimensional_gibbs_free_energy_per_link (link_length : α) (hinge_mass : α) (nondimensional_link_stiffness : α) (nondimensional_force : α) (temperature : α) : α :=
  (-Elem.ln (Elem.sinh nondimensional_force / nondimensional_force)) - 0.5 * Elem.powi nondimensional_force 2 / nondimensional_link_stiffness - Elem.ln (1.0 + nondimensional_force / Elem.tanh nondimensional_force / nondimensional_link_stiffness) - Elem.ln (0.5 + ((nondimensional_force / nondimensional_link_stiffness + 1.0) * Elem.exp nondimensional_force * Polymers.math.erf ((nondimensional_force + nondimensional_link_stiffness) / Elem.sqrt (2.0 * nondimensional_link_stiffness)) - (nondimensional_force / nondimensional_link_stiffness - 1.0) / Elem.exp nondimensional_force * Polymers.math.erf ((nondimensional_force - nondimensional_link_stiffness) / Elem.sqrt (2.0 * nondimensional_link_stiffness))) / (4.0 * Elem.sinh nondimensional_force * (1.0 + nondimensional_force / Elem.tanh nondimensional_force / nondimensional_link_stiffness))) - 0.5 * Elem.ln (2.0 * (Elem.pi : α) * Elem.powi link_length 2 / nondimensional_link_stiffness) - Elem.ln (8.0 * Elem.powi (Elem.pi : α) 2 * hinge_mass * Elem.powi link_length 2 * (Polymers.BOLTZMANN_CONSTANT : α) * temperature / Elem.powi (Polymers.PLANCK_CONSTANT : α) 2)

/-- `src/physics/single_chain/efjc/thermodynamics/isotensional/mod.rs` lines 113-116. -/
def nondimensional_relative_gibbs_free_energy (number_of_links : Nat) (nondimensional_link_stiffness : α) (nondimensional_force : α) : α :=
  Polymers.efjc.thermodynamics.isotensional.nondimensional_gibbs_free_energy number_of_links 1.0 1.0 nondimensional_link_stiffness nondimensional_force 300.0 - Polymers.efjc.thermodynamics.isotensional.nondimensional_gibbs_free_energy number_of_links 1.0 1.0 nondimensional_link_stiffness (Polymers.ZERO : α) 300.0

/-- `src/physics/single_chain/efjc/thermodynamics/isotensional/mod.rs` lines 119-122. -/
def nondimensional_relative_gibbs_free_energy_per_link (nondimensional_link_stiffness : α) (nondimensional_force : α) : α :=
  Polymers.efjc.thermodynamics.isotensional.nondimensional_gibbs_free_energy_per_link 1.0 1.0 nondimensional_link_stiffness nondimensional_force 300.0 - Polymers.efjc.thermodynamics.isotensional.nondimensional_gibbs_free_energy_per_link 1.0 1.0 nondimensional_link_stiffness (Polymers.ZERO : α) 300.0

/-- `src/physics/single_chain/efjc/thermodynamics/isotensional/mod.rs` lines 128-139. -/
def EFJC.init (number_of_links : Nat) (link_length : α) (hinge_mass : α) (link_stiffness : α) : Polymers.efjc.thermodynamics.isotensional.EFJC α :=
  { hinge_mass := hinge_mass, link_length := link_length, number_of_links := number_of_links, link_stiffness := link_stiffness, asymptotic := Polymers.efjc.thermodynamics.isotensional.asymptotic.EFJC.init number_of_links link_length hinge_mass link_stiffness, legendre := Polymers.efjc.thermodynamics.isotensional.legendre.EFJC.init number_of_links link_length hinge_mass link_stiffness }

/-- `src/physics/single_chain/efjc/thermodynamics/isotensional/mod.rs` lines 141-144. -/
def EFJC.end_to_end_length (self : Polymers.efjc.thermodynamics.isotensional.EFJC α) (force : α) (temperature : α) : α :=
  Polymers.efjc.thermodynamics.isotensional.end_to_end_length self.number_of_links self.link_length self.link_stiffness force temperature

/-- `src/physics/single_chain/efjc/thermodynamics/isotensional/mod.rs` lines 146-149. -/
def EFJC.end_to_end_length_per_link (self : Polymers.efjc.thermodynamics.isotensional.EFJC α) (force : α) (temperature : α) : α :=
  Polymers.efjc.thermodynamics.isotensional.end_to_end_length_per_link self.link_length self.link_stiffness force temperature

/-- `src/physics/single_chain/efjc/thermodynamics/isotensional/mod.rs` lines 151-154. -/
def EFJC.nondimensional_end_to_end_length (self : Polymers.efjc.thermodynamics.isotensional.EFJC α) (nondimensional_force : α) (temperature : α) : α :=
  Polymers.efjc.thermodynamics.isotensional.nondimensional_end_to_end_length self.number_of_links (self.link_stiffness * Elem.powi self.link_length 2 / (Polymers.BOLTZMANN_CONSTANT : α) / temperature) nondimensional_force

/-- `src/physics/single_chain/efjc/thermodynamics/isotensional/mod.rs` lines 156-159. -/
def EFJC.nondimensional_end_to_end_length_per_link (self : Polymers.efjc.thermodynamics.isotensional.EFJC α) (nondimensional_force : α) (temperature : α) : α :=
  Polymers.efjc.thermodynamics.isotensional.nondimensional_end_to_end_length_per_link (self.link_stiffness * Elem.powi self.link_length 2 / (Polymers.BOLTZMANN_CONSTANT : α) / temperature) nondimensional_force

/-- `src/physics/single_chain/efjc/thermodynamics/isotensional/mod.rs` lines 161-164. -/
def EFJC.gibbs_free_energy (self : Polymers.efjc.thermodynamics.isotensional.EFJC α) (force : α) (temperature : α) : α :=
  Polymers.efjc.thermodynamics.isotensional.gibbs_free_energy self.number_of_links self.link_length self.hinge_mass self.link_stiffness force temperature

/-- `src/physics/single_chain/efjc/thermodynamics/isotensional/mod.rs` lines 166-169. -/
def EFJC.gibbs_free_energy_per_link (self : Polymers.efjc.thermodynamics.isotensional.EFJC α) (force : α) (temperature : α) : α :=
  Polymers.efjc.thermodynamics.isotensional.gibbs_free_energy_per_link self.link_length self.hinge_mass self.link_stiffness force temperature

/-- `src/physics/single_chain/efjc/thermodynamics/isotensional/mod.rs` lines 171-174. -/
def EFJC.relative_gibbs_free_energy (self : Polymers.efjc.thermodynamics.isotensional.EFJC α) (force : α) (temperature : α) : α :=
  Polymers.efjc.thermodynamics.isotensional.relative_gibbs_free_energy self.number_of_links self.link_length self.link_stiffness force temperature

/-- `src/physics/single_chain/efjc/thermodynamics/isotensional/mod.rs` lines 176-179. -/
def EFJC.relative_gibbs_free_energy_per_link (self : Polymers.efjc.thermodynamics.isotensional.EFJC α) (force : α) (temperature : α) : α :=
  Polymers.efjc.thermodynamics.isotensional.relative_gibbs_free_energy_per_link self.link_length self.link_stiffness force temperature

/-- `src/physics/single_chain/efjc/thermodynamics/isotensional/mod.rs` lines 181-184. -/
def EFJC.nondimensional_gibbs_free_energy (self : Polymers.efjc.thermodynamics.isotensional.EFJC α) (nondimensional_force : α) (temperature : α) : α :=
  Polymers.efjc.thermodynamics.isotensional.nondimensional_gibbs_free_energy self.number_of_links self.link_length self.hinge_mass (self.link_stiffness * Elem.powi self.link_length 2 / (Polymers.BOLTZMANN_CONSTANT : α) / temperature) nondimensional_force temperature

/-- `src/physics/single_chain/efjc/thermodynamics/isotensional/mod.rs` lines 186-189. -/
def EFJC.nondimensional_gibbs_free_energy_per_link (self : Polymers.efjc.thermodynamics.isotensional.EFJC α) (nondimensional_force : α) (temperature : α) : α :=
  Polymers.efjc.thermodynamics.isotensional.nondimensional_gibbs_free_energy_per_link self.link_length self.hinge_mass (self.link_stiffness * Elem.powi self.link_length 2 / (Polymers.BOLTZMANN_CONSTANT : α) / temperature) nondimensional_force temperature

/-- `src/physics/single_chain/efjc/thermodynamics/isotensional/mod.rs` lines 191-194. -/
def EFJC.nondimensional_relative_gibbs_free_energy (self : Polymers.efjc.thermodynamics.isotensional.EFJC α) (nondimensional_force : α) (temperature : α) : α :=
  Polymers.efjc.thermodynamics.isotensional.nondimensional_relative_gibbs_free_energy self.number_of_links (self.link_stiffness * Elem.powi self.link_length 2 / (Polymers.BOLTZMANN_CONSTANT : α) / temperature) nondimensional_force

/-- `src/physics/single_chain/efjc/thermodynamics/isotensional/mod.rs` lines 196-199. -/
def EFJC.nondimensional_relative_gibbs_free_energy_per_link (self : Polymers.efjc.thermodynamics.isotensional.EFJC α) (nondimensional_force : α) (temperature : α) : α :=
  Polymers.efjc.thermodynamics.isotensional.nondimensional_relative_gibbs_free_energy_per_link (self.link_stiffness * Elem.powi self.link_length 2 / (Polymers.BOLTZMANN_CONSTANT : α) / temperature) nondimensional_force

end Polymers.efjc.thermodynamics.isotensional

namespace Polymers.efjc.thermodynamics

/-- `src/physics/single_chain/efjc/thermodynamics/mod.rs` lines 13-32: struct `EFJC`. -/
structure EFJC (α : Type) where
  /-- field `hinge_mass` -/
  hinge_mass : α
  /-- field `link_length` -/
  link_length : α
  /-- field `number_of_links` -/
  number_of_links : Nat
  /-- field `link_stiffness` -/
  link_stiffness : α
  /-- field `isometric` -/
  isometric : Polymers.efjc.thermodynamics.isometric.EFJC α
  /-- field `isotensional` -/
  isotensional : Polymers.efjc.thermodynamics.isotensional.EFJC α

/-- `src/physics/single_chain/efjc/thermodynamics/mod.rs` lines 38-49. -/
def EFJC.init (number_of_links : Nat) (link_length : α) (hinge_mass : α) (link_stiffness : α) : Polymers.efjc.thermodynamics.EFJC α :=
  { hinge_mass := hinge_mass, link_length := link_length, number_of_links := number_of_links, link_stiffness := link_stiffness, isometric := Polymers.efjc.thermodynamics.isometric.EFJC.init number_of_links link_length hinge_mass link_stiffness, isotensional := Polymers.efjc.thermodynamics.isotensional.EFJC.init number_of_links link_length hinge_mass link_stiffness }

end Polymers.efjc.thermodynamics

namespace Polymers.efjc

/-- `src/physics/single_chain/efjc/mod.rs` lines 10-26: struct `EFJC`. -/
structure EFJC (α : Type) where
  /-- field `hinge_mass` -/
  hinge_mass : α
  /-- field `link_length` -/
  link_length : α
  /-- field `number_of_links` -/
  number_of_links : Nat
  /-- field `link_stiffness` -/
  link_stiffness : α
  /-- field `thermodynamics` -/
  thermodynamics : Polymers.efjc.thermodynamics.EFJC α

/-- `src/physics/single_chain/efjc/mod.rs` lines 32-42. -/
def EFJC.init (number_of_links : Nat) (link_length : α) (hinge_mass : α) (link_stiffness : α) : Polymers.efjc.EFJC α :=
  { hinge_mass := hinge_mass, link_length := link_length, number_of_links := number_of_links, link_stiffness := link_stiffness, thermodynamics := Polymers.efjc.thermodynamics.EFJC.init number_of_links link_length hinge_mass link_stiffness }

end Polymers.efjc
