/- Generated by tools/rust2lean.py from /repo/src/physics/single_chain/ideal ; do not edit by hand. -/
import Verif.Model.Math

set_option linter.unusedVariables false

open Polymers

variable {α : Type} [Add α] [Sub α] [Mul α] [Div α] [Neg α] [OfScientific α] [NatCast α] [Elem α]

namespace Polymers.ideal.thermodynamics.isometric

/-- `src/physics/single_chain/ideal/thermodynamics/isometric/mod.rs` lines 17-27: struct `Ideal`. -/
structure Ideal (α : Type) where
  /-- field `hinge_mass` -/
  hinge_mass : α
  /-- field `link_length` -/
  link_length : α
  /-- field `number_of_links` -/
  number_of_links : Nat

/-- `src/physics/single_chain/ideal/thermodynamics/isometric/mod.rs` lines 30-33. -/
def force (number_of_links : Nat) (link_length : α) (end_to_end_length : α) (temperature : α) : α :=
  3.0 * end_to_end_length * (Polymers.BOLTZMANN_CONSTANT : α) * temperature / (number_of_links : α) / Elem.powi link_length 2

/-- `src/physics/single_chain/ideal/thermodynamics/isometric/mod.rs` lines 36-39. -/
def nondimensional_force (nondimensional_end_to_end_length_per_link : α) : α :=
  3.0 * nondimensional_end_to_end_length_per_link

/-- `src/physics/single_chain/ideal/thermodynamics/isometric/mod.rs` lines 42-45. -/
def helmholtz_free_energy (number_of_links : Nat) (link_length : α) (hinge_mass : α) (end_to_end_length : α) (temperature : α) : α :=
  (number_of_links : α) * (Polymers.BOLTZMANN_CONSTANT : α) * temperature * (1.5 * Elem.powi (end_to_end_length / ((number_of_links : α) * link_length)) 2 - Elem.ln (8.0 * Elem.powi (Elem.pi : α) 2 * hinge_mass * Elem.powi link_length 2 * (Polymers.BOLTZMANN_CONSTANT : α) * temperature / Elem.powi (Polymers.PLANCK_CONSTANT : α) 2))

/-- `src/physics/single_chain/ideal/thermodynamics/isometric/mod.rs` lines 48-51. -/
def helmholtz_free_energy_per_link (number_of_links : Nat) (link_length : α) (hinge_mass : α) (end_to_end_length : α) (temperature : α) : α :=
  (Polymers.BOLTZMANN_CONSTANT : α) * temperature * (1.5 * Elem.powi (end_to_end_length / ((number_of_links : α) * link_length)) 2 - Elem.ln (8.0 * Elem.powi (Elem.pi : α) 2 * hinge_mass * Elem.powi link_length 2 * (Polymers.BOLTZMANN_CONSTANT : α) * temperature / Elem.powi (Polymers.PLANCK_CONSTANT : α) 2))

/-- `src/physics/single_chain/ideal/thermodynamics/isometric/mod.rs` lines 78-81. -/
def nondimensional_relative_helmholtz_free_energy (number_of_links : Nat) (nondimensional_end_to_end_length_per_link : α) : α :=
  1.5 * (number_of_links : α) * Elem.powi nondimensional_end_to_end_length_per_link 2

/-- `src/physics/single_chain/ideal/thermodynamics/isometric/mod.rs` lines 54-57. -/
def relative_helmholtz_free_energy (number_of_links : Nat) (link_length : α) (end_to_end_length : α) (temperature : α) : α :=
  Polymers.ideal.thermodynamics.isometric.nondimensional_relative_helmholtz_free_energy number_of_links (end_to_end_length / ((number_of_links : α) * link_length)) * (Polymers.BOLTZMANN_CONSTANT : α) * temperature

/-- `src/physics/single_chain/ideal/thermodynamics/isometric/mod.rs` lines 84-87. -/
def nondimensional_relative_helmholtz_free_energy_per_link (nondimensional_end_to_end_length_per_link : α) : α :=
  1.5 * Elem.powi nondimensional_end_to_end_length_per_link 2

/-- `src/physics/single_chain/ideal/thermodynamics/isometric/mod.rs` lines 60-63. -/
def relative_helmholtz_free_energy_per_link (number_of_links : Nat) (link_length : α) (end_to_end_length : α) (temperature : α) : α :=
  Polymers.ideal.thermodynamics.isometric.nondimensional_relative_helmholtz_free_energy_per_link (end_to_end_length / ((number_of_links : α) * link_length)) * (Polymers.BOLTZMANN_CONSTANT : α) * temperature

/-- `src/physics/single_chain/ideal/thermodynamics/isometric/mod.rs` lines 66-69. -/
def nondimensional_helmholtz_free_energy (number_of_links : Nat) (link_length : α) (hinge_mass : α) (nondimensional_end_to_end_length_per_link : α) (temperature : α) : α :=
  (number_of_links : α) * (1.5 * Elem.powi nondimensional_end_to_end_length_per_link 2 - Elem.ln (8.0 * Elem.powi (Elem.pi : α) 2 * hinge_mass * Elem.powi link_length 2 * (Polymers.BOLTZMANN_CONSTANT : α) * temperature / Elem.powi (Polymers.PLANCK_CONSTANT : α) 2))

/-- `src/physics/single_chain/ideal/thermodynamics/isometric/mod.rs` lines 72-75. -/
def nondimensional_helmholtz_free_energy_per_link (link_length : α) (hinge_mass : α) (nondimensional_end_to_end_length_per_link : α) (temperature : α) : α :=
  1.5 * Elem.powi nondimensional_end_to_end_length_per_link 2 - Elem.ln (8.0 * Elem.powi (Elem.pi : α) 2 * hinge_mass * Elem.powi link_length 2 * (Polymers.BOLTZMANN_CONSTANT : α) * temperature / Elem.powi (Polymers.PLANCK_CONSTANT : α) 2)

/-- `src/physics/single_chain/ideal/thermodynamics/isometric/mod.rs` lines 90-93. -/
def equilibrium_distribution (number_of_links : Nat) (link_length : α) (end_to_end_length : α) : α :=
  Elem.powf (1.5 / (Elem.pi : α) / (number_of_links : α) / Elem.powi link_length 2) 1.5 * Elem.exp ((-1.5) * Elem.powi (end_to_end_length / link_length) 2 / (number_of_links : α))

/-- `src/physics/single_chain/ideal/thermodynamics/isometric/mod.rs` lines 96-99. -/
def nondimensional_equilibrium_distribution (number_of_links : Nat) (nondimensional_end_to_end_length_per_link : α) : α :=
  Elem.powf (1.5 / (Elem.pi : α) * (number_of_links : α)) 1.5 * Elem.exp ((-1.5) * Elem.powi nondimensional_end_to_end_length_per_link 2 * (number_of_links : α))

/-- `src/physics/single_chain/ideal/thermodynamics/isometric/mod.rs` lines 102-106. -/
def equilibrium_radial_distribution (number_of_links : Nat) (link_length : α) (end_to_end_length : α) : α :=
  let contour_length : α := (number_of_links : α) * link_length
  4.0 * (Elem.pi : α) * Elem.powi (end_to_end_length / contour_length) 2 * Elem.powf (1.5 / (Elem.pi : α) * (number_of_links : α)) 1.5 * Elem.exp ((-1.5) * Elem.powi (end_to_end_length / contour_length) 2 * (number_of_links : α)) / contour_length

/-- `src/physics/single_chain/ideal/thermodynamics/isometric/mod.rs` lines 109-112. -/
def nondimensional_equilibrium_radial_distribution (number_of_links : Nat) (nondimensional_end_to_end_length_per_link : α) : α :=
  4.0 * (Elem.pi : α) * Elem.powi nondimensional_end_to_end_length_per_link 2 * Elem.powf (1.5 / (Elem.pi : α) * (number_of_links : α)) 1.5 * Elem.exp ((-1.5) * Elem.powi nondimensional_end_to_end_length_per_link 2 * (number_of_links : α))

/-- `src/physics/single_chain/ideal/thermodynamics/isometric/mod.rs` lines 118-126. -/
def Ideal.init (number_of_links : Nat) (link_length : α) (hinge_mass : α) : Polymers.ideal.thermodynamics.isometric.Ideal α :=
  { hinge_mass := hinge_mass, link_length := link_length, number_of_links := number_of_links }

/-- `src/physics/single_chain/ideal/thermodynamics/isometric/mod.rs` lines 128-131. -/
def Ideal.force (self : Polymers.ideal.thermodynamics.isometric.Ideal α) (end_to_end_length : α) (temperature : α) : α :=
  Polymers.ideal.thermodynamics.isometric.force self.number_of_links self.link_length end_to_end_length temperature

/-- `src/physics/single_chain/ideal/thermodynamics/isometric/mod.rs` lines 133-136. -/
def Ideal.nondimensional_force (self : Polymers.ideal.thermodynamics.isometric.Ideal α) (nondimensional_end_to_end_length_per_link : α) : α :=
  Polymers.ideal.thermodynamics.isometric.nondimensional_force nondimensional_end_to_end_length_per_link

/-- `src/physics/single_chain/ideal/thermodynamics/isometric/mod.rs` lines 138-141. -/
def Ideal.helmholtz_free_energy (self : Polymers.ideal.thermodynamics.isometric.Ideal α) (end_to_end_length : α) (temperature : α) : α :=
  Polymers.ideal.thermodynamics.isometric.helmholtz_free_energy self.number_of_links self.link_length self.hinge_mass end_to_end_length temperature

/-- `src/physics/single_chain/ideal/thermodynamics/isometric/mod.rs` lines 143-146. -/
def Ideal.helmholtz_free_energy_per_link (self : Polymers.ideal.thermodynamics.isometric.Ideal α) (end_to_end_length : α) (temperature : α) : α :=
  Polymers.ideal.thermodynamics.isometric.helmholtz_free_energy_per_link self.number_of_links self.link_length self.hinge_mass end_to_end_length temperature

/-- `src/physics/single_chain/ideal/thermodynamics/isometric/mod.rs` lines 148-151. -/
def Ideal.relative_helmholtz_free_energy (self : Polymers.ideal.thermodynamics.isometric.Ideal α) (end_to_end_length : α) (temperature : α) : α :=
  Polymers.ideal.thermodynamics.isometric.relative_helmholtz_free_energy self.number_of_links self.link_length end_to_end_length temperature

/-- `src/physics/single_chain/ideal/thermodynamics/isometric/mod.rs` lines 153-156. -/
def Ideal.relative_helmholtz_free_energy_per_link (self : Polymers.ideal.thermodynamics.isometric.Ideal α) (end_to_end_length : α) (temperature : α) : α :=
  Polymers.ideal.thermodynamics.isometric.relative_helmholtz_free_energy_per_link self.number_of_links self.link_length end_to_end_length temperature

/-- `src/physics/single_chain/ideal/thermodynamics/isometric/mod.rs` lines 158-161. -/
def Ideal.nondimensional_helmholtz_free_energy (self : Polymers.ideal.thermodynamics.isometric.Ideal α) (nondimensional_end_to_end_length_per_link : α) (temperature : α) : α :=
  Polymers.ideal.thermodynamics.isometric.nondimensional_helmholtz_free_energy self.number_of_links self.link_length self.hinge_mass nondimensional_end_to_end_length_per_link temperature

/-- `src/physics/single_chain/ideal/thermodynamics/isometric/mod.rs` lines 163-166. -/
def Ideal.nondimensional_helmholtz_free_energy_per_link (self : Polymers.ideal.thermodynamics.isometric.Ideal α) (nondimensional_end_to_end_length_per_link : α) (temperature : α) : α :=
  Polymers.ideal.thermodynamics.isometric.nondimensional_helmholtz_free_energy_per_link self.link_length self.hinge_mass nondimensional_end_to_end_length_per_link temperature

/-- `src/physics/single_chain/ideal/thermodynamics/isometric/mod.rs` lines 168-171. -/
def Ideal.nondimensional_relative_helmholtz_free_energy (self : Polymers.ideal.thermodynamics.isometric.Ideal α) (nondimensional_end_to_end_length_per_link : α) : α :=
  Polymers.ideal.thermodynamics.isometric.nondimensional_relative_helmholtz_free_energy self.number_of_links nondimensional_end_to_end_length_per_link

/-- `src/physics/single_chain/ideal/thermodynamics/isometric/mod.rs` lines 173-176. -/
def Ideal.nondimensional_relative_helmholtz_free_energy_per_link (self : Polymers.ideal.thermodynamics.isometric.Ideal α) (nondimensional_end_to_end_length_per_link : α) : α :=
  Polymers.ideal.thermodynamics.isometric.nondimensional_relative_helmholtz_free_energy_per_link nondimensional_end_to_end_length_per_link

/-- `src/physics/single_chain/ideal/thermodynamics/isometric/mod.rs` lines 178-181. -/
def Ideal.equilibrium_distribution (self : Polymers.ideal.thermodynamics.isometric.Ideal α) (end_to_end_length : α) : α :=
  Polymers.ideal.thermodynamics.isometric.equilibrium_distribution self.number_of_links self.link_length end_to_end_length

/-- `src/physics/single_chain/ideal/thermodynamics/isometric/mod.rs` lines 183-186. -/
def Ideal.nondimensional_equilibrium_distribution (self : Polymers.ideal.thermodynamics.isometric.Ideal α) (nondimensional_end_to_end_length_per_link : α) : α :=
  Polymers.ideal.thermodynamics.isometric.nondimensional_equilibrium_distribution self.number_of_links nondimensional_end_to_end_length_per_link

/-- `src/physics/single_chain/ideal/thermodynamics/isometric/mod.rs` lines 188-191. -/
def Ideal.equilibrium_radial_distribution (self : Polymers.ideal.thermodynamics.isometric.Ideal α) (end_to_end_length : α) : α :=
  Polymers.ideal.thermodynamics.isometric.equilibrium_radial_distribution self.number_of_links self.link_length end_to_end_length

/-- `src/physics/single_chain/ideal/thermodynamics/isometric/mod.rs` lines 193-196. -/
def Ideal.nondimensional_equilibrium_radial_distribution (self : Polymers.ideal.thermodynamics.isometric.Ideal α) (nondimensional_end_to_end_length_per_link : α) : α :=
  Polymers.ideal.thermodynamics.isometric.nondimensional_equilibrium_radial_distribution self.number_of_links nondimensional_end_to_end_length_per_link

end Polymers.ideal.thermodynamics.isometric

namespace Polymers.ideal.thermodynamics.isotensional

/-- `src/physics/single_chain/ideal/thermodynamics/isotensional/mod.rs` lines 17-27: struct `Ideal`. -/
structure Ideal (α : Type) where
  /-- field `hinge_mass` -/
  hinge_mass : α
  /-- field `link_length` -/
  link_length : α
  /-- field `number_of_links` -/
  number_of_links : Nat

/-- `src/physics/single_chain/ideal/thermodynamics/isotensional/mod.rs` lines 30-33. -/
def end_to_end_length (number_of_links : Nat) (link_length : α) (force : α) (temperature : α) : α :=
  (number_of_links : α) * force / (Polymers.BOLTZMANN_CONSTANT : α) / temperature * Elem.powi link_length 2 / 3.0

/-- `src/physics/single_chain/ideal/thermodynamics/isotensional/mod.rs` lines 36-39. -/
def end_to_end_length_per_link (link_length : α) (force : α) (temperature : α) : α :=
  force / (Polymers.BOLTZMANN_CONSTANT : α) / temperature * Elem.powi link_length 2 / 3.0

/-- `src/physics/single_chain/ideal/thermodynamics/isotensional/mod.rs` lines 42-45. -/
def nondimensional_end_to_end_length (number_of_links : Nat) (nondimensional_force : α) : α :=
  (number_of_links : α) * nondimensional_force / 3.0

/-- `src/physics/single_chain/ideal/thermodynamics/isotensional/mod.rs` lines 48-51. -/
def nondimensional_end_to_end_length_per_link (nondimensional_force : α) : α :=
  nondimensional_force / 3.0

/-- `src/physics/single_chain/ideal/thermodynamics/isotensional/mod.rs` lines 54-57. -/
def gibbs_free_energy (number_of_links : Nat) (link_length : α) (hinge_mass : α) (force : α) (temperature : α) : α :=
  (-(number_of_links : α)) * (Elem.powi (force * link_length) 2 / 6.0 / (Polymers.BOLTZMANN_CONSTANT : α) / temperature + (Polymers.BOLTZMANN_CONSTANT : α) * temperature * Elem.ln (8.0 * Elem.powi (Elem.pi : α) 2 * hinge_mass * Elem.powi link_length 2 * (Polymers.BOLTZMANN_CONSTANT : α) * temperature / Elem.powi (Polymers.PLANCK_CONSTANT : α) 2))

/-- `src/physics/single_chain/ideal/thermodynamics/isotensional/mod.rs` lines 60-63. -/
def gibbs_free_energy_per_link (link_length : α) (hinge_mass : α) (force : α) (temperature : α) : α :=
  (-Elem.powi (force * link_length) 2) / 6.0 / (Polymers.BOLTZMANN_CONSTANT : α) / temperature - (Polymers.BOLTZMANN_CONSTANT : α) * temperature * Elem.ln (8.0 * Elem.powi (Elem.pi : α) 2 * hinge_mass * Elem.powi link_length 2 * (Polymers.BOLTZMANN_CONSTANT : α) * temperature / Elem.powi (Polymers.PLANCK_CONSTANT : α) 2)

/-- `src/physics/single_chain/ideal/thermodynamics/isotensional/mod.rs` lines 66-69. -/
def relative_gibbs_free_energy (number_of_links : Nat) (link_length : α) (force : α) (temperature : α) : α :=
  (-(number_of_links : α)) * Elem.powi (force * link_length) 2 / 6.0 / (Polymers.BOLTZMANN_CONSTANT : α) / temperature

/-- `src/physics/single_chain/ideal/thermodynamics/isotensional/mod.rs` lines 72-75. -/
def relative_gibbs_free_energy_per_link (link_length : α) (force : α) (temperature : α) : α :=
  (-Elem.powi (force * link_length) 2) / 6.0 / (Polymers.BOLTZMANN_CONSTANT : α) / temperature

/-- `src/physics/single_chain/ideal/thermodynamics/isotensional/mod.rs` lines 78-81. -/
def nondimensional_gibbs_free_energy (number_of_links : Nat) (link_length : α) (hinge_mass : α) (nondimensional_force : α) (temperature : α) : α :=
  (-(number_of_links : α)) * (Elem.powi nondimensional_force 2 / 6.0 + Elem.ln (8.0 * Elem.powi (Elem.pi : α) 2 * hinge_mass * Elem.powi link_length 2 * (Polymers.BOLTZMANN_CONSTANT : α) * temperature / Elem.powi (Polymers.PLANCK_CONSTANT : α) 2))

/-- `src/physics/single_chain/ideal/thermodynamics/isotensional/mod.rs` lines 84-87. -/
def nondimensional_gibbs_free_energy_per_link (link_length : α) (hinge_mass : α) (nondimensional_force : α) (temperature : α) : α :=
  (-Elem.powi nondimensional_force 2) / 6.0 - Elem.ln (8.0 * Elem.powi (Elem.pi : α) 2 * hinge_mass * Elem.powi link_length 2 * (Polymers.BOLTZMANN_CONSTANT : α) * temperature / Elem.powi (Polymers.PLANCK_CONSTANT : α) 2)

/-- `src/physics/single_chain/ideal/thermodynamics/isotensional/mod.rs` lines 90-93. -/
def nondimensional_relative_gibbs_free_energy (number_of_links : Nat) (nondimensional_force : α) : α :=
  (-(number_of_links : α)) * Elem.powi nondimensional_force 2 / 6.0

/-- `src/physics/single_chain/ideal/thermodynamics/isotensional/mod.rs` lines 96-99. -/
def nondimensional_relative_gibbs_free_energy_per_link (nondimensional_force : α) : α :=
  (-Elem.powi nondimensional_force 2) / 6.0

/-- `src/physics/single_chain/ideal/thermodynamics/isotensional/mod.rs` lines 105-113. -/
def Ideal.init (number_of_links : Nat) (link_length : α) (hinge_mass : α) : Polymers.ideal.thermodynamics.isotensional.Ideal α :=
  { hinge_mass := hinge_mass, link_length := link_length, number_of_links := number_of_links }

/-- `src/physics/single_chain/ideal/thermodynamics/isotensional/mod.rs` lines 115-118. -/
def Ideal.end_to_end_length (self : Polymers.ideal.thermodynamics.isotensional.Ideal α) (force : α) (temperature : α) : α :=
  Polymers.ideal.thermodynamics.isotensional.end_to_end_length self.number_of_links self.link_length force temperature

/-- `src/physics/single_chain/ideal/thermodynamics/isotensional/mod.rs` lines 120-123. -/
def Ideal.end_to_end_length_per_link (self : Polymers.ideal.thermodynamics.isotensional.Ideal α) (force : α) (temperature : α) : α :=
  Polymers.ideal.thermodynamics.isotensional.end_to_end_length_per_link self.link_length force temperature

/-- `src/physics/single_chain/ideal/thermodynamics/isotensional/mod.rs` lines 125-128. -/
def Ideal.nondimensional_end_to_end_length (self : Polymers.ideal.thermodynamics.isotensional.Ideal α) (nondimensional_force : α) : α :=
  Polymers.ideal.thermodynamics.isotensional.nondimensional_end_to_end_length self.number_of_links nondimensional_force

/-- `src/physics/single_chain/ideal/thermodynamics/isotensional/mod.rs` lines 130-133. -/
def Ideal.nondimensional_end_to_end_length_per_link (self : Polymers.ideal.thermodynamics.isotensional.Ideal α) (nondimensional_force : α) : α :=
  Polymers.ideal.thermodynamics.isotensional.nondimensional_end_to_end_length_per_link nondimensional_force

/-- `src/physics/single_chain/ideal/thermodynamics/isotensional/mod.rs` lines 135-138. -/
def Ideal.gibbs_free_energy (self : Polymers.ideal.thermodynamics.isotensional.Ideal α) (force : α) (temperature : α) : α :=
  Polymers.ideal.thermodynamics.isotensional.gibbs_free_energy self.number_of_links self.link_length self.hinge_mass force temperature

/-- `src/physics/single_chain/ideal/thermodynamics/isotensional/mod.rs` lines 140-143. -/
def Ideal.gibbs_free_energy_per_link (self : Polymers.ideal.thermodynamics.isotensional.Ideal α) (force : α) (temperature : α) : α :=
  Polymers.ideal.thermodynamics.isotensional.gibbs_free_energy_per_link self.link_length self.hinge_mass force temperature

/-- `src/physics/single_chain/ideal/thermodynamics/isotensional/mod.rs` lines 145-148. -/
def Ideal.relative_gibbs_free_energy (self : Polymers.ideal.thermodynamics.isotensional.Ideal α) (force : α) (temperature : α) : α :=
  Polymers.ideal.thermodynamics.isotensional.relative_gibbs_free_energy self.number_of_links self.link_length force temperature

/-- `src/physics/single_chain/ideal/thermodynamics/isotensional/mod.rs` lines 150-153. -/
def Ideal.relative_gibbs_free_energy_per_link (self : Polymers.ideal.thermodynamics.isotensional.Ideal α) (force : α) (temperature : α) : α :=
  Polymers.ideal.thermodynamics.isotensional.relative_gibbs_free_energy_per_link self.link_length force temperature

/-- `src/physics/single_chain/ideal/thermodynamics/isotensional/mod.rs` lines 155-158. -/
def Ideal.nondimensional_gibbs_free_energy (self : Polymers.ideal.thermodynamics.isotensional.Ideal α) (nondimensional_force : α) (temperature : α) : α :=
  Polymers.ideal.thermodynamics.isotensional.nondimensional_gibbs_free_energy self.number_of_links self.link_length self.hinge_mass nondimensional_force temperature

/-- `src/physics/single_chain/ideal/thermodynamics/isotensional/mod.rs` lines 160-163. -/
def Ideal.nondimensional_gibbs_free_energy_per_link (self : Polymers.ideal.thermodynamics.isotensional.Ideal α) (nondimensional_force : α) (temperature : α) : α :=
  Polymers.ideal.thermodynamics.isotensional.nondimensional_gibbs_free_energy_per_link self.link_length self.hinge_mass nondimensional_force temperature

/-- `src/physics/single_chain/ideal/thermodynamics/isotensional/mod.rs` lines 165-168. -/
def Ideal.nondimensional_relative_gibbs_free_energy (self : Polymers.ideal.thermodynamics.isotensional.Ideal α) (nondimensional_force : α) : α :=
  Polymers.ideal.thermodynamics.isotensional.nondimensional_relative_gibbs_free_energy self.number_of_links nondimensional_force

/-- `src/physics/single_chain/ideal/thermodynamics/isotensional/mod.rs` lines 170-173. -/
def Ideal.nondimensional_relative_gibbs_free_energy_per_link (self : Polymers.ideal.thermodynamics.isotensional.Ideal α) (nondimensional_force : α) : α :=
  Polymers.ideal.thermodynamics.isotensional.nondimensional_relative_gibbs_free_energy_per_link nondimensional_force

end Polymers.ideal.thermodynamics.isotensional

namespace Polymers.ideal.thermodynamics

/-- `src/physics/single_chain/ideal/thermodynamics/mod.rs` lines 13-29: struct `Ideal`. -/
structure Ideal (α : Type) where
  /-- field `hinge_mass` -/
  hinge_mass : α
  /-- field `link_length` -/
  link_length : α
  /-- field `number_of_links` -/
  number_of_links : Nat
  /-- field `isometric` -/
  isometric : Polymers.ideal.thermodynamics.isometric.Ideal α
  /-- field `isotensional` -/
  isotensional : Polymers.ideal.thermodynamics.isotensional.Ideal α

/-- `src/physics/single_chain/ideal/thermodynamics/mod.rs` lines 35-45. -/
def Ideal.init (number_of_links : Nat) (link_length : α) (hinge_mass : α) : Polymers.ideal.thermodynamics.Ideal α :=
  { hinge_mass := hinge_mass, link_length := link_length, number_of_links := number_of_links, isometric := Polymers.ideal.thermodynamics.isometric.Ideal.init number_of_links link_length hinge_mass, isotensional := Polymers.ideal.thermodynamics.isotensional.Ideal.init number_of_links link_length hinge_mass }

end Polymers.ideal.thermodynamics

namespace Polymers.ideal

/-- `src/physics/single_chain/ideal/mod.rs` lines 10-23: struct `Ideal`. -/
structure Ideal (α : Type) where
  /-- field `hinge_mass` -/
  hinge_mass : α
  /-- field `link_length` -/
  link_length : α
  /-- field `number_of_links` -/
  number_of_links : Nat
  /-- field `thermodynamics` -/
  thermodynamics : Polymers.ideal.thermodynamics.Ideal α

/-- `src/physics/single_chain/ideal/mod.rs` lines 29-38. -/
def Ideal.init (number_of_links : Nat) (link_length : α) (hinge_mass : α) : Polymers.ideal.Ideal α :=
  { hinge_mass := hinge_mass, link_length := link_length, number_of_links := number_of_links, thermodynamics := Polymers.ideal.thermodynamics.Ideal.init number_of_links link_length hinge_mass }

end Polymers.ideal
