/- Generated by tools/rust2lean.py from /repo/src/physics/single_chain/swfjc ; do not edit by hand. -/
import Verif.Model.Math

set_option linter.unusedVariables false

open Polymers

variable {α : Type} [Add α] [Sub α] [Mul α] [Div α] [Neg α] [OfScientific α] [NatCast α] [Elem α]

namespace Polymers.swfjc.thermodynamics.isometric.legendre

/-- `src/physics/single_chain/swfjc/thermodynamics/isometric/legendre/mod.rs` lines 29-44: struct `SWFJC`. -/
structure SWFJC (α : Type) where
  /-- field `hinge_mass` -/
  hinge_mass : α
  /-- field `link_length` -/
  link_length : α
  /-- field `number_of_links` -/
  number_of_links : Nat
  /-- field `well_width` -/
  well_width : α
  /-- field `normalization_nondimensional_equilibrium_distribution` -/
  normalization_nondimensional_equilibrium_distribution : α

/-- `src/physics/single_chain/swfjc/thermodynamics/isometric/legendre/mod.rs` lines 53-72. -/
def nondimensional_force (link_length : α) (well_width : α) (nondimensional_end_to_end_length_per_link : α) : α :=
  let nondimensional_well_parameter : α := 1.0 + well_width / link_length
  if Elem.le nondimensional_end_to_end_length_per_link 1e-3 then (nondimensional_end_to_end_length_per_link * 5.0 * (Elem.powi nondimensional_well_parameter 2 + nondimensional_well_parameter + 1.0) / (Elem.powi nondimensional_well_parameter 4 + Elem.powi nondimensional_well_parameter 3 + Elem.powi nondimensional_well_parameter 2 + nondimensional_well_parameter + 1.0)) else (let guess : α := if Elem.lt (nondimensional_end_to_end_length_per_link / nondimensional_well_parameter) 0.9 then (Polymers.math.inverse_langevin (nondimensional_end_to_end_length_per_link / nondimensional_well_parameter)) else (10.0); Polymers.math.inverse_newton_raphson nondimensional_end_to_end_length_per_link (fun (nondimensional_force : α) => (Elem.powi nondimensional_well_parameter 2 * nondimensional_force * Elem.sinh (nondimensional_well_parameter * nondimensional_force) - nondimensional_force * Elem.sinh nondimensional_force) / (nondimensional_well_parameter * nondimensional_force * Elem.cosh (nondimensional_well_parameter * nondimensional_force) - Elem.sinh (nondimensional_well_parameter * nondimensional_force) - nondimensional_force * Elem.cosh nondimensional_force + Elem.sinh nondimensional_force) - 3.0 / nondimensional_force) (fun (nondimensional_force : α) => (Elem.sinh nondimensional_force + nondimensional_force * Elem.cosh nondimensional_force - Elem.powi nondimensional_well_parameter 3 * nondimensional_force * Elem.cosh (nondimensional_well_parameter * nondimensional_force) - Elem.powi nondimensional_well_parameter 2 * Elem.sinh (nondimensional_well_parameter * nondimensional_force)) / (Elem.sinh (nondimensional_well_parameter * nondimensional_force) - nondimensional_well_parameter * nondimensional_force * Elem.cosh (nondimensional_well_parameter * nondimensional_force) - Elem.sinh nondimensional_force + nondimensional_force * Elem.cosh nondimensional_force) - Elem.powi nondimensional_force 2 * Elem.powi (Elem.sinh nondimensional_force - Elem.powi nondimensional_well_parameter 2 * Elem.sinh (nondimensional_well_parameter * nondimensional_force)) 2 / Elem.powi (Elem.sinh (nondimensional_well_parameter * nondimensional_force) - nondimensional_well_parameter * nondimensional_force * Elem.cosh (nondimensional_well_parameter * nondimensional_force) - Elem.sinh nondimensional_force + nondimensional_force * Elem.cosh nondimensional_force) 2 + 3.0 / Elem.powi nondimensional_force 2) guess 1e-6 100)

/-- `src/physics/single_chain/swfjc/thermodynamics/isometric/legendre/mod.rs` lines 47-50. -/
def force (number_of_links : Nat) (link_length : α) (well_width : α) (end_to_end_length : α) (temperature : α) : α :=
  (Polymers.BOLTZMANN_CONSTANT : α) * temperature / link_length * Polymers.swfjc.thermodynamics.isometric.legendre.nondimensional_force link_length well_width (end_to_end_length / ((number_of_links : α) * link_length))

/-- `src/physics/single_chain/swfjc/thermodynamics/isometric/legendre/mod.rs` lines 105-110. -/
def nondimensional_helmholtz_free_energy_per_link (number_of_links : Nat) (link_length : α) (hinge_mass : α) (well_width : α) (nondimensional_end_to_end_length_per_link : α) (temperature : α) : α :=
  let nondimensional_well_parameter : α := 1.0 + well_width / link_length
  let nondimensional_force : α := Polymers.swfjc.thermodynamics.isometric.legendre.nondimensional_force link_length well_width nondimensional_end_to_end_length_per_link
  nondimensional_force * nondimensional_end_to_end_length_per_link + 3.0 * Elem.ln nondimensional_force - Elem.ln (nondimensional_well_parameter * nondimensional_force * Elem.cosh (nondimensional_well_parameter * nondimensional_force) - Elem.sinh (nondimensional_well_parameter * nondimensional_force) - nondimensional_force * Elem.cosh nondimensional_force + Elem.sinh nondimensional_force) - (1.0 - 1.0 / (number_of_links : α)) * Elem.ln (8.0 * Elem.powi (Elem.pi : α) 2 * hinge_mass * Elem.powi link_length 2 * (Polymers.BOLTZMANN_CONSTANT : α) * temperature / Elem.powi (Polymers.PLANCK_CONSTANT : α) 2)

/-- `src/physics/single_chain/swfjc/thermodynamics/isometric/legendre/mod.rs` lines 99-102. -/
def nondimensional_helmholtz_free_energy (number_of_links : Nat) (link_length : α) (hinge_mass : α) (well_width : α) (nondimensional_end_to_end_length_per_link : α) (temperature : α) : α :=
  (number_of_links : α) * Polymers.swfjc.thermodynamics.isometric.legendre.nondimensional_helmholtz_free_energy_per_link number_of_links link_length hinge_mass well_width nondimensional_end_to_end_length_per_link temperature

/-- `src/physics/single_chain/swfjc/thermodynamics/isometric/legendre/mod.rs` lines 75-78. -/
def helmholtz_free_energy (number_of_links : Nat) (link_length : α) (hinge_mass : α) (well_width : α) (end_to_end_length : α) (temperature : α) : α :=
  Polymers.swfjc.thermodynamics.isometric.legendre.nondimensional_helmholtz_free_energy number_of_links link_length hinge_mass well_width (end_to_end_length / ((number_of_links : α) * link_length)) temperature * (Polymers.BOLTZMANN_CONSTANT : α) * temperature

/-- `src/physics/single_chain/swfjc/thermodynamics/isometric/legendre/mod.rs` lines 81-84. -/
def helmholtz_free_energy_per_link (number_of_links : Nat) (link_length : α) (hinge_mass : α) (well_width : α) (end_to_end_length : α) (temperature : α) : α :=
  Polymers.swfjc.thermodynamics.isometric.legendre.nondimensional_helmholtz_free_energy_per_link number_of_links link_length hinge_mass well_width (end_to_end_length / ((number_of_links : α) * link_length)) temperature * (Polymers.BOLTZMANN_CONSTANT : α) * temperature

/-- `src/physics/single_chain/swfjc/thermodynamics/isometric/legendre/mod.rs` lines 87-90. -/
def relative_helmholtz_free_energy (number_of_links : Nat) (link_length : α) (well_width : α) (end_to_end_length : α) (temperature : α) : α :=
  Polymers.swfjc.thermodynamics.isometric.legendre.helmholtz_free_energy number_of_links link_length 1.0 well_width end_to_end_length temperature - Polymers.swfjc.thermodynamics.isometric.legendre.helmholtz_free_energy number_of_links link_length 1.0 well_width ((Polymers.ZERO : α) * (number_of_links : α) * link_length) temperature

/-- `src/physics/single_chain/swfjc/thermodynamics/isometric/legendre/mod.rs` lines 93-96. -/
def relative_helmholtz_free_energy_per_link (number_of_links : Nat) (link_length : α) (well_width : α) (end_to_end_length : α) (temperature : α) : α :=
  Polymers.swfjc.thermodynamics.isometric.legendre.helmholtz_free_energy_per_link number_of_links link_length 1.0 well_width end_to_end_length temperature - Polymers.swfjc.thermodynamics.isometric.legendre.helmholtz_free_energy_per_link number_of_links link_length 1.0 well_width ((Polymers.ZERO : α) * (number_of_links : α) * link_length) temperature

/-- `src/physics/single_chain/swfjc/thermodynamics/isometric/legendre/mod.rs` lines 113-116. -/
def nondimensional_relative_helmholtz_free_energy (number_of_links : Nat) (link_length : α) (well_width : α) (nondimensional_end_to_end_length_per_link : α) : α :=
  Polymers.swfjc.thermodynamics.isometric.legendre.nondimensional_helmholtz_free_energy number_of_links link_length 1.0 well_width nondimensional_end_to_end_length_per_link 300.0 - Polymers.swfjc.thermodynamics.isometric.legendre.nondimensional_helmholtz_free_energy number_of_links link_length 1.0 well_width (Polymers.ZERO : α) 300.0

/-- `src/physics/single_chain/swfjc/thermodynamics/isometric/legendre/mod.rs` lines 119-122. -/
def nondimensional_relative_helmholtz_free_energy_per_link (link_length : α) (well_width : α) (nondimensional_end_to_end_length_per_link : α) : α :=
  Polymers.swfjc.thermodynamics.isometric.legendre.nondimensional_helmholtz_free_energy_per_link 8 link_length 1.0 well_width nondimensional_end_to_end_length_per_link 300.0 - Polymers.swfjc.thermodynamics.isometric.legendre.nondimensional_helmholtz_free_energy_per_link 8 link_length 1.0 well_width (Polymers.ZERO : α) 300.0

/-- `src/physics/single_chain/swfjc/thermodynamics/isometric/legendre/mod.rs` lines 132-137. -/
def nondimensional_equilibrium_distribution (number_of_links : Nat) (link_length : α) (well_width : α) (normalization_nondimensional_equilibrium_distribution : α) (nondimensional_end_to_end_length_per_link : α) : α :=
  let nondimensional_well_parameter : α := 1.0 + well_width / link_length
  let nondimensional_force : α := Polymers.swfjc.thermodynamics.isometric.legendre.nondimensional_force link_length well_width nondimensional_end_to_end_length_per_link
  Elem.powi ((nondimensional_well_parameter * nondimensional_force * Elem.cosh (nondimensional_well_parameter * nondimensional_force) - Elem.sinh (nondimensional_well_parameter * nondimensional_force) - nondimensional_force * Elem.cosh nondimensional_force + Elem.sinh nondimensional_force) / Elem.powi nondimensional_force 3 * Elem.exp ((-nondimensional_force) * nondimensional_end_to_end_length_per_link)) (number_of_links : Int) / normalization_nondimensional_equilibrium_distribution

/-- `src/physics/single_chain/swfjc/thermodynamics/isometric/legendre/mod.rs` lines 125-129. -/
def equilibrium_distribution (number_of_links : Nat) (link_length : α) (well_width : α) (normalization_nondimensional_equilibrium_distribution : α) (end_to_end_length : α) : α :=
  let contour_length : α := (number_of_links : α) * link_length
  Polymers.swfjc.thermodynamics.isometric.legendre.nondimensional_equilibrium_distribution number_of_links link_length well_width normalization_nondimensional_equilibrium_distribution (end_to_end_length / contour_length) / Elem.powi contour_length 3

/-- `src/physics/single_chain/swfjc/thermodynamics/isometric/legendre/mod.rs` lines 147-150. -/
def nondimensional_equilibrium_radial_distribution (number_of_links : Nat) (link_length : α) (well_width : α) (normalization_nondimensional_equilibrium_distribution : α) (nondimensional_end_to_end_length_per_link : α) : α :=
  4.0 * (Elem.pi : α) * Elem.powi nondimensional_end_to_end_length_per_link 2 * Polymers.swfjc.thermodynamics.isometric.legendre.nondimensional_equilibrium_distribution number_of_links link_length well_width normalization_nondimensional_equilibrium_distribution nondimensional_end_to_end_length_per_link

/-- `src/physics/single_chain/swfjc/thermodynamics/isometric/legendre/mod.rs` lines 140-144. -/
def equilibrium_radial_distribution (number_of_links : Nat) (link_length : α) (well_width : α) (normalization_nondimensional_equilibrium_distribution : α) (end_to_end_length : α) : α :=
  let contour_length : α := (number_of_links : α) * link_length
  Polymers.swfjc.thermodynamics.isometric.legendre.nondimensional_equilibrium_radial_distribution number_of_links link_length well_width normalization_nondimensional_equilibrium_distribution (end_to_end_length / contour_length) / contour_length

/-- `src/physics/single_chain/swfjc/thermodynamics/isometric/legendre/mod.rs` lines 156-168. -/
def SWFJC.init (number_of_links : Nat) (link_length : α) (hinge_mass : α) (well_width : α) : Polymers.swfjc.thermodynamics.isometric.legendre.SWFJC α :=
  let nondimensional_well_parameter : α := 1.0 + well_width / link_length
  let normalization : α := Polymers.math.integrate_1d (fun (nondimensional_end_to_end_length_per_link : α) => Polymers.swfjc.thermodynamics.isometric.legendre.nondimensional_equilibrium_radial_distribution number_of_links link_length well_width 1.0 nondimensional_end_to_end_length_per_link) (Polymers.ZERO : α) ((Polymers.ONE : α) * nondimensional_well_parameter) Polymers.POINTS
  { hinge_mass := hinge_mass, link_length := link_length, number_of_links := number_of_links, well_width := well_width, normalization_nondimensional_equilibrium_distribution := normalization }

/-- `src/physics/single_chain/swfjc/thermodynamics/isometric/legendre/mod.rs` lines 170-173. -/
def SWFJC.force (self : Polymers.swfjc.thermodynamics.isometric.legendre.SWFJC α) (end_to_end_length : α) (temperature : α) : α :=
  Polymers.swfjc.thermodynamics.isometric.legendre.force self.number_of_links self.link_length self.well_width end_to_end_length temperature

/-- `src/physics/single_chain/swfjc/thermodynamics/isometric/legendre/mod.rs` lines 175-178. -/
def SWFJC.nondimensional_force (self : Polymers.swfjc.thermodynamics.isometric.legendre.SWFJC α) (nondimensional_end_to_end_length_per_link : α) : α :=
  Polymers.swfjc.thermodynamics.isometric.legendre.nondimensional_force self.link_length self.well_width nondimensional_end_to_end_length_per_link

/-- `src/physics/single_chain/swfjc/thermodynamics/isometric/legendre/mod.rs` lines 180-183. -/
def SWFJC.helmholtz_free_energy (self : Polymers.swfjc.thermodynamics.isometric.legendre.SWFJC α) (end_to_end_length : α) (temperature : α) : α :=
  Polymers.swfjc.thermodynamics.isometric.legendre.helmholtz_free_energy self.number_of_links self.link_length self.hinge_mass self.well_width end_to_end_length temperature

/-- `src/physics/single_chain/swfjc/thermodynamics/isometric/legendre/mod.rs` lines 185-188. -/
def SWFJC.helmholtz_free_energy_per_link (self : Polymers.swfjc.thermodynamics.isometric.legendre.SWFJC α) (end_to_end_length : α) (temperature : α) : α :=
  Polymers.swfjc.thermodynamics.isometric.legendre.helmholtz_free_energy_per_link self.number_of_links self.link_length self.hinge_mass self.well_width end_to_end_length temperature

/-- `src/physics/single_chain/swfjc/thermodynamics/isometric/legendre/mod.rs` lines 190-193. -/
def SWFJC.relative_helmholtz_free_energy (self : Polymers.swfjc.thermodynamics.isometric.legendre.SWFJC α) (end_to_end_length : α) (temperature : α) : α :=
  Polymers.swfjc.thermodynamics.isometric.legendre.relative_helmholtz_free_energy self.number_of_links self.link_length self.well_width end_to_end_length temperature

/-- `src/physics/single_chain/swfjc/thermodynamics/isometric/legendre/mod.rs` lines 195-198. -/
def SWFJC.relative_helmholtz_free_energy_per_link (self : Polymers.swfjc.thermodynamics.isometric.legendre.SWFJC α) (end_to_end_length : α) (temperature : α) : α :=
  Polymers.swfjc.thermodynamics.isometric.legendre.relative_helmholtz_free_energy_per_link self.number_of_links self.link_length self.well_width end_to_end_length temperature

/-- `src/physics/single_chain/swfjc/thermodynamics/isometric/legendre/mod.rs` lines 200-203. -/
def SWFJC.nondimensional_helmholtz_free_energy (self : Polymers.swfjc.thermodynamics.isometric.legendre.SWFJC α) (nondimensional_end_to_end_length_per_link : α) (temperature : α) : α :=
  Polymers.swfjc.thermodynamics.isometric.legendre.nondimensional_helmholtz_free_energy self.number_of_links self.link_length self.hinge_mass self.well_width nondimensional_end_to_end_length_per_link temperature

/-- `src/physics/single_chain/swfjc/thermodynamics/isometric/legendre/mod.rs` lines 205-208. -/
def SWFJC.nondimensional_helmholtz_free_energy_per_link (self : Polymers.swfjc.thermodynamics.isometric.legendre.SWFJC α) (nondimensional_end_to_end_length_per_link : α) (temperature : α) : α :=
  Polymers.swfjc.thermodynamics.isometric.legendre.nondimensional_helmholtz_free_energy_per_link self.number_of_links self.link_length self.hinge_mass self.well_width nondimensional_end_to_end_length_per_link temperature

/-- `src/physics/single_chain/swfjc/thermodynamics/isometric/legendre/mod.rs` lines 210-213. -/
def SWFJC.nondimensional_relative_helmholtz_free_energy (self : Polymers.swfjc.thermodynamics.isometric.legendre.SWFJC α) (nondimensional_end_to_end_length_per_link : α) : α :=
  Polymers.swfjc.thermodynamics.isometric.legendre.nondimensional_relative_helmholtz_free_energy self.number_of_links self.link_length self.well_width nondimensional_end_to_end_length_per_link

/-- `src/physics/single_chain/swfjc/thermodynamics/isometric/legendre/mod.rs` lines 215-218. -/
def SWFJC.nondimensional_relative_helmholtz_free_energy_per_link (self : Polymers.swfjc.thermodynamics.isometric.legendre.SWFJC α) (nondimensional_end_to_end_length_per_link : α) : α :=
  Polymers.swfjc.thermodynamics.isometric.legendre.nondimensional_relative_helmholtz_free_energy_per_link self.link_length self.well_width nondimensional_end_to_end_length_per_link

/-- `src/physics/single_chain/swfjc/thermodynamics/isometric/legendre/mod.rs` lines 220-223. -/
def SWFJC.equilibrium_distribution (self : Polymers.swfjc.thermodynamics.isometric.legendre.SWFJC α) (end_to_end_length : α) : α :=
  Polymers.swfjc.thermodynamics.isometric.legendre.equilibrium_distribution self.number_of_links self.link_length self.well_width self.normalization_nondimensional_equilibrium_distribution end_to_end_length

/-- `src/physics/single_chain/swfjc/thermodynamics/isometric/legendre/mod.rs` lines 225-228. -/
def SWFJC.nondimensional_equilibrium_distribution (self : Polymers.swfjc.thermodynamics.isometric.legendre.SWFJC α) (nondimensional_end_to_end_length_per_link : α) : α :=
  Polymers.swfjc.thermodynamics.isometric.legendre.nondimensional_equilibrium_distribution self.number_of_links self.link_length self.well_width self.normalization_nondimensional_equilibrium_distribution nondimensional_end_to_end_length_per_link

/-- `src/physics/single_chain/swfjc/thermodynamics/isometric/legendre/mod.rs` lines 230-233. -/
def SWFJC.equilibrium_radial_distribution (self : Polymers.swfjc.thermodynamics.isometric.legendre.SWFJC α) (end_to_end_length : α) : α :=
  Polymers.swfjc.thermodynamics.isometric.legendre.equilibrium_radial_distribution self.number_of_links self.link_length self.well_width self.normalization_nondimensional_equilibrium_distribution end_to_end_length

/-- `src/physics/single_chain/swfjc/thermodynamics/isometric/legendre/mod.rs` lines 235-238. -/
def SWFJC.nondimensional_equilibrium_radial_distribution (self : Polymers.swfjc.thermodynamics.isometric.legendre.SWFJC α) (nondimensional_end_to_end_length_per_link : α) : α :=
  Polymers.swfjc.thermodynamics.isometric.legendre.nondimensional_equilibrium_radial_distribution self.number_of_links self.link_length self.well_width self.normalization_nondimensional_equilibrium_distribution nondimensional_end_to_end_length_per_link

end Polymers.swfjc.thermodynamics.isometric.legendre

namespace Polymers.swfjc.thermodynamics.isotensional.legendre

/-- `src/physics/single_chain/swfjc/thermodynamics/isotensional/legendre/mod.rs` lines 18-31: struct `SWFJC`. -/
structure SWFJC (α : Type) where
  /-- field `hinge_mass` -/
  hinge_mass : α
  /-- field `link_length` -/
  link_length : α
  /-- field `number_of_links` -/
  number_of_links : Nat
  /-- field `well_width` -/
  well_width : α

/-- `src/physics/single_chain/swfjc/thermodynamics/isotensional/legendre/mod.rs` lines 64-68. -/
def nondimensional_helmholtz_free_energy_per_link (link_length : α) (hinge_mass : α) (well_width : α) (nondimensional_force : α) (temperature : α) : α :=
  let nondimensional_well_parameter : α := 1.0 + well_width / link_length
  (Elem.powi nondimensional_well_parameter 2 * Elem.powi nondimensional_force 2 * Elem.sinh (nondimensional_well_parameter * nondimensional_force) - Elem.powi nondimensional_force 2 * Elem.sinh nondimensional_force) / (nondimensional_well_parameter * nondimensional_force * Elem.cosh (nondimensional_well_parameter * nondimensional_force) - Elem.sinh (nondimensional_well_parameter * nondimensional_force) - nondimensional_force * Elem.cosh nondimensional_force + Elem.sinh nondimensional_force) - 3.0 + 3.0 * Elem.ln nondimensional_force - Elem.ln (nondimensional_well_parameter * nondimensional_force * Elem.cosh (nondimensional_well_parameter * nondimensional_force) - Elem.sinh (nondimensional_well_parameter * nondimensional_force) - nondimensional_force * Elem.cosh nondimensional_force + Elem.sinh nondimensional_force) - Elem.ln (8.0 * Elem.powi (Elem.pi : α) 2 * hinge_mass * Elem.powi link_length 2 * (Polymers.BOLTZMANN_CONSTANT : α) * temperature / Elem.powi (Polymers.PLANCK_CONSTANT : α) 2)

/-- `src/physics/single_chain/swfjc/thermodynamics/isotensional/legendre/mod.rs` lines 58-61. -/
def nondimensional_helmholtz_free_energy (number_of_links : Nat) (link_length : α) (hinge_mass : α) (well_width : α) (nondimensional_force : α) (temperature : α) : α :=
  (number_of_links : α) * Polymers.swfjc.thermodynamics.isotensional.legendre.nondimensional_helmholtz_free_energy_per_link link_length hinge_mass well_width nondimensional_force temperature

/-- `src/physics/single_chain/swfjc/thermodynamics/isotensional/legendre/mod.rs` lines 34-37. -/
def helmholtz_free_energy (number_of_links : Nat) (link_length : α) (hinge_mass : α) (well_width : α) (force : α) (temperature : α) : α :=
  Polymers.swfjc.thermodynamics.isotensional.legendre.nondimensional_helmholtz_free_energy number_of_links link_length hinge_mass well_width (force / (Polymers.BOLTZMANN_CONSTANT : α) / temperature * link_length) temperature * (Polymers.BOLTZMANN_CONSTANT : α) * temperature

/-- `src/physics/single_chain/swfjc/thermodynamics/isotensional/legendre/mod.rs` lines 40-43. -/
def helmholtz_free_energy_per_link (link_length : α) (hinge_mass : α) (well_width : α) (force : α) (temperature : α) : α :=
  Polymers.swfjc.thermodynamics.isotensional.legendre.nondimensional_helmholtz_free_energy_per_link link_length hinge_mass well_width (force / (Polymers.BOLTZMANN_CONSTANT : α) / temperature * link_length) temperature * (Polymers.BOLTZMANN_CONSTANT : α) * temperature

/-- `src/physics/single_chain/swfjc/thermodynamics/isotensional/legendre/mod.rs` lines 71-74. -/
def nondimensional_relative_helmholtz_free_energy (number_of_links : Nat) (link_length : α) (well_width : α) (nondimensional_force : α) : α :=
  Polymers.swfjc.thermodynamics.isotensional.legendre.nondimensional_helmholtz_free_energy number_of_links link_length 1.0 well_width nondimensional_force 300.0 - Polymers.swfjc.thermodynamics.isotensional.legendre.nondimensional_helmholtz_free_energy number_of_links link_length 1.0 well_width (Polymers.ZERO : α) 300.0

/-- `src/physics/single_chain/swfjc/thermodynamics/isotensional/legendre/mod.rs` lines 46-49. -/
def relative_helmholtz_free_energy (number_of_links : Nat) (link_length : α) (well_width : α) (force : α) (temperature : α) : α :=
  Polymers.swfjc.thermodynamics.isotensional.legendre.nondimensional_relative_helmholtz_free_energy number_of_links link_length well_width (force / (Polymers.BOLTZMANN_CONSTANT : α) / temperature * link_length) * (Polymers.BOLTZMANN_CONSTANT : α) * temperature

/-- `src/physics/single_chain/swfjc/thermodynamics/isotensional/legendre/mod.rs` lines 77-80. -/
def nondimensional_relative_helmholtz_free_energy_per_link (link_length : α) (well_width : α) (nondimensional_force : α) : α :=
  Polymers.swfjc.thermodynamics.isotensional.legendre.nondimensional_helmholtz_free_energy_per_link link_length 1.0 well_width nondimensional_force 300.0 - Polymers.swfjc.thermodynamics.isotensional.legendre.nondimensional_helmholtz_free_energy_per_link link_length 1.0 well_width (Polymers.ZERO : α) 300.0

/-- `src/physics/single_chain/swfjc/thermodynamics/isotensional/legendre/mod.rs` lines 52-55. -/
def relative_helmholtz_free_energy_per_link (link_length : α) (well_width : α) (force : α) (temperature : α) : α :=
  Polymers.swfjc.thermodynamics.isotensional.legendre.nondimensional_relative_helmholtz_free_energy_per_link link_length well_width (force / (Polymers.BOLTZMANN_CONSTANT : α) / temperature * link_length) * (Polymers.BOLTZMANN_CONSTANT : α) * temperature

/-- `src/physics/single_chain/swfjc/thermodynamics/isotensional/legendre/mod.rs` lines 86-95. -/
def SWFJC.init (number_of_links : Nat) (link_length : α) (hinge_mass : α) (well_width : α) : Polymers.swfjc.thermodynamics.isotensional.legendre.SWFJC α :=
  { hinge_mass := hinge_mass, link_length := link_length, number_of_links := number_of_links, well_width := well_width }

/-- `src/physics/single_chain/swfjc/thermodynamics/isotensional/legendre/mod.rs` lines 97-100. -/
def SWFJC.helmholtz_free_energy (self : Polymers.swfjc.thermodynamics.isotensional.legendre.SWFJC α) (force : α) (temperature : α) : α :=
  Polymers.swfjc.thermodynamics.isotensional.legendre.helmholtz_free_energy self.number_of_links self.link_length self.hinge_mass self.well_width force temperature

/-- `src/physics/single_chain/swfjc/thermodynamics/isotensional/legendre/mod.rs` lines 102-105. -/
def SWFJC.helmholtz_free_energy_per_link (self : Polymers.swfjc.thermodynamics.isotensional.legendre.SWFJC α) (force : α) (temperature : α) : α :=
  Polymers.swfjc.thermodynamics.isotensional.legendre.helmholtz_free_energy_per_link self.link_length self.hinge_mass self.well_width force temperature

/-- `src/physics/single_chain/swfjc/thermodynamics/isotensional/legendre/mod.rs` lines 107-110. -/
def SWFJC.relative_helmholtz_free_energy (self : Polymers.swfjc.thermodynamics.isotensional.legendre.SWFJC α) (force : α) (temperature : α) : α :=
  Polymers.swfjc.thermodynamics.isotensional.legendre.relative_helmholtz_free_energy self.number_of_links self.link_length self.well_width force temperature

/-- `src/physics/single_chain/swfjc/thermodynamics/isotensional/legendre/mod.rs` lines 112-115. -/
def SWFJC.relative_helmholtz_free_energy_per_link (self : Polymers.swfjc.thermodynamics.isotensional.legendre.SWFJC α) (force : α) (temperature : α) : α :=
  Polymers.swfjc.thermodynamics.isotensional.legendre.relative_helmholtz_free_energy_per_link self.link_length self.well_width force temperature

/-- `src/physics/single_chain/swfjc/thermodynamics/isotensional/legendre/mod.rs` lines 117-120. -/
def SWFJC.nondimensional_helmholtz_free_energy (self : Polymers.swfjc.thermodynamics.isotensional.legendre.SWFJC α) (nondimensional_force : α) (temperature : α) : α :=
  Polymers.swfjc.thermodynamics.isotensional.legendre.nondimensional_helmholtz_free_energy self.number_of_links self.link_length self.hinge_mass self.well_width nondimensional_force temperature

/-- `src/physics/single_chain/swfjc/thermodynamics/isotensional/legendre/mod.rs` lines 122-125. -/
def SWFJC.nondimensional_helmholtz_free_energy_per_link (self : Polymers.swfjc.thermodynamics.isotensional.legendre.SWFJC α) (nondimensional_force : α) (temperature : α) : α :=
  Polymers.swfjc.thermodynamics.isotensional.legendre.nondimensional_helmholtz_free_energy_per_link self.link_length self.hinge_mass self.well_width nondimensional_force temperature

/-- `src/physics/single_chain/swfjc/thermodynamics/isotensional/legendre/mod.rs` lines 127-130. -/
def SWFJC.nondimensional_relative_helmholtz_free_energy (self : Polymers.swfjc.thermodynamics.isotensional.legendre.SWFJC α) (nondimensional_force : α) : α :=
  Polymers.swfjc.thermodynamics.isotensional.legendre.nondimensional_relative_helmholtz_free_energy self.number_of_links self.link_length self.well_width nondimensional_force

/-- `src/physics/single_chain/swfjc/thermodynamics/isotensional/legendre/mod.rs` lines 132-135. -/
def SWFJC.nondimensional_relative_helmholtz_free_energy_per_link (self : Polymers.swfjc.thermodynamics.isotensional.legendre.SWFJC α) (nondimensional_force : α) : α :=
  Polymers.swfjc.thermodynamics.isotensional.legendre.nondimensional_relative_helmholtz_free_energy_per_link self.link_length self.well_width nondimensional_force

end Polymers.swfjc.thermodynamics.isotensional.legendre

namespace Polymers.swfjc.thermodynamics.isometric

/-- `src/physics/single_chain/swfjc/thermodynamics/isometric/mod.rs` lines 10-26: struct `SWFJC`. -/
structure SWFJC (α : Type) where
  /-- field `hinge_mass` -/
  hinge_mass : α
  /-- field `link_length` -/
  link_length : α
  /-- field `number_of_links` -/
  number_of_links : Nat
  /-- field `well_width` -/
  well_width : α
  /-- field `legendre` -/
  legendre : Polymers.swfjc.thermodynamics.isometric.legendre.SWFJC α

/-- `src/physics/single_chain/swfjc/thermodynamics/isometric/mod.rs` lines 32-42. -/
def SWFJC.init (number_of_links : Nat) (link_length : α) (hinge_mass : α) (well_width : α) : Polymers.swfjc.thermodynamics.isometric.SWFJC α :=
  { hinge_mass := hinge_mass, link_length := link_length, number_of_links := number_of_links, well_width := well_width, legendre := Polymers.swfjc.thermodynamics.isometric.legendre.SWFJC.init number_of_links link_length hinge_mass well_width }

end Polymers.swfjc.thermodynamics.isometric

namespace Polymers.swfjc.thermodynamics.isotensional

/-- `src/physics/single_chain/swfjc/thermodynamics/isotensional/mod.rs` lines 21-37: struct `SWFJC`. -/
structure SWFJC (α : Type) where
  /-- field `hinge_mass` -/
  hinge_mass : α
  /-- field `link_length` -/
  link_length : α
  /-- field `number_of_links` -/
  number_of_links : Nat
  /-- field `well_width` -/
  well_width : α
  /-- field `legendre` -/
  legendre : Polymers.swfjc.thermodynamics.isotensional.legendre.SWFJC α

/-- `src/physics/single_chain/swfjc/thermodynamics/isotensional/mod.rs` lines 40-45. -/
def end_to_end_length (number_of_links : Nat) (link_length : α) (well_width : α) (force : α) (temperature : α) : α :=
  let nondimensional_well_parameter : α := 1.0 + well_width / link_length
  let nondimensional_force : α := force * link_length / (Polymers.BOLTZMANN_CONSTANT : α) / temperature
  (number_of_links : α) * link_length * ((Elem.powi nondimensional_well_parameter 2 * nondimensional_force * Elem.sinh (nondimensional_well_parameter * nondimensional_force) - nondimensional_force * Elem.sinh nondimensional_force) / (nondimensional_well_parameter * nondimensional_force * Elem.cosh (nondimensional_well_parameter * nondimensional_force) - Elem.sinh (nondimensional_well_parameter * nondimensional_force) - nondimensional_force * Elem.cosh nondimensional_force + Elem.sinh nondimensional_force) - 3.0 / nondimensional_force)

/-- `src/physics/single_chain/swfjc/thermodynamics/isotensional/mod.rs` lines 48-53. -/
def end_to_end_length_per_link (link_length : α) (well_width : α) (force : α) (temperature : α) : α :=
  let nondimensional_well_parameter : α := 1.0 + well_width / link_length
  let nondimensional_force : α := force * link_length / (Polymers.BOLTZMANN_CONSTANT : α) / temperature
  link_length * ((Elem.powi nondimensional_well_parameter 2 * nondimensional_force * Elem.sinh (nondimensional_well_parameter * nondimensional_force) - nondimensional_force * Elem.sinh nondimensional_force) / (nondimensional_well_parameter * nondimensional_force * Elem.cosh (nondimensional_well_parameter * nondimensional_force) - Elem.sinh (nondimensional_well_parameter * nondimensional_force) - nondimensional_force * Elem.cosh nondimensional_force + Elem.sinh nondimensional_force) - 3.0 / nondimensional_force)

/-- `src/physics/single_chain/swfjc/thermodynamics/isotensional/mod.rs` lines 56-60. -/
def nondimensional_end_to_end_length (number_of_links : Nat) (link_length : α) (well_width : α) (nondimensional_force : α) : α :=
  let nondimensional_well_parameter : α := 1.0 + well_width / link_length
  (number_of_links : α) * ((Elem.powi nondimensional_well_parameter 2 * nondimensional_force * Elem.sinh (nondimensional_well_parameter * nondimensional_force) - nondimensional_force * Elem.sinh nondimensional_force) / (nondimensional_well_parameter * nondimensional_force * Elem.cosh (nondimensional_well_parameter * nondimensional_force) - Elem.sinh (nondimensional_well_parameter * nondimensional_force) - nondimensional_force * Elem.cosh nondimensional_force + Elem.sinh nondimensional_force) - 3.0 / nondimensional_force)

/-- `src/physics/single_chain/swfjc/thermodynamics/isotensional/mod.rs` lines 63-67. -/
def nondimensional_end_to_end_length_per_link (link_length : α) (well_width : α) (nondimensional_force : α) : α :=
  let nondimensional_well_parameter : α := 1.0 + well_width / link_length
  (Elem.powi nondimensional_well_parameter 2 * nondimensional_force * Elem.sinh (nondimensional_well_parameter * nondimensional_force) - nondimensional_force * Elem.sinh nondimensional_force) / (nondimensional_well_parameter * nondimensional_force * Elem.cosh (nondimensional_well_parameter * nondimensional_force) - Elem.sinh (nondimensional_well_parameter * nondimensional_force) - nondimensional_force * Elem.cosh nondimensional_force + Elem.sinh nondimensional_force) - 3.0 / nondimensional_force

/-- `src/physics/single_chain/swfjc/thermodynamics/isotensional/mod.rs` lines 70-75. -/
def gibbs_free_energy (number_of_links : Nat) (link_length : α) (hinge_mass : α) (well_width : α) (force : α) (temperature : α) : α :=
  let nondimensional_well_parameter : α := 1.0 + well_width / link_length
  let nondimensional_force : α := force * link_length / (Polymers.BOLTZMANN_CONSTANT : α) / temperature
  (number_of_links : α) * (Polymers.BOLTZMANN_CONSTANT : α) * temperature * (3.0 * Elem.ln nondimensional_force - Elem.ln (nondimensional_well_parameter * nondimensional_force * Elem.cosh (nondimensional_well_parameter * nondimensional_force) - Elem.sinh (nondimensional_well_parameter * nondimensional_force) - nondimensional_force * Elem.cosh nondimensional_force + Elem.sinh nondimensional_force) - Elem.ln (8.0 * Elem.powi (Elem.pi : α) 2 * hinge_mass * Elem.powi link_length 2 * (Polymers.BOLTZMANN_CONSTANT : α) * temperature / Elem.powi (Polymers.PLANCK_CONSTANT : α) 2))

/-- `src/physics/single_chain/swfjc/thermodynamics/isotensional/mod.rs` lines 78-83. -/
def gibbs_free_energy_per_link (link_length : α) (hinge_mass : α) (well_width : α) (force : α) (temperature : α) : α :=
  let nondimensional_well_parameter : α := 1.0 + well_width / link_length
  let nondimensional_force : α := force * link_length / (Polymers.BOLTZMANN_CONSTANT : α) / temperature
  (Polymers.BOLTZMANN_CONSTANT : α) * temperature * (3.0 * Elem.ln nondimensional_force - Elem.ln (nondimensional_well_parameter * nondimensional_force * Elem.cosh (nondimensional_well_parameter * nondimensional_force) - Elem.sinh (nondimensional_well_parameter * nondimensional_force) - nondimensional_force * Elem.cosh nondimensional_force + Elem.sinh nondimensional_force) - Elem.ln (8.0 * Elem.powi (Elem.pi : α) 2 * hinge_mass * Elem.powi link_length 2 * (Polymers.BOLTZMANN_CONSTANT : α) * temperature / Elem.powi (Polymers.PLANCK_CONSTANT : α) 2))

/-- `src/physics/single_chain/swfjc/thermodynamics/isotensional/mod.rs` lines 86-89. -/
def relative_gibbs_free_energy (number_of_links : Nat) (link_length : α) (well_width : α) (force : α) (temperature : α) : α :=
  Polymers.swfjc.thermodynamics.isotensional.gibbs_free_energy number_of_links link_length 1.0 well_width force temperature - Polymers.swfjc.thermodynamics.isotensional.gibbs_free_energy number_of_links link_length 1.0 well_width ((Polymers.ZERO : α) * (Polymers.BOLTZMANN_CONSTANT : α) * temperature / link_length) temperature

/-- `src/physics/single_chain/swfjc/thermodynamics/isotensional/mod.rs` lines 92-95. -/
def relative_gibbs_free_energy_per_link (link_length : α) (well_width : α) (force : α) (temperature : α) : α :=
  Polymers.swfjc.thermodynamics.isotensional.gibbs_free_energy_per_link link_length 1.0 well_width force temperature - Polymers.swfjc.thermodynamics.isotensional.gibbs_free_energy_per_link link_length 1.0 well_width ((Polymers.ZERO : α) * (Polymers.BOLTZMANN_CONSTANT : α) * temperature / link_length) temperature

/-- `src/physics/single_chain/swfjc/thermodynamics/isotensional/mod.rs` lines 98-102. -/
def nondimensional_gibbs_free_energy (number_of_links : Nat) (link_length : α) (hinge_mass : α) (well_width : α) (nondimensional_force : α) (temperature : α) : α :=
  let nondimensional_well_parameter : α := 1.0 + well_width / link_length
  (number_of_links : α) * (3.0 * Elem.ln nondimensional_force - Elem.ln (nondimensional_well_parameter * nondimensional_force * Elem.cosh (nondimensional_well_parameter * nondimensional_force) - Elem.sinh (nondimensional_well_parameter * nondimensional_force) - nondimensional_force * Elem.cosh nondimensional_force + Elem.sinh nondimensional_force) - Elem.ln (8.0 * Elem.powi (Elem.pi : α) 2 * hinge_mass * Elem.powi link_length 2 * (Polymers.BOLTZMANN_CONSTANT : α) * temperature / Elem.powi (Polymers.PLANCK_CONSTANT : α) 2))

/-- `src/physics/single_chain/swfjc/thermodynamics/isotensional/mod.rs` lines 105-109. -/
def nondimensional_gibbs_free_energy_per_link (link_length : α) (hinge_mass : α) (well_width : α) (nondimensional_force : α) (temperature : α) : α :=
  let nondimensional_well_parameter : α := 1.0 + well_width / link_length
  3.0 * Elem.ln nondimensional_force - Elem.ln (nondimensional_well_parameter * nondimensional_force * Elem.cosh (nondimensional_well_parameter * nondimensional_force) - Elem.sinh (nondimensional_well_parameter * nondimensional_force) - nondimensional_force * Elem.cosh nondimensional_force + Elem.sinh nondimensional_force) - Elem.ln (8.0 * Elem.powi (Elem.pi : α) 2 * hinge_mass * Elem.powi link_length 2 * (Polymers.BOLTZMANN_CONSTANT : α) * temperature / Elem.powi (Polymers.PLANCK_CONSTANT : α) 2)

/-- `src/physics/single_chain/swfjc/thermodynamics/isotensional/mod.rs` lines 112-115. -/
def nondimensional_relative_gibbs_free_energy (number_of_links : Nat) (link_length : α) (well_width : α) (nondimensional_force : α) : α :=
  Polymers.swfjc.thermodynamics.isotensional.nondimensional_gibbs_free_energy number_of_links link_length 1.0 well_width nondimensional_force 300.0 - Polymers.swfjc.thermodynamics.isotensional.nondimensional_gibbs_free_energy number_of_links link_length 1.0 well_width (Polymers.ZERO : α) 300.0

/-- `src/physics/single_chain/swfjc/thermodynamics/isotensional/mod.rs` lines 118-121. -/
def nondimensional_relative_gibbs_free_energy_per_link (link_length : α) (well_width : α) (nondimensional_force : α) : α :=
  Polymers.swfjc.thermodynamics.isotensional.nondimensional_gibbs_free_energy_per_link link_length 1.0 well_width nondimensional_force 300.0 - Polymers.swfjc.thermodynamics.isotensional.nondimensional_gibbs_free_energy_per_link link_length 1.0 well_width (Polymers.ZERO : α) 300.0

/-- `src/physics/single_chain/swfjc/thermodynamics/isotensional/mod.rs` lines 127-137. -/
def SWFJC.init (number_of_links : Nat) (link_length : α) (hinge_mass : α) (well_width : α) : Polymers.swfjc.thermodynamics.isotensional.SWFJC α :=
  { hinge_mass := hinge_mass, link_length := link_length, number_of_links := number_of_links, well_width := well_width, legendre := Polymers.swfjc.thermodynamics.isotensional.legendre.SWFJC.init number_of_links link_length hinge_mass well_width }

/-- `src/physics/single_chain/swfjc/thermodynamics/isotensional/mod.rs` lines 139-142. -/
def SWFJC.end_to_end_length (self : Polymers.swfjc.thermodynamics.isotensional.SWFJC α) (force : α) (temperature : α) : α :=
  Polymers.swfjc.thermodynamics.isotensional.end_to_end_length self.number_of_links self.link_length self.well_width force temperature

/-- `src/physics/single_chain/swfjc/thermodynamics/isotensional/mod.rs` lines 144-147. -/
def SWFJC.end_to_end_length_per_link (self : Polymers.swfjc.thermodynamics.isotensional.SWFJC α) (force : α) (temperature : α) : α :=
  Polymers.swfjc.thermodynamics.isotensional.end_to_end_length_per_link self.link_length self.well_width force temperature

/-- `src/physics/single_chain/swfjc/thermodynamics/isotensional/mod.rs` lines 149-152. -/
def SWFJC.nondimensional_end_to_end_length (self : Polymers.swfjc.thermodynamics.isotensional.SWFJC α) (nondimensional_force : α) : α :=
  Polymers.swfjc.thermodynamics.isotensional.nondimensional_end_to_end_length self.number_of_links self.link_length self.well_width nondimensional_force

/-- `src/physics/single_chain/swfjc/thermodynamics/isotensional/mod.rs` lines 154-157. -/
def SWFJC.nondimensional_end_to_end_length_per_link (self : Polymers.swfjc.thermodynamics.isotensional.SWFJC α) (nondimensional_force : α) : α :=
  Polymers.swfjc.thermodynamics.isotensional.nondimensional_end_to_end_length_per_link self.link_length self.well_width nondimensional_force

/-- `src/physics/single_chain/swfjc/thermodynamics/isotensional/mod.rs` lines 159-162. -/
def SWFJC.gibbs_free_energy (self : Polymers.swfjc.thermodynamics.isotensional.SWFJC α) (force : α) (temperature : α) : α :=
  Polymers.swfjc.thermodynamics.isotensional.gibbs_free_energy self.number_of_links self.link_length self.hinge_mass self.well_width force temperature

/-- `src/physics/single_chain/swfjc/thermodynamics/isotensional/mod.rs` lines 164-167. -/
def SWFJC.gibbs_free_energy_per_link (self : Polymers.swfjc.thermodynamics.isotensional.SWFJC α) (force : α) (temperature : α) : α :=
  Polymers.swfjc.thermodynamics.isotensional.gibbs_free_energy_per_link self.link_length self.hinge_mass self.well_width force temperature

/-- `src/physics/single_chain/swfjc/thermodynamics/isotensional/mod.rs` lines 169-172. -/
def SWFJC.relative_gibbs_free_energy (self : Polymers.swfjc.thermodynamics.isotensional.SWFJC α) (force : α) (temperature : α) : α :=
  Polymers.swfjc.thermodynamics.isotensional.relative_gibbs_free_energy self.number_of_links self.link_length self.well_width force temperature

/-- `src/physics/single_chain/swfjc/thermodynamics/isotensional/mod.rs` lines 174-177. -/
def SWFJC.relative_gibbs_free_energy_per_link (self : Polymers.swfjc.thermodynamics.isotensional.SWFJC α) (force : α) (temperature : α) : α :=
  Polymers.swfjc.thermodynamics.isotensional.relative_gibbs_free_energy_per_link self.link_length self.well_width force temperature

/-- `src/physics/single_chain/swfjc/thermodynamics/isotensional/mod.rs` lines 179-182. -/
def SWFJC.nondimensional_gibbs_free_energy (self : Polymers.swfjc.thermodynamics.isotensional.SWFJC α) (nondimensional_force : α) (temperature : α) : α :=
  Polymers.swfjc.thermodynamics.isotensional.nondimensional_gibbs_free_energy self.number_of_links self.link_length self.hinge_mass self.well_width nondimensional_force temperature

/-- `src/physics/single_chain/swfjc/thermodynamics/isotensional/mod.rs` lines 184-187. -/
def SWFJC.nondimensional_gibbs_free_energy_per_link (self : Polymers.swfjc.thermodynamics.isotensional.SWFJC α) (nondimensional_force : α) (temperature : α) : α :=
  Polymers.swfjc.thermodynamics.isotensional.nondimensional_gibbs_free_energy_per_link self.link_length self.hinge_mass self.well_width nondimensional_force temperature

/-- `src/physics/single_chain/swfjc/thermodynamics/isotensional/mod.rs` lines 189-192. -/
def SWFJC.nondimensional_relative_gibbs_free_energy (self : Polymers.swfjc.thermodynamics.isotensional.SWFJC α) (nondimensional_force : α) : α :=
  Polymers.swfjc.thermodynamics.isotensional.nondimensional_relative_gibbs_free_energy self.number_of_links self.link_length self.well_width nondimensional_force

/-- `src/physics/single_chain/swfjc/thermodynamics/isotensional/mod.rs` lines 194-197. -/
def SWFJC.nondimensional_relative_gibbs_free_energy_per_link (self : Polymers.swfjc.thermodynamics.isotensional.SWFJC α) (nondimensional_force : α) : α :=
  Polymers.swfjc.thermodynamics.isotensional.nondimensional_relative_gibbs_free_energy_per_link self.link_length self.well_width nondimensional_force

end Polymers.swfjc.thermodynamics.isotensional

namespace Polymers.swfjc.thermodynamics

/-- `src/physics/single_chain/swfjc/thermodynamics/mod.rs` lines 13-32: struct `SWFJC`. -/
structure SWFJC (α : Type) where
  /-- field `hinge_mass` -/
  hinge_mass : α
  /-- field `link_length` -/
  link_length : α
  /-- field `number_of_links` -/
  number_of_links : Nat
  /-- field `well_width` -/
  well_width : α
  /-- field `isometric` -/
  isometric : Polymers.swfjc.thermodynamics.isometric.SWFJC α
  /-- field `isotensional` -/
  isotensional : Polymers.swfjc.thermodynamics.isotensional.SWFJC α

/-- `src/physics/single_chain/swfjc/thermodynamics/mod.rs` lines 38-49. -/
def SWFJC.init (number_of_links : Nat) (link_length : α) (hinge_mass : α) (well_width : α) : Polymers.swfjc.thermodynamics.SWFJC α :=
  { hinge_mass := hinge_mass, link_length := link_length, number_of_links := number_of_links, well_width := well_width, isometric := Polymers.swfjc.thermodynamics.isometric.SWFJC.init number_of_links link_length hinge_mass well_width, isotensional := Polymers.swfjc.thermodynamics.isotensional.SWFJC.init number_of_links link_length hinge_mass well_width }

end Polymers.swfjc.thermodynamics

namespace Polymers.swfjc

/-- `src/physics/single_chain/swfjc/mod.rs` lines 10-26: struct `SWFJC`. -/
structure SWFJC (α : Type) where
  /-- field `hinge_mass` -/
  hinge_mass : α
  /-- field `link_length` -/
  link_length : α
  /-- field `number_of_links` -/
  number_of_links : Nat
  /-- field `well_width` -/
  well_width : α
  /-- field `thermodynamics` -/
  thermodynamics : Polymers.swfjc.thermodynamics.SWFJC α

/-- `src/physics/single_chain/swfjc/mod.rs` lines 32-42. -/
def SWFJC.init (number_of_links : Nat) (link_length : α) (hinge_mass : α) (well_width : α) : Polymers.swfjc.SWFJC α :=
  { hinge_mass := hinge_mass, link_length := link_length, number_of_links := number_of_links, well_width := well_width, thermodynamics := Polymers.swfjc.thermodynamics.SWFJC.init number_of_links link_length hinge_mass well_width }

end Polymers.swfjc
