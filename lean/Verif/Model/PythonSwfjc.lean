/- Generated by tools/py2lean.py from the py.rs files of /repo/src/physics/single_chain/swfjc ; do not edit by hand. -/
import Verif.Model.Swfjc
import Verif.Model.PythonBase

set_option linter.unusedVariables false

open Polymers

variable {α : Type} [Add α] [Sub α] [Mul α] [Div α] [Neg α] [OfScientific α] [NatCast α] [Elem α]

namespace Polymers.Python.swfjc.thermodynamics.isometric.legendre

/-- `src/physics/single_chain/swfjc/thermodynamics/isometric/legendre/py.rs` lines 27-46: struct `SWFJC`. -/
structure SWFJC (α : Type) where
  /-- field `hinge_mass` -/
  hinge_mass : α
  /-- field `link_length` -/
  link_length : α
  /-- field `number_of_links` -/
  number_of_links : Nat
  /-- field `well_width` -/
  well_width : α
  /-- field `normalization_nondimensional_equilibrium_distribution` -/
  normalization_nondimensional_equilibrium_distribution : α

/-- `src/physics/single_chain/swfjc/thermodynamics/isometric/legendre/py.rs` lines 52-64. -/
def SWFJC.init (number_of_links : Nat) (link_length : α) (hinge_mass : α) (well_width : α) : Polymers.Python.swfjc.thermodynamics.isometric.legendre.SWFJC α :=
  let nondimensional_well_parameter : α := 1.0 + well_width / link_length
  let normalization : α := Polymers.math.integrate_1d (fun (nondimensional_end_to_end_length_per_link : α) => Polymers.swfjc.thermodynamics.isometric.legendre.nondimensional_equilibrium_radial_distribution number_of_links link_length well_width 1.0 nondimensional_end_to_end_length_per_link) (Polymers.ZERO : α) ((Polymers.ONE : α) * nondimensional_well_parameter) Polymers.POINTS
  { hinge_mass := hinge_mass, link_length := link_length, number_of_links := number_of_links, well_width := well_width, normalization_nondimensional_equilibrium_distribution := normalization }

/-- `src/physics/single_chain/swfjc/thermodynamics/isometric/legendre/py.rs` lines 74-77. -/
def SWFJC.force (self : Polymers.Python.swfjc.thermodynamics.isometric.legendre.SWFJC α) (end_to_end_length : NdArray α) (temperature : α) : NdArray α :=
  NdArray.mapv end_to_end_length (fun (end_to_end_length : α) => Polymers.swfjc.thermodynamics.isometric.legendre.force self.number_of_links self.link_length self.well_width end_to_end_length temperature)

/-- `src/physics/single_chain/swfjc/thermodynamics/isometric/legendre/py.rs` lines 86-89. -/
def SWFJC.nondimensional_force (self : Polymers.Python.swfjc.thermodynamics.isometric.legendre.SWFJC α) (nondimensional_end_to_end_length_per_link : NdArray α) : NdArray α :=
  NdArray.mapv nondimensional_end_to_end_length_per_link (fun (nondimensional_end_to_end_length_per_link : α) => Polymers.swfjc.thermodynamics.isometric.legendre.nondimensional_force self.link_length self.well_width nondimensional_end_to_end_length_per_link)

/-- `src/physics/single_chain/swfjc/thermodynamics/isometric/legendre/py.rs` lines 104-107. -/
def SWFJC.helmholtz_free_energy (self : Polymers.Python.swfjc.thermodynamics.isometric.legendre.SWFJC α) (end_to_end_length : NdArray α) (temperature : α) : NdArray α :=
  NdArray.mapv end_to_end_length (fun (end_to_end_length : α) => Polymers.swfjc.thermodynamics.isometric.legendre.helmholtz_free_energy self.number_of_links self.link_length self.hinge_mass self.well_width end_to_end_length temperature)

/-- `src/physics/single_chain/swfjc/thermodynamics/isometric/legendre/py.rs` lines 117-120. -/
def SWFJC.helmholtz_free_energy_per_link (self : Polymers.Python.swfjc.thermodynamics.isometric.legendre.SWFJC α) (end_to_end_length : NdArray α) (temperature : α) : NdArray α :=
  NdArray.mapv end_to_end_length (fun (end_to_end_length : α) => Polymers.swfjc.thermodynamics.isometric.legendre.helmholtz_free_energy_per_link self.number_of_links self.link_length self.hinge_mass self.well_width end_to_end_length temperature)

/-- `src/physics/single_chain/swfjc/thermodynamics/isometric/legendre/py.rs` lines 130-133. -/
def SWFJC.relative_helmholtz_free_energy (self : Polymers.Python.swfjc.thermodynamics.isometric.legendre.SWFJC α) (end_to_end_length : NdArray α) (temperature : α) : NdArray α :=
  NdArray.mapv end_to_end_length (fun (end_to_end_length : α) => Polymers.swfjc.thermodynamics.isometric.legendre.relative_helmholtz_free_energy self.number_of_links self.link_length self.well_width end_to_end_length temperature)

/-- `src/physics/single_chain/swfjc/thermodynamics/isometric/legendre/py.rs` lines 143-146. -/
def SWFJC.relative_helmholtz_free_energy_per_link (self : Polymers.Python.swfjc.thermodynamics.isometric.legendre.SWFJC α) (end_to_end_length : NdArray α) (temperature : α) : NdArray α :=
  NdArray.mapv end_to_end_length (fun (end_to_end_length : α) => Polymers.swfjc.thermodynamics.isometric.legendre.relative_helmholtz_free_energy_per_link self.number_of_links self.link_length self.well_width end_to_end_length temperature)

/-- `src/physics/single_chain/swfjc/thermodynamics/isometric/legendre/py.rs` lines 156-159. -/
def SWFJC.nondimensional_helmholtz_free_energy (self : Polymers.Python.swfjc.thermodynamics.isometric.legendre.SWFJC α) (nondimensional_end_to_end_length_per_link : NdArray α) (temperature : α) : NdArray α :=
  NdArray.mapv nondimensional_end_to_end_length_per_link (fun (nondimensional_end_to_end_length_per_link : α) => Polymers.swfjc.thermodynamics.isometric.legendre.nondimensional_helmholtz_free_energy self.number_of_links self.link_length self.hinge_mass self.well_width nondimensional_end_to_end_length_per_link temperature)

/-- `src/physics/single_chain/swfjc/thermodynamics/isometric/legendre/py.rs` lines 169-172. -/
def SWFJC.nondimensional_helmholtz_free_energy_per_link (self : Polymers.Python.swfjc.thermodynamics.isometric.legendre.SWFJC α) (nondimensional_end_to_end_length_per_link : NdArray α) (temperature : α) : NdArray α :=
  NdArray.mapv nondimensional_end_to_end_length_per_link (fun (nondimensional_end_to_end_length_per_link : α) => Polymers.swfjc.thermodynamics.isometric.legendre.nondimensional_helmholtz_free_energy_per_link self.number_of_links self.link_length self.hinge_mass self.well_width nondimensional_end_to_end_length_per_link temperature)

/-- `src/physics/single_chain/swfjc/thermodynamics/isometric/legendre/py.rs` lines 181-184. -/
def SWFJC.nondimensional_relative_helmholtz_free_energy (self : Polymers.Python.swfjc.thermodynamics.isometric.legendre.SWFJC α) (nondimensional_end_to_end_length_per_link : NdArray α) : NdArray α :=
  NdArray.mapv nondimensional_end_to_end_length_per_link (fun (nondimensional_end_to_end_length_per_link : α) => Polymers.swfjc.thermodynamics.isometric.legendre.nondimensional_relative_helmholtz_free_energy self.number_of_links self.link_length self.well_width nondimensional_end_to_end_length_per_link)

/-- `src/physics/single_chain/swfjc/thermodynamics/isometric/legendre/py.rs` lines 193-196. -/
def SWFJC.nondimensional_relative_helmholtz_free_energy_per_link (self : Polymers.Python.swfjc.thermodynamics.isometric.legendre.SWFJC α) (nondimensional_end_to_end_length_per_link : NdArray α) : NdArray α :=
  NdArray.mapv nondimensional_end_to_end_length_per_link (fun (nondimensional_end_to_end_length_per_link : α) => Polymers.swfjc.thermodynamics.isometric.legendre.nondimensional_relative_helmholtz_free_energy_per_link self.link_length self.well_width nondimensional_end_to_end_length_per_link)

/-- `src/physics/single_chain/swfjc/thermodynamics/isometric/legendre/py.rs` lines 208-211. -/
def SWFJC.equilibrium_distribution (self : Polymers.Python.swfjc.thermodynamics.isometric.legendre.SWFJC α) (end_to_end_length : NdArray α) : NdArray α :=
  NdArray.mapv end_to_end_length (fun (end_to_end_length : α) => Polymers.swfjc.thermodynamics.isometric.legendre.equilibrium_distribution self.number_of_links self.link_length self.well_width self.normalization_nondimensional_equilibrium_distribution end_to_end_length)

/-- `src/physics/single_chain/swfjc/thermodynamics/isometric/legendre/py.rs` lines 223-226. -/
def SWFJC.nondimensional_equilibrium_distribution (self : Polymers.Python.swfjc.thermodynamics.isometric.legendre.SWFJC α) (nondimensional_end_to_end_length_per_link : NdArray α) : NdArray α :=
  NdArray.mapv nondimensional_end_to_end_length_per_link (fun (nondimensional_end_to_end_length_per_link : α) => Polymers.swfjc.thermodynamics.isometric.legendre.nondimensional_equilibrium_distribution self.number_of_links self.link_length self.well_width self.normalization_nondimensional_equilibrium_distribution nondimensional_end_to_end_length_per_link)

/-- `src/physics/single_chain/swfjc/thermodynamics/isometric/legendre/py.rs` lines 238-241. -/
def SWFJC.equilibrium_radial_distribution (self : Polymers.Python.swfjc.thermodynamics.isometric.legendre.SWFJC α) (end_to_end_length : NdArray α) : NdArray α :=
  NdArray.mapv end_to_end_length (fun (end_to_end_length : α) => Polymers.swfjc.thermodynamics.isometric.legendre.equilibrium_radial_distribution self.number_of_links self.link_length self.well_width self.normalization_nondimensional_equilibrium_distribution end_to_end_length)

/-- `src/physics/single_chain/swfjc/thermodynamics/isometric/legendre/py.rs` lines 253-256. -/
def SWFJC.nondimensional_equilibrium_radial_distribution (self : Polymers.Python.swfjc.thermodynamics.isometric.legendre.SWFJC α) (nondimensional_end_to_end_length_per_link : NdArray α) : NdArray α :=
  NdArray.mapv nondimensional_end_to_end_length_per_link (fun (nondimensional_end_to_end_length_per_link : α) => Polymers.swfjc.thermodynamics.isometric.legendre.nondimensional_equilibrium_radial_distribution self.number_of_links self.link_length self.well_width self.normalization_nondimensional_equilibrium_distribution nondimensional_end_to_end_length_per_link)

end Polymers.Python.swfjc.thermodynamics.isometric.legendre

namespace Polymers.Python.swfjc.thermodynamics.isotensional.legendre

/-- `src/physics/single_chain/swfjc/thermodynamics/isotensional/legendre/py.rs` lines 20-37: struct `SWFJC`. -/
structure SWFJC (α : Type) where
  /-- field `hinge_mass` -/
  hinge_mass : α
  /-- field `link_length` -/
  link_length : α
  /-- field `number_of_links` -/
  number_of_links : Nat
  /-- field `well_width` -/
  well_width : α

/-- `src/physics/single_chain/swfjc/thermodynamics/isotensional/legendre/py.rs` lines 43-52. -/
def SWFJC.init (number_of_links : Nat) (link_length : α) (hinge_mass : α) (well_width : α) : Polymers.Python.swfjc.thermodynamics.isotensional.legendre.SWFJC α :=
  { hinge_mass := hinge_mass, link_length := link_length, number_of_links := number_of_links, well_width := well_width }

/-- `src/physics/single_chain/swfjc/thermodynamics/isotensional/legendre/py.rs` lines 65-68. -/
def SWFJC.helmholtz_free_energy (self : Polymers.Python.swfjc.thermodynamics.isotensional.legendre.SWFJC α) (force : NdArray α) (temperature : α) : NdArray α :=
  NdArray.mapv force (fun (force : α) => Polymers.swfjc.thermodynamics.isotensional.legendre.helmholtz_free_energy self.number_of_links self.link_length self.hinge_mass self.well_width force temperature)

/-- `src/physics/single_chain/swfjc/thermodynamics/isotensional/legendre/py.rs` lines 78-81. -/
def SWFJC.helmholtz_free_energy_per_link (self : Polymers.Python.swfjc.thermodynamics.isotensional.legendre.SWFJC α) (force : NdArray α) (temperature : α) : NdArray α :=
  NdArray.mapv force (fun (force : α) => Polymers.swfjc.thermodynamics.isotensional.legendre.helmholtz_free_energy_per_link self.link_length self.hinge_mass self.well_width force temperature)

/-- `src/physics/single_chain/swfjc/thermodynamics/isotensional/legendre/py.rs` lines 91-94. -/
def SWFJC.relative_helmholtz_free_energy (self : Polymers.Python.swfjc.thermodynamics.isotensional.legendre.SWFJC α) (force : NdArray α) (temperature : α) : NdArray α :=
  NdArray.mapv force (fun (force : α) => Polymers.swfjc.thermodynamics.isotensional.legendre.relative_helmholtz_free_energy self.number_of_links self.link_length self.well_width force temperature)

/-- `src/physics/single_chain/swfjc/thermodynamics/isotensional/legendre/py.rs` lines 104-107. -/
def SWFJC.relative_helmholtz_free_energy_per_link (self : Polymers.Python.swfjc.thermodynamics.isotensional.legendre.SWFJC α) (force : NdArray α) (temperature : α) : NdArray α :=
  NdArray.mapv force (fun (force : α) => Polymers.swfjc.thermodynamics.isotensional.legendre.relative_helmholtz_free_energy_per_link self.link_length self.well_width force temperature)

/-- `src/physics/single_chain/swfjc/thermodynamics/isotensional/legendre/py.rs` lines 117-120. -/
def SWFJC.nondimensional_helmholtz_free_energy (self : Polymers.Python.swfjc.thermodynamics.isotensional.legendre.SWFJC α) (nondimensional_force : NdArray α) (temperature : α) : NdArray α :=
  NdArray.mapv nondimensional_force (fun (nondimensional_force : α) => Polymers.swfjc.thermodynamics.isotensional.legendre.nondimensional_helmholtz_free_energy self.number_of_links self.link_length self.hinge_mass self.well_width nondimensional_force temperature)

/-- `src/physics/single_chain/swfjc/thermodynamics/isotensional/legendre/py.rs` lines 130-133. -/
def SWFJC.nondimensional_helmholtz_free_energy_per_link (self : Polymers.Python.swfjc.thermodynamics.isotensional.legendre.SWFJC α) (nondimensional_force : NdArray α) (temperature : α) : NdArray α :=
  NdArray.mapv nondimensional_force (fun (nondimensional_force : α) => Polymers.swfjc.thermodynamics.isotensional.legendre.nondimensional_helmholtz_free_energy_per_link self.link_length self.hinge_mass self.well_width nondimensional_force temperature)

/-- `src/physics/single_chain/swfjc/thermodynamics/isotensional/legendre/py.rs` lines 142-145. -/
def SWFJC.nondimensional_relative_helmholtz_free_energy (self : Polymers.Python.swfjc.thermodynamics.isotensional.legendre.SWFJC α) (nondimensional_force : NdArray α) : NdArray α :=
  NdArray.mapv nondimensional_force (fun (nondimensional_force : α) => Polymers.swfjc.thermodynamics.isotensional.legendre.nondimensional_relative_helmholtz_free_energy self.number_of_links self.link_length self.well_width nondimensional_force)

/-- `src/physics/single_chain/swfjc/thermodynamics/isotensional/legendre/py.rs` lines 154-157. -/
def SWFJC.nondimensional_relative_helmholtz_free_energy_per_link (self : Polymers.Python.swfjc.thermodynamics.isotensional.legendre.SWFJC α) (nondimensional_force : NdArray α) : NdArray α :=
  NdArray.mapv nondimensional_force (fun (nondimensional_force : α) => Polymers.swfjc.thermodynamics.isotensional.legendre.nondimensional_relative_helmholtz_free_energy_per_link self.link_length self.well_width nondimensional_force)

end Polymers.Python.swfjc.thermodynamics.isotensional.legendre

namespace Polymers.Python.swfjc.thermodynamics.isometric

/-- `src/physics/single_chain/swfjc/thermodynamics/isometric/py.rs` lines 15-36: struct `SWFJC`. -/
structure SWFJC (α : Type) where
  /-- field `hinge_mass` -/
  hinge_mass : α
  /-- field `link_length` -/
  link_length : α
  /-- field `number_of_links` -/
  number_of_links : Nat
  /-- field `well_width` -/
  well_width : α
  /-- field `legendre` -/
  legendre : Polymers.Python.swfjc.thermodynamics.isometric.legendre.SWFJC α

/-- `src/physics/single_chain/swfjc/thermodynamics/isometric/py.rs` lines 42-52. -/
def SWFJC.init (number_of_links : Nat) (link_length : α) (hinge_mass : α) (well_width : α) : Polymers.Python.swfjc.thermodynamics.isometric.SWFJC α :=
  { hinge_mass := hinge_mass, link_length := link_length, number_of_links := number_of_links, well_width := well_width, legendre := Polymers.Python.swfjc.thermodynamics.isometric.legendre.SWFJC.init number_of_links link_length hinge_mass well_width }

end Polymers.Python.swfjc.thermodynamics.isometric

namespace Polymers.Python.swfjc.thermodynamics.isotensional

/-- `src/physics/single_chain/swfjc/thermodynamics/isotensional/py.rs` lines 21-42: struct `SWFJC`. -/
structure SWFJC (α : Type) where
  /-- field `hinge_mass` -/
  hinge_mass : α
  /-- field `link_length` -/
  link_length : α
  /-- field `number_of_links` -/
  number_of_links : Nat
  /-- field `well_width` -/
  well_width : α
  /-- field `legendre` -/
  legendre : Polymers.Python.swfjc.thermodynamics.isotensional.legendre.SWFJC α

/-- `src/physics/single_chain/swfjc/thermodynamics/isotensional/py.rs` lines 48-58. -/
def SWFJC.init (number_of_links : Nat) (link_length : α) (hinge_mass : α) (well_width : α) : Polymers.Python.swfjc.thermodynamics.isotensional.SWFJC α :=
  { hinge_mass := hinge_mass, link_length := link_length, number_of_links := number_of_links, well_width := well_width, legendre := Polymers.Python.swfjc.thermodynamics.isotensional.legendre.SWFJC.init number_of_links link_length hinge_mass well_width }

/-- `src/physics/single_chain/swfjc/thermodynamics/isotensional/py.rs` lines 71-74. -/
def SWFJC.end_to_end_length (self : Polymers.Python.swfjc.thermodynamics.isotensional.SWFJC α) (force : NdArray α) (temperature : α) : NdArray α :=
  NdArray.mapv force (fun (force : α) => Polymers.swfjc.thermodynamics.isotensional.end_to_end_length self.number_of_links self.link_length self.well_width force temperature)

/-- `src/physics/single_chain/swfjc/thermodynamics/isotensional/py.rs` lines 84-87. -/
def SWFJC.end_to_end_length_per_link (self : Polymers.Python.swfjc.thermodynamics.isotensional.SWFJC α) (force : NdArray α) (temperature : α) : NdArray α :=
  NdArray.mapv force (fun (force : α) => Polymers.swfjc.thermodynamics.isotensional.end_to_end_length_per_link self.link_length self.well_width force temperature)

/-- `src/physics/single_chain/swfjc/thermodynamics/isotensional/py.rs` lines 96-99. -/
def SWFJC.nondimensional_end_to_end_length (self : Polymers.Python.swfjc.thermodynamics.isotensional.SWFJC α) (nondimensional_force : NdArray α) : NdArray α :=
  NdArray.mapv nondimensional_force (fun (nondimensional_force : α) => Polymers.swfjc.thermodynamics.isotensional.nondimensional_end_to_end_length self.number_of_links self.link_length self.well_width nondimensional_force)

/-- `src/physics/single_chain/swfjc/thermodynamics/isotensional/py.rs` lines 114-117. -/
def SWFJC.nondimensional_end_to_end_length_per_link (self : Polymers.Python.swfjc.thermodynamics.isotensional.SWFJC α) (nondimensional_force : NdArray α) : NdArray α :=
  NdArray.mapv nondimensional_force (fun (nondimensional_force : α) => Polymers.swfjc.thermodynamics.isotensional.nondimensional_end_to_end_length_per_link self.link_length self.well_width nondimensional_force)

/-- `src/physics/single_chain/swfjc/thermodynamics/isotensional/py.rs` lines 130-133. -/
def SWFJC.gibbs_free_energy (self : Polymers.Python.swfjc.thermodynamics.isotensional.SWFJC α) (force : NdArray α) (temperature : α) : NdArray α :=
  NdArray.mapv force (fun (force : α) => Polymers.swfjc.thermodynamics.isotensional.gibbs_free_energy self.number_of_links self.link_length self.hinge_mass self.well_width force temperature)

/-- `src/physics/single_chain/swfjc/thermodynamics/isotensional/py.rs` lines 143-146. -/
def SWFJC.gibbs_free_energy_per_link (self : Polymers.Python.swfjc.thermodynamics.isotensional.SWFJC α) (force : NdArray α) (temperature : α) : NdArray α :=
  NdArray.mapv force (fun (force : α) => Polymers.swfjc.thermodynamics.isotensional.gibbs_free_energy_per_link self.link_length self.hinge_mass self.well_width force temperature)

/-- `src/physics/single_chain/swfjc/thermodynamics/isotensional/py.rs` lines 156-159. -/
def SWFJC.relative_gibbs_free_energy (self : Polymers.Python.swfjc.thermodynamics.isotensional.SWFJC α) (force : NdArray α) (temperature : α) : NdArray α :=
  NdArray.mapv force (fun (force : α) => Polymers.swfjc.thermodynamics.isotensional.relative_gibbs_free_energy self.number_of_links self.link_length self.well_width force temperature)

/-- `src/physics/single_chain/swfjc/thermodynamics/isotensional/py.rs` lines 169-172. -/
def SWFJC.relative_gibbs_free_energy_per_link (self : Polymers.Python.swfjc.thermodynamics.isotensional.SWFJC α) (force : NdArray α) (temperature : α) : NdArray α :=
  NdArray.mapv force (fun (force : α) => Polymers.swfjc.thermodynamics.isotensional.relative_gibbs_free_energy_per_link self.link_length self.well_width force temperature)

/-- `src/physics/single_chain/swfjc/thermodynamics/isotensional/py.rs` lines 182-185. -/
def SWFJC.nondimensional_gibbs_free_energy (self : Polymers.Python.swfjc.thermodynamics.isotensional.SWFJC α) (nondimensional_force : NdArray α) (temperature : α) : NdArray α :=
  NdArray.mapv nondimensional_force (fun (nondimensional_force : α) => Polymers.swfjc.thermodynamics.isotensional.nondimensional_gibbs_free_energy self.number_of_links self.link_length self.hinge_mass self.well_width nondimensional_force temperature)

/-- `src/physics/single_chain/swfjc/thermodynamics/isotensional/py.rs` lines 195-198. -/
def SWFJC.nondimensional_gibbs_free_energy_per_link (self : Polymers.Python.swfjc.thermodynamics.isotensional.SWFJC α) (nondimensional_force : NdArray α) (temperature : α) : NdArray α :=
  NdArray.mapv nondimensional_force (fun (nondimensional_force : α) => Polymers.swfjc.thermodynamics.isotensional.nondimensional_gibbs_free_energy_per_link self.link_length self.hinge_mass self.well_width nondimensional_force temperature)

/-- `src/physics/single_chain/swfjc/thermodynamics/isotensional/py.rs` lines 207-210. -/
def SWFJC.nondimensional_relative_gibbs_free_energy (self : Polymers.Python.swfjc.thermodynamics.isotensional.SWFJC α) (nondimensional_force : NdArray α) : NdArray α :=
  NdArray.mapv nondimensional_force (fun (nondimensional_force : α) => Polymers.swfjc.thermodynamics.isotensional.nondimensional_relative_gibbs_free_energy self.number_of_links self.link_length self.well_width nondimensional_force)

/-- `src/physics/single_chain/swfjc/thermodynamics/isotensional/py.rs` lines 225-228. -/
def SWFJC.nondimensional_relative_gibbs_free_energy_per_link (self : Polymers.Python.swfjc.thermodynamics.isotensional.SWFJC α) (nondimensional_force : NdArray α) : NdArray α :=
  NdArray.mapv nondimensional_force (fun (nondimensional_force : α) => Polymers.swfjc.thermodynamics.isotensional.nondimensional_relative_gibbs_free_energy_per_link self.link_length self.well_width nondimensional_force)

end Polymers.Python.swfjc.thermodynamics.isotensional

namespace Polymers.Python.swfjc.thermodynamics

/-- `src/physics/single_chain/swfjc/thermodynamics/py.rs` lines 16-41: struct `SWFJC`. -/
structure SWFJC (α : Type) where
  /-- field `hinge_mass` -/
  hinge_mass : α
  /-- field `link_length` -/
  link_length : α
  /-- field `number_of_links` -/
  number_of_links : Nat
  /-- field `well_width` -/
  well_width : α
  /-- field `isometric` -/
  isometric : Polymers.Python.swfjc.thermodynamics.isometric.SWFJC α
  /-- field `isotensional` -/
  isotensional : Polymers.Python.swfjc.thermodynamics.isotensional.SWFJC α

/-- `src/physics/single_chain/swfjc/thermodynamics/py.rs` lines 47-58. -/
def SWFJC.init (number_of_links : Nat) (link_length : α) (hinge_mass : α) (well_width : α) : Polymers.Python.swfjc.thermodynamics.SWFJC α :=
  { hinge_mass := hinge_mass, link_length := link_length, number_of_links := number_of_links, well_width := well_width, isometric := Polymers.Python.swfjc.thermodynamics.isometric.SWFJC.init number_of_links link_length hinge_mass well_width, isotensional := Polymers.Python.swfjc.thermodynamics.isotensional.SWFJC.init number_of_links link_length hinge_mass well_width }

end Polymers.Python.swfjc.thermodynamics

namespace Polymers.Python.swfjc

/-- `src/physics/single_chain/swfjc/py.rs` lines 14-35: struct `SWFJC`. -/
structure SWFJC (α : Type) where
  /-- field `hinge_mass` -/
  hinge_mass : α
  /-- field `link_length` -/
  link_length : α
  /-- field `number_of_links` -/
  number_of_links : Nat
  /-- field `well_width` -/
  well_width : α
  /-- field `thermodynamics` -/
  thermodynamics : Polymers.Python.swfjc.thermodynamics.SWFJC α

/-- `src/physics/single_chain/swfjc/py.rs` lines 41-51. -/
def SWFJC.init (number_of_links : Nat) (link_length : α) (hinge_mass : α) (well_width : α) : Polymers.Python.swfjc.SWFJC α :=
  { hinge_mass := hinge_mass, link_length := link_length, number_of_links := number_of_links, well_width := well_width, thermodynamics := Polymers.Python.swfjc.thermodynamics.SWFJC.init number_of_links link_length hinge_mass well_width }

end Polymers.Python.swfjc
