/- Generated by tools/py2lean.py from the py.rs files of /repo/src/physics/single_chain/wlc ; do not edit by hand. -/
import Verif.Model.Wlc
import Verif.Model.PythonBase

set_option linter.unusedVariables false

open Polymers

variable {α : Type} [Add α] [Sub α] [Mul α] [Div α] [Neg α] [OfScientific α] [NatCast α] [Elem α]

namespace Polymers.Python.wlc.thermodynamics.isometric.legendre

/-- `src/physics/single_chain/wlc/thermodynamics/isometric/legendre/py.rs` lines 20-39: struct `WLC`. -/
structure WLC (α : Type) where
  /-- field `hinge_mass` -/
  hinge_mass : α
  /-- field `link_length` -/
  link_length : α
  /-- field `number_of_links` -/
  number_of_links : Nat
  /-- field `persistance_length` -/
  persistance_length : α
  /-- field `nondimensional_persistance_length` -/
  nondimensional_persistance_length : α

/-- `src/physics/single_chain/wlc/thermodynamics/isometric/legendre/py.rs` lines 45-55. -/
def WLC.init (number_of_links : Nat) (link_length : α) (hinge_mass : α) (persistance_length : α) : Polymers.Python.wlc.thermodynamics.isometric.legendre.WLC α :=
  { hinge_mass := hinge_mass, link_length := link_length, number_of_links := number_of_links, persistance_length := persistance_length, nondimensional_persistance_length := persistance_length / (number_of_links : α) / link_length }

/-- `src/physics/single_chain/wlc/thermodynamics/isometric/legendre/py.rs` lines 70-73. -/
def WLC.gibbs_free_energy (self : Polymers.Python.wlc.thermodynamics.isometric.legendre.WLC α) (end_to_end_length : NdArray α) (temperature : α) : NdArray α :=
  NdArray.mapv end_to_end_length (fun (end_to_end_length : α) => Polymers.wlc.thermodynamics.isometric.legendre.gibbs_free_energy self.number_of_links self.link_length self.hinge_mass self.persistance_length end_to_end_length temperature)

/-- `src/physics/single_chain/wlc/thermodynamics/isometric/legendre/py.rs` lines 83-86. -/
def WLC.gibbs_free_energy_per_link (self : Polymers.Python.wlc.thermodynamics.isometric.legendre.WLC α) (end_to_end_length : NdArray α) (temperature : α) : NdArray α :=
  NdArray.mapv end_to_end_length (fun (end_to_end_length : α) => Polymers.wlc.thermodynamics.isometric.legendre.gibbs_free_energy_per_link self.number_of_links self.link_length self.hinge_mass self.persistance_length end_to_end_length temperature)

/-- `src/physics/single_chain/wlc/thermodynamics/isometric/legendre/py.rs` lines 96-99. -/
def WLC.relative_gibbs_free_energy (self : Polymers.Python.wlc.thermodynamics.isometric.legendre.WLC α) (end_to_end_length : NdArray α) (temperature : α) : NdArray α :=
  NdArray.mapv end_to_end_length (fun (end_to_end_length : α) => Polymers.wlc.thermodynamics.isometric.legendre.relative_gibbs_free_energy self.number_of_links self.link_length self.persistance_length end_to_end_length temperature)

/-- `src/physics/single_chain/wlc/thermodynamics/isometric/legendre/py.rs` lines 109-112. -/
def WLC.relative_gibbs_free_energy_per_link (self : Polymers.Python.wlc.thermodynamics.isometric.legendre.WLC α) (end_to_end_length : NdArray α) (temperature : α) : NdArray α :=
  NdArray.mapv end_to_end_length (fun (end_to_end_length : α) => Polymers.wlc.thermodynamics.isometric.legendre.relative_gibbs_free_energy_per_link self.number_of_links self.link_length self.persistance_length end_to_end_length temperature)

/-- `src/physics/single_chain/wlc/thermodynamics/isometric/legendre/py.rs` lines 122-125. -/
def WLC.nondimensional_gibbs_free_energy (self : Polymers.Python.wlc.thermodynamics.isometric.legendre.WLC α) (nondimensional_end_to_end_length_per_link : NdArray α) (temperature : α) : NdArray α :=
  NdArray.mapv nondimensional_end_to_end_length_per_link (fun (nondimensional_end_to_end_length_per_link : α) => Polymers.wlc.thermodynamics.isometric.legendre.nondimensional_gibbs_free_energy self.number_of_links self.link_length self.hinge_mass self.nondimensional_persistance_length nondimensional_end_to_end_length_per_link temperature)

/-- `src/physics/single_chain/wlc/thermodynamics/isometric/legendre/py.rs` lines 135-138. -/
def WLC.nondimensional_gibbs_free_energy_per_link (self : Polymers.Python.wlc.thermodynamics.isometric.legendre.WLC α) (nondimensional_end_to_end_length_per_link : NdArray α) (temperature : α) : NdArray α :=
  NdArray.mapv nondimensional_end_to_end_length_per_link (fun (nondimensional_end_to_end_length_per_link : α) => Polymers.wlc.thermodynamics.isometric.legendre.nondimensional_gibbs_free_energy_per_link self.number_of_links self.link_length self.hinge_mass self.nondimensional_persistance_length nondimensional_end_to_end_length_per_link temperature)

/-- `src/physics/single_chain/wlc/thermodynamics/isometric/legendre/py.rs` lines 147-150. -/
def WLC.nondimensional_relative_gibbs_free_energy (self : Polymers.Python.wlc.thermodynamics.isometric.legendre.WLC α) (nondimensional_end_to_end_length_per_link : NdArray α) : NdArray α :=
  NdArray.mapv nondimensional_end_to_end_length_per_link (fun (nondimensional_end_to_end_length_per_link : α) => Polymers.wlc.thermodynamics.isometric.legendre.nondimensional_relative_gibbs_free_energy self.number_of_links self.nondimensional_persistance_length nondimensional_end_to_end_length_per_link)

/-- `src/physics/single_chain/wlc/thermodynamics/isometric/legendre/py.rs` lines 159-162. -/
def WLC.nondimensional_relative_gibbs_free_energy_per_link (self : Polymers.Python.wlc.thermodynamics.isometric.legendre.WLC α) (nondimensional_end_to_end_length_per_link : NdArray α) : NdArray α :=
  NdArray.mapv nondimensional_end_to_end_length_per_link (fun (nondimensional_end_to_end_length_per_link : α) => Polymers.wlc.thermodynamics.isometric.legendre.nondimensional_relative_gibbs_free_energy_per_link self.number_of_links self.nondimensional_persistance_length nondimensional_end_to_end_length_per_link)

end Polymers.Python.wlc.thermodynamics.isometric.legendre

namespace Polymers.Python.wlc.thermodynamics.isotensional.legendre

/-- `src/physics/single_chain/wlc/thermodynamics/isotensional/legendre/py.rs` lines 20-39: struct `WLC`. -/
structure WLC (α : Type) where
  /-- field `hinge_mass` -/
  hinge_mass : α
  /-- field `link_length` -/
  link_length : α
  /-- field `number_of_links` -/
  number_of_links : Nat
  /-- field `persistance_length` -/
  persistance_length : α
  /-- field `nondimensional_persistance_length` -/
  nondimensional_persistance_length : α

/-- `src/physics/single_chain/wlc/thermodynamics/isotensional/legendre/py.rs` lines 45-55. -/
def WLC.init (number_of_links : Nat) (link_length : α) (hinge_mass : α) (persistance_length : α) : Polymers.Python.wlc.thermodynamics.isotensional.legendre.WLC α :=
  { hinge_mass := hinge_mass, link_length := link_length, number_of_links := number_of_links, persistance_length := persistance_length, nondimensional_persistance_length := persistance_length / (number_of_links : α) / link_length }

/-- `src/physics/single_chain/wlc/thermodynamics/isotensional/legendre/py.rs` lines 68-71. -/
def WLC.helmholtz_free_energy (self : Polymers.Python.wlc.thermodynamics.isotensional.legendre.WLC α) (force : NdArray α) (temperature : α) : NdArray α :=
  NdArray.mapv force (fun (force : α) => Polymers.wlc.thermodynamics.isotensional.legendre.helmholtz_free_energy self.number_of_links self.link_length self.hinge_mass self.persistance_length force temperature)

/-- `src/physics/single_chain/wlc/thermodynamics/isotensional/legendre/py.rs` lines 81-84. -/
def WLC.helmholtz_free_energy_per_link (self : Polymers.Python.wlc.thermodynamics.isotensional.legendre.WLC α) (force : NdArray α) (temperature : α) : NdArray α :=
  NdArray.mapv force (fun (force : α) => Polymers.wlc.thermodynamics.isotensional.legendre.helmholtz_free_energy_per_link self.number_of_links self.link_length self.hinge_mass self.persistance_length force temperature)

/-- `src/physics/single_chain/wlc/thermodynamics/isotensional/legendre/py.rs` lines 94-97. -/
def WLC.relative_helmholtz_free_energy (self : Polymers.Python.wlc.thermodynamics.isotensional.legendre.WLC α) (force : NdArray α) (temperature : α) : NdArray α :=
  NdArray.mapv force (fun (force : α) => Polymers.wlc.thermodynamics.isotensional.legendre.relative_helmholtz_free_energy self.number_of_links self.link_length self.persistance_length force temperature)

/-- `src/physics/single_chain/wlc/thermodynamics/isotensional/legendre/py.rs` lines 107-110. -/
def WLC.relative_helmholtz_free_energy_per_link (self : Polymers.Python.wlc.thermodynamics.isotensional.legendre.WLC α) (force : NdArray α) (temperature : α) : NdArray α :=
  NdArray.mapv force (fun (force : α) => Polymers.wlc.thermodynamics.isotensional.legendre.relative_helmholtz_free_energy_per_link self.number_of_links self.link_length self.persistance_length force temperature)

/-- `src/physics/single_chain/wlc/thermodynamics/isotensional/legendre/py.rs` lines 120-123. -/
def WLC.nondimensional_helmholtz_free_energy (self : Polymers.Python.wlc.thermodynamics.isotensional.legendre.WLC α) (nondimensional_force : NdArray α) (temperature : α) : NdArray α :=
  NdArray.mapv nondimensional_force (fun (nondimensional_force : α) => Polymers.wlc.thermodynamics.isotensional.legendre.nondimensional_helmholtz_free_energy self.number_of_links self.link_length self.hinge_mass self.nondimensional_persistance_length nondimensional_force temperature)

/-- `src/physics/single_chain/wlc/thermodynamics/isotensional/legendre/py.rs` lines 133-136. -/
def WLC.nondimensional_helmholtz_free_energy_per_link (self : Polymers.Python.wlc.thermodynamics.isotensional.legendre.WLC α) (nondimensional_force : NdArray α) (temperature : α) : NdArray α :=
  NdArray.mapv nondimensional_force (fun (nondimensional_force : α) => Polymers.wlc.thermodynamics.isotensional.legendre.nondimensional_helmholtz_free_energy_per_link self.number_of_links self.link_length self.hinge_mass self.nondimensional_persistance_length nondimensional_force temperature)

/-- `src/physics/single_chain/wlc/thermodynamics/isotensional/legendre/py.rs` lines 145-148. -/
def WLC.nondimensional_relative_helmholtz_free_energy (self : Polymers.Python.wlc.thermodynamics.isotensional.legendre.WLC α) (nondimensional_force : NdArray α) : NdArray α :=
  NdArray.mapv nondimensional_force (fun (nondimensional_force : α) => Polymers.wlc.thermodynamics.isotensional.legendre.nondimensional_relative_helmholtz_free_energy self.number_of_links self.nondimensional_persistance_length nondimensional_force)

/-- `src/physics/single_chain/wlc/thermodynamics/isotensional/legendre/py.rs` lines 157-160. -/
def WLC.nondimensional_relative_helmholtz_free_energy_per_link (self : Polymers.Python.wlc.thermodynamics.isotensional.legendre.WLC α) (nondimensional_force : NdArray α) : NdArray α :=
  NdArray.mapv nondimensional_force (fun (nondimensional_force : α) => Polymers.wlc.thermodynamics.isotensional.legendre.nondimensional_relative_helmholtz_free_energy_per_link self.number_of_links self.nondimensional_persistance_length nondimensional_force)

end Polymers.Python.wlc.thermodynamics.isotensional.legendre

namespace Polymers.Python.wlc.thermodynamics.isometric

/-- `src/physics/single_chain/wlc/thermodynamics/isometric/py.rs` lines 28-53: struct `WLC`. -/
structure WLC (α : Type) where
  /-- field `hinge_mass` -/
  hinge_mass : α
  /-- field `link_length` -/
  link_length : α
  /-- field `number_of_links` -/
  number_of_links : Nat
  /-- field `persistance_length` -/
  persistance_length : α
  /-- field `nondimensional_persistance_length` -/
  nondimensional_persistance_length : α
  /-- field `normalization_nondimensional_equilibrium_distribution` -/
  normalization_nondimensional_equilibrium_distribution : α
  /-- field `legendre` -/
  legendre : Polymers.Python.wlc.thermodynamics.isometric.legendre.WLC α

/-- `src/physics/single_chain/wlc/thermodynamics/isometric/py.rs` lines 59-73. -/
def WLC.init (number_of_links : Nat) (link_length : α) (hinge_mass : α) (persistance_length : α) : Polymers.Python.wlc.thermodynamics.isometric.WLC α :=
  let nondimensional_persistance_length : α := persistance_length / (number_of_links : α) / link_length
  let normalization_nondimensional_equilibrium_distribution : α := Polymers.math.integrate_1d (fun (nondimensional_end_to_end_length_per_link : α) => Polymers.wlc.thermodynamics.isometric.nondimensional_equilibrium_radial_distribution nondimensional_persistance_length 1.0 nondimensional_end_to_end_length_per_link) (Polymers.ZERO : α) (Polymers.ONE : α) Polymers.POINTS
  { hinge_mass := hinge_mass, link_length := link_length, number_of_links := number_of_links, persistance_length := persistance_length, nondimensional_persistance_length := nondimensional_persistance_length, normalization_nondimensional_equilibrium_distribution := normalization_nondimensional_equilibrium_distribution, legendre := Polymers.Python.wlc.thermodynamics.isometric.legendre.WLC.init number_of_links link_length hinge_mass persistance_length }

/-- `src/physics/single_chain/wlc/thermodynamics/isometric/py.rs` lines 83-86. -/
def WLC.force (self : Polymers.Python.wlc.thermodynamics.isometric.WLC α) (end_to_end_length : NdArray α) (temperature : α) : NdArray α :=
  NdArray.mapv end_to_end_length (fun (end_to_end_length : α) => Polymers.wlc.thermodynamics.isometric.force self.number_of_links self.link_length self.persistance_length end_to_end_length temperature)

/-- `src/physics/single_chain/wlc/thermodynamics/isometric/py.rs` lines 95-98. -/
def WLC.nondimensional_force (self : Polymers.Python.wlc.thermodynamics.isometric.WLC α) (nondimensional_end_to_end_length_per_link : NdArray α) : NdArray α :=
  NdArray.mapv nondimensional_end_to_end_length_per_link (fun (nondimensional_end_to_end_length_per_link : α) => Polymers.wlc.thermodynamics.isometric.nondimensional_force self.number_of_links self.nondimensional_persistance_length nondimensional_end_to_end_length_per_link)

/-- `src/physics/single_chain/wlc/thermodynamics/isometric/py.rs` lines 111-114. -/
def WLC.helmholtz_free_energy (self : Polymers.Python.wlc.thermodynamics.isometric.WLC α) (end_to_end_length : NdArray α) (temperature : α) : NdArray α :=
  NdArray.mapv end_to_end_length (fun (end_to_end_length : α) => Polymers.wlc.thermodynamics.isometric.helmholtz_free_energy self.number_of_links self.link_length self.hinge_mass self.persistance_length end_to_end_length temperature)

/-- `src/physics/single_chain/wlc/thermodynamics/isometric/py.rs` lines 124-127. -/
def WLC.helmholtz_free_energy_per_link (self : Polymers.Python.wlc.thermodynamics.isometric.WLC α) (end_to_end_length : NdArray α) (temperature : α) : NdArray α :=
  NdArray.mapv end_to_end_length (fun (end_to_end_length : α) => Polymers.wlc.thermodynamics.isometric.helmholtz_free_energy_per_link self.number_of_links self.link_length self.hinge_mass self.persistance_length end_to_end_length temperature)

/-- `src/physics/single_chain/wlc/thermodynamics/isometric/py.rs` lines 140-143. -/
def WLC.relative_helmholtz_free_energy (self : Polymers.Python.wlc.thermodynamics.isometric.WLC α) (end_to_end_length : NdArray α) (temperature : α) : NdArray α :=
  NdArray.mapv end_to_end_length (fun (end_to_end_length : α) => Polymers.wlc.thermodynamics.isometric.relative_helmholtz_free_energy self.number_of_links self.link_length self.persistance_length end_to_end_length temperature)

/-- `src/physics/single_chain/wlc/thermodynamics/isometric/py.rs` lines 153-156. -/
def WLC.relative_helmholtz_free_energy_per_link (self : Polymers.Python.wlc.thermodynamics.isometric.WLC α) (end_to_end_length : NdArray α) (temperature : α) : NdArray α :=
  NdArray.mapv end_to_end_length (fun (end_to_end_length : α) => Polymers.wlc.thermodynamics.isometric.relative_helmholtz_free_energy_per_link self.number_of_links self.link_length self.persistance_length end_to_end_length temperature)

/-- `src/physics/single_chain/wlc/thermodynamics/isometric/py.rs` lines 166-169. -/
def WLC.nondimensional_helmholtz_free_energy (self : Polymers.Python.wlc.thermodynamics.isometric.WLC α) (nondimensional_end_to_end_length_per_link : NdArray α) (temperature : α) : NdArray α :=
  NdArray.mapv nondimensional_end_to_end_length_per_link (fun (nondimensional_end_to_end_length_per_link : α) => Polymers.wlc.thermodynamics.isometric.nondimensional_helmholtz_free_energy self.number_of_links self.link_length self.hinge_mass self.nondimensional_persistance_length nondimensional_end_to_end_length_per_link temperature)

/-- `src/physics/single_chain/wlc/thermodynamics/isometric/py.rs` lines 179-182. -/
def WLC.nondimensional_helmholtz_free_energy_per_link (self : Polymers.Python.wlc.thermodynamics.isometric.WLC α) (nondimensional_end_to_end_length_per_link : NdArray α) (temperature : α) : NdArray α :=
  NdArray.mapv nondimensional_end_to_end_length_per_link (fun (nondimensional_end_to_end_length_per_link : α) => Polymers.wlc.thermodynamics.isometric.nondimensional_helmholtz_free_energy_per_link self.number_of_links self.link_length self.hinge_mass self.nondimensional_persistance_length nondimensional_end_to_end_length_per_link temperature)

/-- `src/physics/single_chain/wlc/thermodynamics/isometric/py.rs` lines 194-197. -/
def WLC.nondimensional_relative_helmholtz_free_energy (self : Polymers.Python.wlc.thermodynamics.isometric.WLC α) (nondimensional_end_to_end_length_per_link : NdArray α) : NdArray α :=
  NdArray.mapv nondimensional_end_to_end_length_per_link (fun (nondimensional_end_to_end_length_per_link : α) => Polymers.wlc.thermodynamics.isometric.nondimensional_relative_helmholtz_free_energy self.nondimensional_persistance_length nondimensional_end_to_end_length_per_link)

/-- `src/physics/single_chain/wlc/thermodynamics/isometric/py.rs` lines 209-212. -/
def WLC.nondimensional_relative_helmholtz_free_energy_per_link (self : Polymers.Python.wlc.thermodynamics.isometric.WLC α) (nondimensional_end_to_end_length_per_link : NdArray α) : NdArray α :=
  NdArray.mapv nondimensional_end_to_end_length_per_link (fun (nondimensional_end_to_end_length_per_link : α) => Polymers.wlc.thermodynamics.isometric.nondimensional_relative_helmholtz_free_energy_per_link self.number_of_links self.nondimensional_persistance_length nondimensional_end_to_end_length_per_link)

/-- `src/physics/single_chain/wlc/thermodynamics/isometric/py.rs` lines 224-227. -/
def WLC.equilibrium_distribution (self : Polymers.Python.wlc.thermodynamics.isometric.WLC α) (end_to_end_length : NdArray α) : NdArray α :=
  NdArray.mapv end_to_end_length (fun (end_to_end_length : α) => Polymers.wlc.thermodynamics.isometric.equilibrium_distribution self.number_of_links self.link_length self.persistance_length self.normalization_nondimensional_equilibrium_distribution end_to_end_length)

/-- `src/physics/single_chain/wlc/thermodynamics/isometric/py.rs` lines 239-242. -/
def WLC.nondimensional_equilibrium_distribution (self : Polymers.Python.wlc.thermodynamics.isometric.WLC α) (nondimensional_end_to_end_length_per_link : NdArray α) : NdArray α :=
  NdArray.mapv nondimensional_end_to_end_length_per_link (fun (nondimensional_end_to_end_length_per_link : α) => Polymers.wlc.thermodynamics.isometric.nondimensional_equilibrium_distribution self.nondimensional_persistance_length self.normalization_nondimensional_equilibrium_distribution nondimensional_end_to_end_length_per_link)

/-- `src/physics/single_chain/wlc/thermodynamics/isometric/py.rs` lines 256-259. -/
def WLC.equilibrium_radial_distribution (self : Polymers.Python.wlc.thermodynamics.isometric.WLC α) (end_to_end_length : NdArray α) : NdArray α :=
  NdArray.mapv end_to_end_length (fun (end_to_end_length : α) => Polymers.wlc.thermodynamics.isometric.equilibrium_radial_distribution self.number_of_links self.link_length self.persistance_length self.normalization_nondimensional_equilibrium_distribution end_to_end_length)

/-- `src/physics/single_chain/wlc/thermodynamics/isometric/py.rs` lines 271-274. -/
def WLC.nondimensional_equilibrium_radial_distribution (self : Polymers.Python.wlc.thermodynamics.isometric.WLC α) (nondimensional_end_to_end_length_per_link : NdArray α) : NdArray α :=
  NdArray.mapv nondimensional_end_to_end_length_per_link (fun (nondimensional_end_to_end_length_per_link : α) => Polymers.wlc.thermodynamics.isometric.nondimensional_equilibrium_radial_distribution self.nondimensional_persistance_length self.normalization_nondimensional_equilibrium_distribution nondimensional_end_to_end_length_per_link)

end Polymers.Python.wlc.thermodynamics.isometric

namespace Polymers.Python.wlc.thermodynamics.isotensional

/-- `src/physics/single_chain/wlc/thermodynamics/isotensional/py.rs` lines 21-44: struct `WLC`. -/
structure WLC (α : Type) where
  /-- field `hinge_mass` -/
  hinge_mass : α
  /-- field `link_length` -/
  link_length : α
  /-- field `number_of_links` -/
  number_of_links : Nat
  /-- field `persistance_length` -/
  persistance_length : α
  /-- field `nondimensional_persistance_length` -/
  nondimensional_persistance_length : α
  /-- field `legendre` -/
  legendre : Polymers.Python.wlc.thermodynamics.isotensional.legendre.WLC α

/-- `src/physics/single_chain/wlc/thermodynamics/isotensional/py.rs` lines 50-61. -/
def WLC.init (number_of_links : Nat) (link_length : α) (hinge_mass : α) (persistance_length : α) : Polymers.Python.wlc.thermodynamics.isotensional.WLC α :=
  { hinge_mass := hinge_mass, link_length := link_length, number_of_links := number_of_links, persistance_length := persistance_length, nondimensional_persistance_length := persistance_length / (number_of_links : α) / link_length, legendre := Polymers.Python.wlc.thermodynamics.isotensional.legendre.WLC.init number_of_links link_length hinge_mass persistance_length }

/-- `src/physics/single_chain/wlc/thermodynamics/isotensional/py.rs` lines 71-74. -/
def WLC.end_to_end_length (self : Polymers.Python.wlc.thermodynamics.isotensional.WLC α) (force : NdArray α) (temperature : α) : NdArray α :=
  NdArray.mapv force (fun (force : α) => Polymers.wlc.thermodynamics.isotensional.end_to_end_length self.number_of_links self.link_length self.persistance_length force temperature)

/-- `src/physics/single_chain/wlc/thermodynamics/isotensional/py.rs` lines 84-87. -/
def WLC.end_to_end_length_per_link (self : Polymers.Python.wlc.thermodynamics.isotensional.WLC α) (force : NdArray α) (temperature : α) : NdArray α :=
  NdArray.mapv force (fun (force : α) => Polymers.wlc.thermodynamics.isotensional.end_to_end_length_per_link self.number_of_links self.link_length self.persistance_length force temperature)

/-- `src/physics/single_chain/wlc/thermodynamics/isotensional/py.rs` lines 96-99. -/
def WLC.nondimensional_end_to_end_length (self : Polymers.Python.wlc.thermodynamics.isotensional.WLC α) (nondimensional_force : NdArray α) : NdArray α :=
  NdArray.mapv nondimensional_force (fun (nondimensional_force : α) => Polymers.wlc.thermodynamics.isotensional.nondimensional_end_to_end_length self.number_of_links self.nondimensional_persistance_length nondimensional_force)

/-- `src/physics/single_chain/wlc/thermodynamics/isotensional/py.rs` lines 108-111. -/
def WLC.nondimensional_end_to_end_length_per_link (self : Polymers.Python.wlc.thermodynamics.isotensional.WLC α) (nondimensional_force : NdArray α) : NdArray α :=
  NdArray.mapv nondimensional_force (fun (nondimensional_force : α) => Polymers.wlc.thermodynamics.isotensional.nondimensional_end_to_end_length_per_link self.number_of_links self.nondimensional_persistance_length nondimensional_force)

/-- `src/physics/single_chain/wlc/thermodynamics/isotensional/py.rs` lines 124-127. -/
def WLC.gibbs_free_energy (self : Polymers.Python.wlc.thermodynamics.isotensional.WLC α) (force : NdArray α) (temperature : α) : NdArray α :=
  NdArray.mapv force (fun (force : α) => Polymers.wlc.thermodynamics.isotensional.gibbs_free_energy self.number_of_links self.link_length self.hinge_mass self.persistance_length force temperature)

/-- `src/physics/single_chain/wlc/thermodynamics/isotensional/py.rs` lines 137-140. -/
def WLC.gibbs_free_energy_per_link (self : Polymers.Python.wlc.thermodynamics.isotensional.WLC α) (force : NdArray α) (temperature : α) : NdArray α :=
  NdArray.mapv force (fun (force : α) => Polymers.wlc.thermodynamics.isotensional.gibbs_free_energy_per_link self.number_of_links self.link_length self.hinge_mass self.persistance_length force temperature)

/-- `src/physics/single_chain/wlc/thermodynamics/isotensional/py.rs` lines 153-156. -/
def WLC.relative_gibbs_free_energy (self : Polymers.Python.wlc.thermodynamics.isotensional.WLC α) (force : NdArray α) (temperature : α) : NdArray α :=
  NdArray.mapv force (fun (force : α) => Polymers.wlc.thermodynamics.isotensional.relative_gibbs_free_energy self.number_of_links self.link_length self.persistance_length force temperature)

/-- `src/physics/single_chain/wlc/thermodynamics/isotensional/py.rs` lines 166-169. -/
def WLC.relative_gibbs_free_energy_per_link (self : Polymers.Python.wlc.thermodynamics.isotensional.WLC α) (force : NdArray α) (temperature : α) : NdArray α :=
  NdArray.mapv force (fun (force : α) => Polymers.wlc.thermodynamics.isotensional.relative_gibbs_free_energy_per_link self.number_of_links self.link_length self.persistance_length force temperature)

/-- `src/physics/single_chain/wlc/thermodynamics/isotensional/py.rs` lines 179-182. -/
def WLC.nondimensional_gibbs_free_energy (self : Polymers.Python.wlc.thermodynamics.isotensional.WLC α) (nondimensional_force : NdArray α) (temperature : α) : NdArray α :=
  NdArray.mapv nondimensional_force (fun (nondimensional_force : α) => Polymers.wlc.thermodynamics.isotensional.nondimensional_gibbs_free_energy self.number_of_links self.link_length self.hinge_mass self.nondimensional_persistance_length nondimensional_force temperature)

/-- `src/physics/single_chain/wlc/thermodynamics/isotensional/py.rs` lines 192-195. -/
def WLC.nondimensional_gibbs_free_energy_per_link (self : Polymers.Python.wlc.thermodynamics.isotensional.WLC α) (nondimensional_force : NdArray α) (temperature : α) : NdArray α :=
  NdArray.mapv nondimensional_force (fun (nondimensional_force : α) => Polymers.wlc.thermodynamics.isotensional.nondimensional_gibbs_free_energy_per_link self.number_of_links self.link_length self.hinge_mass self.nondimensional_persistance_length nondimensional_force temperature)

/-- `src/physics/single_chain/wlc/thermodynamics/isotensional/py.rs` lines 207-210. -/
def WLC.nondimensional_relative_gibbs_free_energy (self : Polymers.Python.wlc.thermodynamics.isotensional.WLC α) (nondimensional_force : NdArray α) : NdArray α :=
  NdArray.mapv nondimensional_force (fun (nondimensional_force : α) => Polymers.wlc.thermodynamics.isotensional.nondimensional_relative_gibbs_free_energy self.number_of_links self.nondimensional_persistance_length nondimensional_force)

/-- `src/physics/single_chain/wlc/thermodynamics/isotensional/py.rs` lines 222-225. -/
def WLC.nondimensional_relative_gibbs_free_energy_per_link (self : Polymers.Python.wlc.thermodynamics.isotensional.WLC α) (nondimensional_force : NdArray α) : NdArray α :=
  NdArray.mapv nondimensional_force (fun (nondimensional_force : α) => Polymers.wlc.thermodynamics.isotensional.nondimensional_relative_gibbs_free_energy_per_link self.number_of_links self.nondimensional_persistance_length nondimensional_force)

end Polymers.Python.wlc.thermodynamics.isotensional

namespace Polymers.Python.wlc.thermodynamics

/-- `src/physics/single_chain/wlc/thermodynamics/py.rs` lines 16-41: struct `WLC`. -/
structure WLC (α : Type) where
  /-- field `hinge_mass` -/
  hinge_mass : α
  /-- field `link_length` -/
  link_length : α
  /-- field `number_of_links` -/
  number_of_links : Nat
  /-- field `persistance_length` -/
  persistance_length : α
  /-- field `isometric` -/
  isometric : Polymers.Python.wlc.thermodynamics.isometric.WLC α
  /-- field `isotensional` -/
  isotensional : Polymers.Python.wlc.thermodynamics.isotensional.WLC α

/-- `src/physics/single_chain/wlc/thermodynamics/py.rs` lines 47-58. -/
def WLC.init (number_of_links : Nat) (link_length : α) (hinge_mass : α) (persistance_length : α) : Polymers.Python.wlc.thermodynamics.WLC α :=
  { hinge_mass := hinge_mass, link_length := link_length, number_of_links := number_of_links, persistance_length := persistance_length, isometric := Polymers.Python.wlc.thermodynamics.isometric.WLC.init number_of_links link_length hinge_mass persistance_length, isotensional := Polymers.Python.wlc.thermodynamics.isotensional.WLC.init number_of_links link_length hinge_mass persistance_length }

end Polymers.Python.wlc.thermodynamics

namespace Polymers.Python.wlc

/-- `src/physics/single_chain/wlc/py.rs` lines 14-35: struct `WLC`. -/
structure WLC (α : Type) where
  /-- field `hinge_mass` -/
  hinge_mass : α
  /-- field `link_length` -/
  link_length : α
  /-- field `number_of_links` -/
  number_of_links : Nat
  /-- field `persistance_length` -/
  persistance_length : α
  /-- field `thermodynamics` -/
  thermodynamics : Polymers.Python.wlc.thermodynamics.WLC α

/-- `src/physics/single_chain/wlc/py.rs` lines 41-51. -/
def WLC.init (number_of_links : Nat) (link_length : α) (hinge_mass : α) (persistance_length : α) : Polymers.Python.wlc.WLC α :=
  { hinge_mass := hinge_mass, link_length := link_length, number_of_links := number_of_links, persistance_length := persistance_length, thermodynamics := Polymers.Python.wlc.thermodynamics.WLC.init number_of_links link_length hinge_mass persistance_length }

end Polymers.Python.wlc
