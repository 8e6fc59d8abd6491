/- Generated by tools/jl2lean.py from the mod.jl files of /repo/src/physics/single_chain/swfjc ; do not edit by hand. -/
import Verif.Model.CSwfjc
import Verif.Model.JuliaBase

set_option linter.unusedVariables false

open Polymers Polymers.Julia

variable {α : Type} [Add α] [Sub α] [Mul α] [Div α] [Neg α] [OfScientific α] [NatCast α] [Elem α]

namespace Polymers.Julia.Swfjc.Thermodynamics.Isometric.Legendre

/-- `src/physics/single_chain/swfjc/thermodynamics/isometric/legendre/mod.jl` lines 15-89: struct `SWFJC`. -/
structure SWFJC (α : Type) where
  /-- field `number_of_links::UInt8` -/
  number_of_links : Nat
  /-- field `link_length::Float64` -/
  link_length : α
  /-- field `hinge_mass::Float64` -/
  hinge_mass : α
  /-- field `well_width::Float64` -/
  well_width : α
  /-- field `normalization_nondimensional_equilibrium_distribution::Float64` -/
  normalization_nondimensional_equilibrium_distribution : α
  /-- field `force::Function` -/
  force : JArr α → JArr α → Option (JArr α)
  /-- field `nondimensional_force::Function` -/
  nondimensional_force : JArr α → Option (JArr α)
  /-- field `helmholtz_free_energy::Function` -/
  helmholtz_free_energy : JArr α → JArr α → Option (JArr α)
  /-- field `helmholtz_free_energy_per_link::Function` -/
  helmholtz_free_energy_per_link : JArr α → JArr α → Option (JArr α)
  /-- field `relative_helmholtz_free_energy::Function` -/
  relative_helmholtz_free_energy : JArr α → JArr α → Option (JArr α)
  /-- field `relative_helmholtz_free_energy_per_link::Function` -/
  relative_helmholtz_free_energy_per_link : JArr α → JArr α → Option (JArr α)
  /-- field `nondimensional_helmholtz_free_energy::Function` -/
  nondimensional_helmholtz_free_energy : JArr α → JArr α → Option (JArr α)
  /-- field `nondimensional_helmholtz_free_energy_per_link::Function` -/
  nondimensional_helmholtz_free_energy_per_link : JArr α → JArr α → Option (JArr α)
  /-- field `nondimensional_relative_helmholtz_free_energy::Function` -/
  nondimensional_relative_helmholtz_free_energy : JArr α → Option (JArr α)
  /-- field `nondimensional_relative_helmholtz_free_energy_per_link::Function` -/
  nondimensional_relative_helmholtz_free_energy_per_link : JArr α → Option (JArr α)
  /-- field `equilibrium_distribution::Function` -/
  equilibrium_distribution : JArr α → Option (JArr α)
  /-- field `nondimensional_equilibrium_distribution::Function` -/
  nondimensional_equilibrium_distribution : JArr α → Option (JArr α)
  /-- field `equilibrium_radial_distribution::Function` -/
  equilibrium_radial_distribution : JArr α → Option (JArr α)
  /-- field `nondimensional_equilibrium_radial_distribution::Function` -/
  nondimensional_equilibrium_radial_distribution : JArr α → Option (JArr α)

end Polymers.Julia.Swfjc.Thermodynamics.Isometric.Legendre

namespace Polymers.Julia.Swfjc.Thermodynamics.Isometric

/-- `src/physics/single_chain/swfjc/thermodynamics/isometric/mod.jl` lines 16-37: struct `SWFJC`. -/
structure SWFJC (α : Type) where
  /-- field `number_of_links::UInt8` -/
  number_of_links : Nat
  /-- field `link_length::Float64` -/
  link_length : α
  /-- field `hinge_mass::Float64` -/
  hinge_mass : α
  /-- field `well_width::Float64` -/
  well_width : α
  /-- field `legendre::Any` -/
  legendre : Polymers.Julia.Swfjc.Thermodynamics.Isometric.Legendre.SWFJC α

end Polymers.Julia.Swfjc.Thermodynamics.Isometric

namespace Polymers.Julia.Swfjc.Thermodynamics.Isotensional.Legendre

/-- `src/physics/single_chain/swfjc/thermodynamics/isotensional/legendre/mod.jl` lines 14-63: struct `SWFJC`. -/
structure SWFJC (α : Type) where
  /-- field `number_of_links::UInt8` -/
  number_of_links : Nat
  /-- field `link_length::Float64` -/
  link_length : α
  /-- field `hinge_mass::Float64` -/
  hinge_mass : α
  /-- field `well_width::Float64` -/
  well_width : α
  /-- field `helmholtz_free_energy::Function` -/
  helmholtz_free_energy : JArr α → JArr α → Option (JArr α)
  /-- field `helmholtz_free_energy_per_link::Function` -/
  helmholtz_free_energy_per_link : JArr α → JArr α → Option (JArr α)
  /-- field `relative_helmholtz_free_energy::Function` -/
  relative_helmholtz_free_energy : JArr α → JArr α → Option (JArr α)
  /-- field `relative_helmholtz_free_energy_per_link::Function` -/
  relative_helmholtz_free_energy_per_link : JArr α → JArr α → Option (JArr α)
  /-- field `nondimensional_helmholtz_free_energy::Function` -/
  nondimensional_helmholtz_free_energy : JArr α → JArr α → Option (JArr α)
  /-- field `nondimensional_helmholtz_free_energy_per_link::Function` -/
  nondimensional_helmholtz_free_energy_per_link : JArr α → JArr α → Option (JArr α)
  /-- field `nondimensional_relative_helmholtz_free_energy::Function` -/
  nondimensional_relative_helmholtz_free_energy : JArr α → Option (JArr α)
  /-- field `nondimensional_relative_helmholtz_free_energy_per_link::Function` -/
  nondimensional_relative_helmholtz_free_energy_per_link : JArr α → Option (JArr α)

end Polymers.Julia.Swfjc.Thermodynamics.Isotensional.Legendre

namespace Polymers.Julia.Swfjc.Thermodynamics.Isotensional

/-- `src/physics/single_chain/swfjc/thermodynamics/isotensional/mod.jl` lines 17-86: struct `SWFJC`. -/
structure SWFJC (α : Type) where
  /-- field `number_of_links::UInt8` -/
  number_of_links : Nat
  /-- field `link_length::Float64` -/
  link_length : α
  /-- field `hinge_mass::Float64` -/
  hinge_mass : α
  /-- field `well_width::Float64` -/
  well_width : α
  /-- field `legendre::Any` -/
  legendre : Polymers.Julia.Swfjc.Thermodynamics.Isotensional.Legendre.SWFJC α
  /-- field `end_to_end_length::Function` -/
  end_to_end_length : JArr α → JArr α → Option (JArr α)
  /-- field `end_to_end_length_per_link::Function` -/
  end_to_end_length_per_link : JArr α → JArr α → Option (JArr α)
  /-- field `nondimensional_end_to_end_length::Function` -/
  nondimensional_end_to_end_length : JArr α → Option (JArr α)
  /-- field `nondimensional_end_to_end_length_per_link::Function` -/
  nondimensional_end_to_end_length_per_link : JArr α → Option (JArr α)
  /-- field `gibbs_free_energy::Function` -/
  gibbs_free_energy : JArr α → JArr α → Option (JArr α)
  /-- field `gibbs_free_energy_per_link::Function` -/
  gibbs_free_energy_per_link : JArr α → JArr α → Option (JArr α)
  /-- field `relative_gibbs_free_energy::Function` -/
  relative_gibbs_free_energy : JArr α → JArr α → Option (JArr α)
  /-- field `relative_gibbs_free_energy_per_link::Function` -/
  relative_gibbs_free_energy_per_link : JArr α → JArr α → Option (JArr α)
  /-- field `nondimensional_gibbs_free_energy::Function` -/
  nondimensional_gibbs_free_energy : JArr α → JArr α → Option (JArr α)
  /-- field `nondimensional_gibbs_free_energy_per_link::Function` -/
  nondimensional_gibbs_free_energy_per_link : JArr α → JArr α → Option (JArr α)
  /-- field `nondimensional_relative_gibbs_free_energy::Function` -/
  nondimensional_relative_gibbs_free_energy : JArr α → Option (JArr α)
  /-- field `nondimensional_relative_gibbs_free_energy_per_link::Function` -/
  nondimensional_relative_gibbs_free_energy_per_link : JArr α → Option (JArr α)

end Polymers.Julia.Swfjc.Thermodynamics.Isotensional

namespace Polymers.Julia.Swfjc.Thermodynamics

/-- `src/physics/single_chain/swfjc/thermodynamics/mod.jl` lines 16-41: struct `SWFJC`. -/
structure SWFJC (α : Type) where
  /-- field `number_of_links::UInt8` -/
  number_of_links : Nat
  /-- field `link_length::Float64` -/
  link_length : α
  /-- field `hinge_mass::Float64` -/
  hinge_mass : α
  /-- field `well_width::Float64` -/
  well_width : α
  /-- field `isometric::Any` -/
  isometric : Polymers.Julia.Swfjc.Thermodynamics.Isometric.SWFJC α
  /-- field `isotensional::Any` -/
  isotensional : Polymers.Julia.Swfjc.Thermodynamics.Isotensional.SWFJC α

end Polymers.Julia.Swfjc.Thermodynamics

namespace Polymers.Julia.Swfjc

/-- `src/physics/single_chain/swfjc/mod.jl` lines 15-36: struct `SWFJC`. -/
structure SWFJC (α : Type) where
  /-- field `number_of_links::UInt8` -/
  number_of_links : Nat
  /-- field `link_length::Float64` -/
  link_length : α
  /-- field `hinge_mass::Float64` -/
  hinge_mass : α
  /-- field `well_width::Float64` -/
  well_width : α
  /-- field `thermodynamics::Any` -/
  thermodynamics : Polymers.Julia.Swfjc.Thermodynamics.SWFJC α

end Polymers.Julia.Swfjc

namespace Polymers.Julia.Swfjc.Thermodynamics.Isometric.Legendre

/-- `src/physics/single_chain/swfjc/thermodynamics/isometric/legendre/mod.jl` lines 626-657. -/
def nondimensional_equilibrium_radial_distribution (number_of_links : JArr Nat) (link_length : JArr α) (well_width : JArr α) (normalization_nondimensional_equilibrium_distribution : α) (nondimensional_end_to_end_length_per_link : JArr α) : Option (JArr α) :=
  JArr.ap (JArr.ap (JArr.ap (JArr.map (fun (number_of_links_i : Nat) (link_length_i : α) (well_width_i : α) (nondimensional_end_to_end_length_per_link_i : α) => Polymers.C.physics_single_chain_swfjc_thermodynamics_isometric_legendre_nondimensional_equilibrium_radial_distribution number_of_links_i link_length_i well_width_i normalization_nondimensional_equilibrium_distribution nondimensional_end_to_end_length_per_link_i) number_of_links) link_length) well_width) nondimensional_end_to_end_length_per_link

/-- `src/physics/single_chain/swfjc/thermodynamics/isometric/legendre/mod.jl` lines 97-130. -/
def force (number_of_links : JArr Nat) (link_length : JArr α) (well_width : JArr α) (end_to_end_length : JArr α) (temperature : JArr α) : Option (JArr α) :=
  JArr.ap (JArr.ap (JArr.ap (JArr.ap (JArr.map (fun (number_of_links_i : Nat) (link_length_i : α) (well_width_i : α) (end_to_end_length_i : α) (temperature_i : α) => Polymers.C.physics_single_chain_swfjc_thermodynamics_isometric_legendre_force number_of_links_i link_length_i well_width_i end_to_end_length_i temperature_i) number_of_links) link_length) well_width) end_to_end_length) temperature

/-- `src/physics/single_chain/swfjc/thermodynamics/isometric/legendre/mod.jl` lines 138-160. -/
def nondimensional_force (link_length : JArr α) (well_width : JArr α) (nondimensional_end_to_end_length_per_link : JArr α) : Option (JArr α) :=
  JArr.ap (JArr.ap (JArr.map (fun (link_length_i : α) (well_width_i : α) (nondimensional_end_to_end_length_per_link_i : α) => Polymers.C.physics_single_chain_swfjc_thermodynamics_isometric_legendre_nondimensional_force link_length_i well_width_i nondimensional_end_to_end_length_per_link_i) link_length) well_width) nondimensional_end_to_end_length_per_link

/-- `src/physics/single_chain/swfjc/thermodynamics/isometric/legendre/mod.jl` lines 174-211. -/
def helmholtz_free_energy (number_of_links : JArr Nat) (link_length : JArr α) (hinge_mass : JArr α) (well_width : JArr α) (end_to_end_length : JArr α) (temperature : JArr α) : Option (JArr α) :=
  JArr.ap (JArr.ap (JArr.ap (JArr.ap (JArr.ap (JArr.map (fun (number_of_links_i : Nat) (link_length_i : α) (hinge_mass_i : α) (well_width_i : α) (end_to_end_length_i : α) (temperature_i : α) => Polymers.C.physics_single_chain_swfjc_thermodynamics_isometric_legendre_helmholtz_free_energy number_of_links_i link_length_i hinge_mass_i well_width_i end_to_end_length_i temperature_i) number_of_links) link_length) hinge_mass) well_width) end_to_end_length) temperature

/-- `src/physics/single_chain/swfjc/thermodynamics/isometric/legendre/mod.jl` lines 219-256. -/
def helmholtz_free_energy_per_link (number_of_links : JArr Nat) (link_length : JArr α) (hinge_mass : JArr α) (well_width : JArr α) (end_to_end_length : JArr α) (temperature : JArr α) : Option (JArr α) :=
  JArr.ap (JArr.ap (JArr.ap (JArr.ap (JArr.ap (JArr.map (fun (number_of_links_i : Nat) (link_length_i : α) (hinge_mass_i : α) (well_width_i : α) (end_to_end_length_i : α) (temperature_i : α) => Polymers.C.physics_single_chain_swfjc_thermodynamics_isometric_legendre_helmholtz_free_energy_per_link number_of_links_i link_length_i hinge_mass_i well_width_i end_to_end_length_i temperature_i) number_of_links) link_length) hinge_mass) well_width) end_to_end_length) temperature

/-- `src/physics/single_chain/swfjc/thermodynamics/isometric/legendre/mod.jl` lines 264-297. -/
def relative_helmholtz_free_energy (number_of_links : JArr Nat) (link_length : JArr α) (well_width : JArr α) (end_to_end_length : JArr α) (temperature : JArr α) : Option (JArr α) :=
  JArr.ap (JArr.ap (JArr.ap (JArr.ap (JArr.map (fun (number_of_links_i : Nat) (link_length_i : α) (well_width_i : α) (end_to_end_length_i : α) (temperature_i : α) => Polymers.C.physics_single_chain_swfjc_thermodynamics_isometric_legendre_relative_helmholtz_free_energy number_of_links_i link_length_i well_width_i end_to_end_length_i temperature_i) number_of_links) link_length) well_width) end_to_end_length) temperature

/-- `src/physics/single_chain/swfjc/thermodynamics/isometric/legendre/mod.jl` lines 305-338. -/
def relative_helmholtz_free_energy_per_link (number_of_links : JArr Nat) (link_length : JArr α) (well_width : JArr α) (end_to_end_length : JArr α) (temperature : JArr α) : Option (JArr α) :=
  JArr.ap (JArr.ap (JArr.ap (JArr.ap (JArr.map (fun (number_of_links_i : Nat) (link_length_i : α) (well_width_i : α) (end_to_end_length_i : α) (temperature_i : α) => Polymers.C.physics_single_chain_swfjc_thermodynamics_isometric_legendre_relative_helmholtz_free_energy_per_link number_of_links_i link_length_i well_width_i end_to_end_length_i temperature_i) number_of_links) link_length) well_width) end_to_end_length) temperature

/-- `src/physics/single_chain/swfjc/thermodynamics/isometric/legendre/mod.jl` lines 346-383. -/
def nondimensional_helmholtz_free_energy (number_of_links : JArr Nat) (link_length : JArr α) (hinge_mass : JArr α) (well_width : JArr α) (nondimensional_end_to_end_length_per_link : JArr α) (temperature : JArr α) : Option (JArr α) :=
  JArr.ap (JArr.ap (JArr.ap (JArr.ap (JArr.ap (JArr.map (fun (number_of_links_i : Nat) (link_length_i : α) (hinge_mass_i : α) (well_width_i : α) (nondimensional_end_to_end_length_per_link_i : α) (temperature_i : α) => Polymers.C.physics_single_chain_swfjc_thermodynamics_isometric_legendre_nondimensional_helmholtz_free_energy number_of_links_i link_length_i hinge_mass_i well_width_i nondimensional_end_to_end_length_per_link_i temperature_i) number_of_links) link_length) hinge_mass) well_width) nondimensional_end_to_end_length_per_link) temperature

/-- `src/physics/single_chain/swfjc/thermodynamics/isometric/legendre/mod.jl` lines 391-428. -/
def nondimensional_helmholtz_free_energy_per_link (number_of_links : JArr Nat) (link_length : JArr α) (hinge_mass : JArr α) (well_width : JArr α) (nondimensional_end_to_end_length_per_link : JArr α) (temperature : JArr α) : Option (JArr α) :=
  JArr.ap (JArr.ap (JArr.ap (JArr.ap (JArr.ap (JArr.map (fun (number_of_links_i : Nat) (link_length_i : α) (hinge_mass_i : α) (well_width_i : α) (nondimensional_end_to_end_length_per_link_i : α) (temperature_i : α) => Polymers.C.physics_single_chain_swfjc_thermodynamics_isometric_legendre_nondimensional_helmholtz_free_energy_per_link number_of_links_i link_length_i hinge_mass_i well_width_i nondimensional_end_to_end_length_per_link_i temperature_i) number_of_links) link_length) hinge_mass) well_width) nondimensional_end_to_end_length_per_link) temperature

/-- `src/physics/single_chain/swfjc/thermodynamics/isometric/legendre/mod.jl` lines 436-465. -/
def nondimensional_relative_helmholtz_free_energy (number_of_links : JArr Nat) (link_length : JArr α) (well_width : JArr α) (nondimensional_end_to_end_length_per_link : JArr α) : Option (JArr α) :=
  JArr.ap (JArr.ap (JArr.ap (JArr.map (fun (number_of_links_i : Nat) (link_length_i : α) (well_width_i : α) (nondimensional_end_to_end_length_per_link_i : α) => Polymers.C.physics_single_chain_swfjc_thermodynamics_isometric_legendre_nondimensional_relative_helmholtz_free_energy number_of_links_i link_length_i well_width_i nondimensional_end_to_end_length_per_link_i) number_of_links) link_length) well_width) nondimensional_end_to_end_length_per_link

/-- `src/physics/single_chain/swfjc/thermodynamics/isometric/legendre/mod.jl` lines 473-495. -/
def nondimensional_relative_helmholtz_free_energy_per_link (link_length : JArr α) (well_width : JArr α) (nondimensional_end_to_end_length_per_link : JArr α) : Option (JArr α) :=
  JArr.ap (JArr.ap (JArr.map (fun (link_length_i : α) (well_width_i : α) (nondimensional_end_to_end_length_per_link_i : α) => Polymers.C.physics_single_chain_swfjc_thermodynamics_isometric_legendre_nondimensional_relative_helmholtz_free_energy_per_link link_length_i well_width_i nondimensional_end_to_end_length_per_link_i) link_length) well_width) nondimensional_end_to_end_length_per_link

/-- `src/physics/single_chain/swfjc/thermodynamics/isometric/legendre/mod.jl` lines 507-533. -/
def equilibrium_distribution (number_of_links : JArr Nat) (link_length : JArr α) (well_width : JArr α) (normalization_nondimensional_equilibrium_distribution : α) (end_to_end_length : JArr α) : Option (JArr α) :=
  JArr.ap (JArr.ap (JArr.ap (JArr.map (fun (number_of_links_i : Nat) (link_length_i : α) (well_width_i : α) (end_to_end_length_i : α) => Polymers.C.physics_single_chain_swfjc_thermodynamics_isometric_legendre_equilibrium_distribution number_of_links_i link_length_i well_width_i normalization_nondimensional_equilibrium_distribution end_to_end_length_i) number_of_links) link_length) well_width) end_to_end_length

/-- `src/physics/single_chain/swfjc/thermodynamics/isometric/legendre/mod.jl` lines 545-576. -/
def nondimensional_equilibrium_distribution (number_of_links : JArr Nat) (link_length : JArr α) (well_width : JArr α) (normalization_nondimensional_equilibrium_distribution : α) (nondimensional_end_to_end_length_per_link : JArr α) : Option (JArr α) :=
  JArr.ap (JArr.ap (JArr.ap (JArr.map (fun (number_of_links_i : Nat) (link_length_i : α) (well_width_i : α) (nondimensional_end_to_end_length_per_link_i : α) => Polymers.C.physics_single_chain_swfjc_thermodynamics_isometric_legendre_nondimensional_equilibrium_distribution number_of_links_i link_length_i well_width_i normalization_nondimensional_equilibrium_distribution nondimensional_end_to_end_length_per_link_i) number_of_links) link_length) well_width) nondimensional_end_to_end_length_per_link

/-- `src/physics/single_chain/swfjc/thermodynamics/isometric/legendre/mod.jl` lines 588-614. -/
def equilibrium_radial_distribution (number_of_links : JArr Nat) (link_length : JArr α) (well_width : JArr α) (normalization_nondimensional_equilibrium_distribution : α) (end_to_end_length : JArr α) : Option (JArr α) :=
  JArr.ap (JArr.ap (JArr.ap (JArr.map (fun (number_of_links_i : Nat) (link_length_i : α) (well_width_i : α) (end_to_end_length_i : α) => Polymers.C.physics_single_chain_swfjc_thermodynamics_isometric_legendre_equilibrium_radial_distribution number_of_links_i link_length_i well_width_i normalization_nondimensional_equilibrium_distribution end_to_end_length_i) number_of_links) link_length) well_width) end_to_end_length

/-- `src/physics/single_chain/swfjc/thermodynamics/isometric/legendre/mod.jl` lines 664-788. -/
def SWFJC.new (number_of_links : Nat) (link_length : α) (hinge_mass : α) (well_width : α) : Polymers.Julia.Swfjc.Thermodynamics.Isometric.Legendre.SWFJC α :=
  let normalization_nondimensional_equilibrium_distribution : α := Polymers.Julia.integrate (fun (nondimensional_end_to_end_length_per_link : α) => JArr.value (Polymers.Julia.Swfjc.Thermodynamics.Isometric.Legendre.nondimensional_equilibrium_radial_distribution (JArr.scalar number_of_links) (JArr.scalar link_length) (JArr.scalar well_width) 1.0 (JArr.scalar nondimensional_end_to_end_length_per_link))) (Polymers.Julia.ZERO : α) ((Polymers.Julia.ONE : α) * (1.0 + well_width / link_length)) Polymers.Julia.POINTS
  Polymers.Julia.Swfjc.Thermodynamics.Isometric.Legendre.SWFJC.mk
    number_of_links
    link_length
    hinge_mass
    well_width
    normalization_nondimensional_equilibrium_distribution
    (fun (end_to_end_length : JArr α) (temperature : JArr α) => Polymers.Julia.Swfjc.Thermodynamics.Isometric.Legendre.force (JArr.scalar number_of_links) (JArr.scalar link_length) (JArr.scalar well_width) end_to_end_length temperature)
    (fun (nondimensional_end_to_end_length_per_link : JArr α) => Polymers.Julia.Swfjc.Thermodynamics.Isometric.Legendre.nondimensional_force (JArr.scalar link_length) (JArr.scalar well_width) nondimensional_end_to_end_length_per_link)
    (fun (end_to_end_length : JArr α) (temperature : JArr α) => Polymers.Julia.Swfjc.Thermodynamics.Isometric.Legendre.helmholtz_free_energy (JArr.scalar number_of_links) (JArr.scalar link_length) (JArr.scalar hinge_mass) (JArr.scalar well_width) end_to_end_length temperature)
    (fun (end_to_end_length : JArr α) (temperature : JArr α) => Polymers.Julia.Swfjc.Thermodynamics.Isometric.Legendre.helmholtz_free_energy_per_link (JArr.scalar number_of_links) (JArr.scalar link_length) (JArr.scalar hinge_mass) (JArr.scalar well_width) end_to_end_length temperature)
    (fun (end_to_end_length : JArr α) (temperature : JArr α) => Polymers.Julia.Swfjc.Thermodynamics.Isometric.Legendre.relative_helmholtz_free_energy (JArr.scalar number_of_links) (JArr.scalar link_length) (JArr.scalar well_width) end_to_end_length temperature)
    (fun (end_to_end_length : JArr α) (temperature : JArr α) => Polymers.Julia.Swfjc.Thermodynamics.Isometric.Legendre.relative_helmholtz_free_energy_per_link (JArr.scalar number_of_links) (JArr.scalar link_length) (JArr.scalar well_width) end_to_end_length temperature)
    (fun (nondimensional_end_to_end_length_per_link : JArr α) (temperature : JArr α) => Polymers.Julia.Swfjc.Thermodynamics.Isometric.Legendre.nondimensional_helmholtz_free_energy (JArr.scalar number_of_links) (JArr.scalar link_length) (JArr.scalar hinge_mass) (JArr.scalar well_width) nondimensional_end_to_end_length_per_link temperature)
    (fun (nondimensional_end_to_end_length_per_link : JArr α) (temperature : JArr α) => Polymers.Julia.Swfjc.Thermodynamics.Isometric.Legendre.nondimensional_helmholtz_free_energy_per_link (JArr.scalar number_of_links) (JArr.scalar link_length) (JArr.scalar hinge_mass) (JArr.scalar well_width) nondimensional_end_to_end_length_per_link temperature)
    (fun (nondimensional_end_to_end_length_per_link : JArr α) => Polymers.Julia.Swfjc.Thermodynamics.Isometric.Legendre.nondimensional_relative_helmholtz_free_energy (JArr.scalar number_of_links) (JArr.scalar link_length) (JArr.scalar well_width) nondimensional_end_to_end_length_per_link)
    (fun (nondimensional_end_to_end_length_per_link : JArr α) => Polymers.Julia.Swfjc.Thermodynamics.Isometric.Legendre.nondimensional_relative_helmholtz_free_energy_per_link (JArr.scalar link_length) (JArr.scalar well_width) nondimensional_end_to_end_length_per_link)
    (fun (end_to_end_length : JArr α) => Polymers.Julia.Swfjc.Thermodynamics.Isometric.Legendre.equilibrium_distribution (JArr.scalar number_of_links) (JArr.scalar link_length) (JArr.scalar well_width) normalization_nondimensional_equilibrium_distribution end_to_end_length)
    (fun (nondimensional_end_to_end_length_per_link : JArr α) => Polymers.Julia.Swfjc.Thermodynamics.Isometric.Legendre.nondimensional_equilibrium_distribution (JArr.scalar number_of_links) (JArr.scalar link_length) (JArr.scalar well_width) normalization_nondimensional_equilibrium_distribution nondimensional_end_to_end_length_per_link)
    (fun (end_to_end_length : JArr α) => Polymers.Julia.Swfjc.Thermodynamics.Isometric.Legendre.equilibrium_radial_distribution (JArr.scalar number_of_links) (JArr.scalar link_length) (JArr.scalar well_width) normalization_nondimensional_equilibrium_distribution end_to_end_length)
    (fun (nondimensional_end_to_end_length_per_link : JArr α) => Polymers.Julia.Swfjc.Thermodynamics.Isometric.Legendre.nondimensional_equilibrium_radial_distribution (JArr.scalar number_of_links) (JArr.scalar link_length) (JArr.scalar well_width) normalization_nondimensional_equilibrium_distribution nondimensional_end_to_end_length_per_link)

end Polymers.Julia.Swfjc.Thermodynamics.Isometric.Legendre

namespace Polymers.Julia.Swfjc.Thermodynamics.Isometric

/-- `src/physics/single_chain/swfjc/thermodynamics/isometric/mod.jl` lines 44-57. -/
def SWFJC.new (number_of_links : Nat) (link_length : α) (hinge_mass : α) (well_width : α) : Polymers.Julia.Swfjc.Thermodynamics.Isometric.SWFJC α :=
  Polymers.Julia.Swfjc.Thermodynamics.Isometric.SWFJC.mk
    number_of_links
    link_length
    hinge_mass
    well_width
    (Polymers.Julia.Swfjc.Thermodynamics.Isometric.Legendre.SWFJC.new number_of_links link_length hinge_mass well_width)

end Polymers.Julia.Swfjc.Thermodynamics.Isometric

namespace Polymers.Julia.Swfjc.Thermodynamics.Isotensional.Legendre

/-- `src/physics/single_chain/swfjc/thermodynamics/isotensional/legendre/mod.jl` lines 75-112. -/
def helmholtz_free_energy (number_of_links : JArr Nat) (link_length : JArr α) (hinge_mass : JArr α) (well_width : JArr α) (force : JArr α) (temperature : JArr α) : Option (JArr α) :=
  JArr.ap (JArr.ap (JArr.ap (JArr.ap (JArr.ap (JArr.map (fun (number_of_links_i : Nat) (link_length_i : α) (hinge_mass_i : α) (well_width_i : α) (force_i : α) (temperature_i : α) => Polymers.C.physics_single_chain_swfjc_thermodynamics_isotensional_legendre_helmholtz_free_energy number_of_links_i link_length_i hinge_mass_i well_width_i force_i temperature_i) number_of_links) link_length) hinge_mass) well_width) force) temperature

/-- `src/physics/single_chain/swfjc/thermodynamics/isotensional/legendre/mod.jl` lines 120-147. -/
def helmholtz_free_energy_per_link (link_length : JArr α) (hinge_mass : JArr α) (well_width : JArr α) (force : JArr α) (temperature : JArr α) : Option (JArr α) :=
  JArr.ap (JArr.ap (JArr.ap (JArr.ap (JArr.map (fun (link_length_i : α) (hinge_mass_i : α) (well_width_i : α) (force_i : α) (temperature_i : α) => Polymers.C.physics_single_chain_swfjc_thermodynamics_isotensional_legendre_helmholtz_free_energy_per_link link_length_i hinge_mass_i well_width_i force_i temperature_i) link_length) hinge_mass) well_width) force) temperature

/-- `src/physics/single_chain/swfjc/thermodynamics/isotensional/legendre/mod.jl` lines 155-182. -/
def relative_helmholtz_free_energy (number_of_links : JArr Nat) (link_length : JArr α) (well_width : JArr α) (force : JArr α) (temperature : JArr α) : Option (JArr α) :=
  JArr.ap (JArr.ap (JArr.ap (JArr.ap (JArr.map (fun (number_of_links_i : Nat) (link_length_i : α) (well_width_i : α) (force_i : α) (temperature_i : α) => Polymers.C.physics_single_chain_swfjc_thermodynamics_isotensional_legendre_relative_helmholtz_free_energy number_of_links_i link_length_i well_width_i force_i temperature_i) number_of_links) link_length) well_width) force) temperature

/-- `src/physics/single_chain/swfjc/thermodynamics/isotensional/legendre/mod.jl` lines 190-214. -/
def relative_helmholtz_free_energy_per_link (link_length : JArr α) (well_width : JArr α) (force : JArr α) (temperature : JArr α) : Option (JArr α) :=
  JArr.ap (JArr.ap (JArr.ap (JArr.map (fun (link_length_i : α) (well_width_i : α) (force_i : α) (temperature_i : α) => Polymers.C.physics_single_chain_swfjc_thermodynamics_isotensional_legendre_relative_helmholtz_free_energy_per_link link_length_i well_width_i force_i temperature_i) link_length) well_width) force) temperature

/-- `src/physics/single_chain/swfjc/thermodynamics/isotensional/legendre/mod.jl` lines 222-259. -/
def nondimensional_helmholtz_free_energy (number_of_links : JArr Nat) (link_length : JArr α) (hinge_mass : JArr α) (well_width : JArr α) (nondimensional_force : JArr α) (temperature : JArr α) : Option (JArr α) :=
  JArr.ap (JArr.ap (JArr.ap (JArr.ap (JArr.ap (JArr.map (fun (number_of_links_i : Nat) (link_length_i : α) (hinge_mass_i : α) (well_width_i : α) (nondimensional_force_i : α) (temperature_i : α) => Polymers.C.physics_single_chain_swfjc_thermodynamics_isotensional_legendre_nondimensional_helmholtz_free_energy number_of_links_i link_length_i hinge_mass_i well_width_i nondimensional_force_i temperature_i) number_of_links) link_length) hinge_mass) well_width) nondimensional_force) temperature

/-- `src/physics/single_chain/swfjc/thermodynamics/isotensional/legendre/mod.jl` lines 267-300. -/
def nondimensional_helmholtz_free_energy_per_link (link_length : JArr α) (hinge_mass : JArr α) (well_width : JArr α) (nondimensional_force : JArr α) (temperature : JArr α) : Option (JArr α) :=
  JArr.ap (JArr.ap (JArr.ap (JArr.ap (JArr.map (fun (link_length_i : α) (hinge_mass_i : α) (well_width_i : α) (nondimensional_force_i : α) (temperature_i : α) => Polymers.C.physics_single_chain_swfjc_thermodynamics_isotensional_legendre_nondimensional_helmholtz_free_energy_per_link link_length_i hinge_mass_i well_width_i nondimensional_force_i temperature_i) link_length) hinge_mass) well_width) nondimensional_force) temperature

/-- `src/physics/single_chain/swfjc/thermodynamics/isotensional/legendre/mod.jl` lines 308-332. -/
def nondimensional_relative_helmholtz_free_energy (number_of_links : JArr Nat) (link_length : JArr α) (well_width : JArr α) (nondimensional_force : JArr α) : Option (JArr α) :=
  JArr.ap (JArr.ap (JArr.ap (JArr.map (fun (number_of_links_i : Nat) (link_length_i : α) (well_width_i : α) (nondimensional_force_i : α) => Polymers.C.physics_single_chain_swfjc_thermodynamics_isotensional_legendre_nondimensional_relative_helmholtz_free_energy number_of_links_i link_length_i well_width_i nondimensional_force_i) number_of_links) link_length) well_width) nondimensional_force

/-- `src/physics/single_chain/swfjc/thermodynamics/isotensional/legendre/mod.jl` lines 340-361. -/
def nondimensional_relative_helmholtz_free_energy_per_link (link_length : JArr α) (well_width : JArr α) (nondimensional_force : JArr α) : Option (JArr α) :=
  JArr.ap (JArr.ap (JArr.map (fun (link_length_i : α) (well_width_i : α) (nondimensional_force_i : α) => Polymers.C.physics_single_chain_swfjc_thermodynamics_isotensional_legendre_nondimensional_relative_helmholtz_free_energy_per_link link_length_i well_width_i nondimensional_force_i) link_length) well_width) nondimensional_force

/-- `src/physics/single_chain/swfjc/thermodynamics/isotensional/legendre/mod.jl` lines 368-435. -/
def SWFJC.new (number_of_links : Nat) (link_length : α) (hinge_mass : α) (well_width : α) : Polymers.Julia.Swfjc.Thermodynamics.Isotensional.Legendre.SWFJC α :=
  Polymers.Julia.Swfjc.Thermodynamics.Isotensional.Legendre.SWFJC.mk
    number_of_links
    link_length
    hinge_mass
    well_width
    (fun (force : JArr α) (temperature : JArr α) => Polymers.Julia.Swfjc.Thermodynamics.Isotensional.Legendre.helmholtz_free_energy (JArr.scalar number_of_links) (JArr.scalar link_length) (JArr.scalar hinge_mass) (JArr.scalar well_width) force temperature)
    (fun (force : JArr α) (temperature : JArr α) => Polymers.Julia.Swfjc.Thermodynamics.Isotensional.Legendre.helmholtz_free_energy_per_link (JArr.scalar link_length) (JArr.scalar hinge_mass) (JArr.scalar well_width) force temperature)
    (fun (force : JArr α) (temperature : JArr α) => Polymers.Julia.Swfjc.Thermodynamics.Isotensional.Legendre.relative_helmholtz_free_energy (JArr.scalar number_of_links) (JArr.scalar link_length) (JArr.scalar well_width) force temperature)
    (fun (force : JArr α) (temperature : JArr α) => Polymers.Julia.Swfjc.Thermodynamics.Isotensional.Legendre.relative_helmholtz_free_energy_per_link (JArr.scalar link_length) (JArr.scalar well_width) force temperature)
    (fun (nondimensional_force : JArr α) (temperature : JArr α) => Polymers.Julia.Swfjc.Thermodynamics.Isotensional.Legendre.nondimensional_helmholtz_free_energy (JArr.scalar number_of_links) (JArr.scalar link_length) (JArr.scalar hinge_mass) (JArr.scalar well_width) nondimensional_force temperature)
    (fun (nondimensional_force : JArr α) (temperature : JArr α) => Polymers.Julia.Swfjc.Thermodynamics.Isotensional.Legendre.nondimensional_helmholtz_free_energy_per_link (JArr.scalar link_length) (JArr.scalar hinge_mass) (JArr.scalar well_width) nondimensional_force temperature)
    (fun (nondimensional_force : JArr α) => Polymers.Julia.Swfjc.Thermodynamics.Isotensional.Legendre.nondimensional_relative_helmholtz_free_energy (JArr.scalar number_of_links) (JArr.scalar link_length) (JArr.scalar well_width) nondimensional_force)
    (fun (nondimensional_force : JArr α) => Polymers.Julia.Swfjc.Thermodynamics.Isotensional.Legendre.nondimensional_relative_helmholtz_free_energy_per_link (JArr.scalar link_length) (JArr.scalar well_width) nondimensional_force)

end Polymers.Julia.Swfjc.Thermodynamics.Isotensional.Legendre

namespace Polymers.Julia.Swfjc.Thermodynamics.Isotensional

/-- `src/physics/single_chain/swfjc/thermodynamics/isotensional/mod.jl` lines 98-125. -/
def end_to_end_length (number_of_links : JArr Nat) (link_length : JArr α) (well_width : JArr α) (force : JArr α) (temperature : JArr α) : Option (JArr α) :=
  JArr.ap (JArr.ap (JArr.ap (JArr.ap (JArr.map (fun (number_of_links_i : Nat) (link_length_i : α) (well_width_i : α) (force_i : α) (temperature_i : α) => Polymers.C.physics_single_chain_swfjc_thermodynamics_isotensional_end_to_end_length number_of_links_i link_length_i well_width_i force_i temperature_i) number_of_links) link_length) well_width) force) temperature

/-- `src/physics/single_chain/swfjc/thermodynamics/isotensional/mod.jl` lines 133-157. -/
def end_to_end_length_per_link (link_length : JArr α) (well_width : JArr α) (force : JArr α) (temperature : JArr α) : Option (JArr α) :=
  JArr.ap (JArr.ap (JArr.ap (JArr.map (fun (link_length_i : α) (well_width_i : α) (force_i : α) (temperature_i : α) => Polymers.C.physics_single_chain_swfjc_thermodynamics_isotensional_end_to_end_length_per_link link_length_i well_width_i force_i temperature_i) link_length) well_width) force) temperature

/-- `src/physics/single_chain/swfjc/thermodynamics/isotensional/mod.jl` lines 165-189. -/
def nondimensional_end_to_end_length (number_of_links : JArr Nat) (link_length : JArr α) (well_width : JArr α) (nondimensional_force : JArr α) : Option (JArr α) :=
  JArr.ap (JArr.ap (JArr.ap (JArr.map (fun (number_of_links_i : Nat) (link_length_i : α) (well_width_i : α) (nondimensional_force_i : α) => Polymers.C.physics_single_chain_swfjc_thermodynamics_isotensional_nondimensional_end_to_end_length number_of_links_i link_length_i well_width_i nondimensional_force_i) number_of_links) link_length) well_width) nondimensional_force

/-- `src/physics/single_chain/swfjc/thermodynamics/isotensional/mod.jl` lines 205-226. -/
def nondimensional_end_to_end_length_per_link (link_length : JArr α) (well_width : JArr α) (nondimensional_force : JArr α) : Option (JArr α) :=
  JArr.ap (JArr.ap (JArr.map (fun (link_length_i : α) (well_width_i : α) (nondimensional_force_i : α) => Polymers.C.physics_single_chain_swfjc_thermodynamics_isotensional_nondimensional_end_to_end_length_per_link link_length_i well_width_i nondimensional_force_i) link_length) well_width) nondimensional_force

/-- `src/physics/single_chain/swfjc/thermodynamics/isotensional/mod.jl` lines 238-275. -/
def gibbs_free_energy (number_of_links : JArr Nat) (link_length : JArr α) (hinge_mass : JArr α) (well_width : JArr α) (force : JArr α) (temperature : JArr α) : Option (JArr α) :=
  JArr.ap (JArr.ap (JArr.ap (JArr.ap (JArr.ap (JArr.map (fun (number_of_links_i : Nat) (link_length_i : α) (hinge_mass_i : α) (well_width_i : α) (force_i : α) (temperature_i : α) => Polymers.C.physics_single_chain_swfjc_thermodynamics_isotensional_gibbs_free_energy number_of_links_i link_length_i hinge_mass_i well_width_i force_i temperature_i) number_of_links) link_length) hinge_mass) well_width) force) temperature

/-- `src/physics/single_chain/swfjc/thermodynamics/isotensional/mod.jl` lines 283-310. -/
def gibbs_free_energy_per_link (link_length : JArr α) (hinge_mass : JArr α) (well_width : JArr α) (force : JArr α) (temperature : JArr α) : Option (JArr α) :=
  JArr.ap (JArr.ap (JArr.ap (JArr.ap (JArr.map (fun (link_length_i : α) (hinge_mass_i : α) (well_width_i : α) (force_i : α) (temperature_i : α) => Polymers.C.physics_single_chain_swfjc_thermodynamics_isotensional_gibbs_free_energy_per_link link_length_i hinge_mass_i well_width_i force_i temperature_i) link_length) hinge_mass) well_width) force) temperature

/-- `src/physics/single_chain/swfjc/thermodynamics/isotensional/mod.jl` lines 318-345. -/
def relative_gibbs_free_energy (number_of_links : JArr Nat) (link_length : JArr α) (well_width : JArr α) (force : JArr α) (temperature : JArr α) : Option (JArr α) :=
  JArr.ap (JArr.ap (JArr.ap (JArr.ap (JArr.map (fun (number_of_links_i : Nat) (link_length_i : α) (well_width_i : α) (force_i : α) (temperature_i : α) => Polymers.C.physics_single_chain_swfjc_thermodynamics_isotensional_relative_gibbs_free_energy number_of_links_i link_length_i well_width_i force_i temperature_i) number_of_links) link_length) well_width) force) temperature

/-- `src/physics/single_chain/swfjc/thermodynamics/isotensional/mod.jl` lines 353-377. -/
def relative_gibbs_free_energy_per_link (link_length : JArr α) (well_width : JArr α) (force : JArr α) (temperature : JArr α) : Option (JArr α) :=
  JArr.ap (JArr.ap (JArr.ap (JArr.map (fun (link_length_i : α) (well_width_i : α) (force_i : α) (temperature_i : α) => Polymers.C.physics_single_chain_swfjc_thermodynamics_isotensional_relative_gibbs_free_energy_per_link link_length_i well_width_i force_i temperature_i) link_length) well_width) force) temperature

/-- `src/physics/single_chain/swfjc/thermodynamics/isotensional/mod.jl` lines 385-422. -/
def nondimensional_gibbs_free_energy (number_of_links : JArr Nat) (link_length : JArr α) (hinge_mass : JArr α) (well_width : JArr α) (nondimensional_force : JArr α) (temperature : JArr α) : Option (JArr α) :=
  JArr.ap (JArr.ap (JArr.ap (JArr.ap (JArr.ap (JArr.map (fun (number_of_links_i : Nat) (link_length_i : α) (hinge_mass_i : α) (well_width_i : α) (nondimensional_force_i : α) (temperature_i : α) => Polymers.C.physics_single_chain_swfjc_thermodynamics_isotensional_nondimensional_gibbs_free_energy number_of_links_i link_length_i hinge_mass_i well_width_i nondimensional_force_i temperature_i) number_of_links) link_length) hinge_mass) well_width) nondimensional_force) temperature

/-- `src/physics/single_chain/swfjc/thermodynamics/isotensional/mod.jl` lines 430-463. -/
def nondimensional_gibbs_free_energy_per_link (link_length : JArr α) (hinge_mass : JArr α) (well_width : JArr α) (nondimensional_force : JArr α) (temperature : JArr α) : Option (JArr α) :=
  JArr.ap (JArr.ap (JArr.ap (JArr.ap (JArr.map (fun (link_length_i : α) (hinge_mass_i : α) (well_width_i : α) (nondimensional_force_i : α) (temperature_i : α) => Polymers.C.physics_single_chain_swfjc_thermodynamics_isotensional_nondimensional_gibbs_free_energy_per_link link_length_i hinge_mass_i well_width_i nondimensional_force_i temperature_i) link_length) hinge_mass) well_width) nondimensional_force) temperature

/-- `src/physics/single_chain/swfjc/thermodynamics/isotensional/mod.jl` lines 471-495. -/
def nondimensional_relative_gibbs_free_energy (number_of_links : JArr Nat) (link_length : JArr α) (well_width : JArr α) (nondimensional_force : JArr α) : Option (JArr α) :=
  JArr.ap (JArr.ap (JArr.ap (JArr.map (fun (number_of_links_i : Nat) (link_length_i : α) (well_width_i : α) (nondimensional_force_i : α) => Polymers.C.physics_single_chain_swfjc_thermodynamics_isotensional_nondimensional_relative_gibbs_free_energy number_of_links_i link_length_i well_width_i nondimensional_force_i) number_of_links) link_length) well_width) nondimensional_force

/-- `src/physics/single_chain/swfjc/thermodynamics/isotensional/mod.jl` lines 511-532. -/
def nondimensional_relative_gibbs_free_energy_per_link (link_length : JArr α) (well_width : JArr α) (nondimensional_force : JArr α) : Option (JArr α) :=
  JArr.ap (JArr.ap (JArr.map (fun (link_length_i : α) (well_width_i : α) (nondimensional_force_i : α) => Polymers.C.physics_single_chain_swfjc_thermodynamics_isotensional_nondimensional_relative_gibbs_free_energy_per_link link_length_i well_width_i nondimensional_force_i) link_length) well_width) nondimensional_force

/-- `src/physics/single_chain/swfjc/thermodynamics/isotensional/mod.jl` lines 539-621. -/
def SWFJC.new (number_of_links : Nat) (link_length : α) (hinge_mass : α) (well_width : α) : Polymers.Julia.Swfjc.Thermodynamics.Isotensional.SWFJC α :=
  Polymers.Julia.Swfjc.Thermodynamics.Isotensional.SWFJC.mk
    number_of_links
    link_length
    hinge_mass
    well_width
    (Polymers.Julia.Swfjc.Thermodynamics.Isotensional.Legendre.SWFJC.new number_of_links link_length hinge_mass well_width)
    (fun (force : JArr α) (temperature : JArr α) => Polymers.Julia.Swfjc.Thermodynamics.Isotensional.end_to_end_length (JArr.scalar number_of_links) (JArr.scalar link_length) (JArr.scalar well_width) force temperature)
    (fun (force : JArr α) (temperature : JArr α) => Polymers.Julia.Swfjc.Thermodynamics.Isotensional.end_to_end_length_per_link (JArr.scalar link_length) (JArr.scalar well_width) force temperature)
    (fun (nondimensional_force : JArr α) => Polymers.Julia.Swfjc.Thermodynamics.Isotensional.nondimensional_end_to_end_length (JArr.scalar number_of_links) (JArr.scalar link_length) (JArr.scalar well_width) nondimensional_force)
    (fun (nondimensional_force : JArr α) => Polymers.Julia.Swfjc.Thermodynamics.Isotensional.nondimensional_end_to_end_length_per_link (JArr.scalar link_length) (JArr.scalar well_width) nondimensional_force)
    (fun (force : JArr α) (temperature : JArr α) => Polymers.Julia.Swfjc.Thermodynamics.Isotensional.gibbs_free_energy (JArr.scalar number_of_links) (JArr.scalar link_length) (JArr.scalar hinge_mass) (JArr.scalar well_width) force temperature)
    (fun (force : JArr α) (temperature : JArr α) => Polymers.Julia.Swfjc.Thermodynamics.Isotensional.gibbs_free_energy_per_link (JArr.scalar link_length) (JArr.scalar hinge_mass) (JArr.scalar well_width) force temperature)
    (fun (force : JArr α) (temperature : JArr α) => Polymers.Julia.Swfjc.Thermodynamics.Isotensional.relative_gibbs_free_energy (JArr.scalar number_of_links) (JArr.scalar link_length) (JArr.scalar well_width) force temperature)
    (fun (force : JArr α) (temperature : JArr α) => Polymers.Julia.Swfjc.Thermodynamics.Isotensional.relative_gibbs_free_energy_per_link (JArr.scalar link_length) (JArr.scalar well_width) force temperature)
    (fun (nondimensional_force : JArr α) (temperature : JArr α) => Polymers.Julia.Swfjc.Thermodynamics.Isotensional.nondimensional_gibbs_free_energy (JArr.scalar number_of_links) (JArr.scalar link_length) (JArr.scalar hinge_mass) (JArr.scalar well_width) nondimensional_force temperature)
    (fun (nondimensional_force : JArr α) (temperature : JArr α) => Polymers.Julia.Swfjc.Thermodynamics.Isotensional.nondimensional_gibbs_free_energy_per_link (JArr.scalar link_length) (JArr.scalar hinge_mass) (JArr.scalar well_width) nondimensional_force temperature)
    (fun (nondimensional_force : JArr α) => Polymers.Julia.Swfjc.Thermodynamics.Isotensional.nondimensional_relative_gibbs_free_energy (JArr.scalar number_of_links) (JArr.scalar link_length) (JArr.scalar well_width) nondimensional_force)
    (fun (nondimensional_force : JArr α) => Polymers.Julia.Swfjc.Thermodynamics.Isotensional.nondimensional_relative_gibbs_free_energy_per_link (JArr.scalar link_length) (JArr.scalar well_width) nondimensional_force)

end Polymers.Julia.Swfjc.Thermodynamics.Isotensional

namespace Polymers.Julia.Swfjc.Thermodynamics

/-- `src/physics/single_chain/swfjc/thermodynamics/mod.jl` lines 48-62. -/
def SWFJC.new (number_of_links : Nat) (link_length : α) (hinge_mass : α) (well_width : α) : Polymers.Julia.Swfjc.Thermodynamics.SWFJC α :=
  Polymers.Julia.Swfjc.Thermodynamics.SWFJC.mk
    number_of_links
    link_length
    hinge_mass
    well_width
    (Polymers.Julia.Swfjc.Thermodynamics.Isometric.SWFJC.new number_of_links link_length hinge_mass well_width)
    (Polymers.Julia.Swfjc.Thermodynamics.Isotensional.SWFJC.new number_of_links link_length hinge_mass well_width)

end Polymers.Julia.Swfjc.Thermodynamics

namespace Polymers.Julia.Swfjc

/-- `src/physics/single_chain/swfjc/mod.jl` lines 43-56. -/
def SWFJC.new (number_of_links : Nat) (link_length : α) (hinge_mass : α) (well_width : α) : Polymers.Julia.Swfjc.SWFJC α :=
  Polymers.Julia.Swfjc.SWFJC.mk
    number_of_links
    link_length
    hinge_mass
    well_width
    (Polymers.Julia.Swfjc.Thermodynamics.SWFJC.new number_of_links link_length hinge_mass well_width)

end Polymers.Julia.Swfjc
