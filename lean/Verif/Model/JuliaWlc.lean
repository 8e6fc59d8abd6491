/- Generated by tools/jl2lean.py from the mod.jl files of /repo/src/physics/single_chain/wlc ; do not edit by hand. -/
import Verif.Model.CWlc
import Verif.Model.JuliaBase

set_option linter.unusedVariables false

open Polymers Polymers.Julia

variable {α : Type} [Add α] [Sub α] [Mul α] [Div α] [Neg α] [OfScientific α] [NatCast α] [Elem α]

namespace Polymers.Julia.Wlc.Thermodynamics.Isometric.Legendre

/-- `src/physics/single_chain/wlc/thermodynamics/isometric/legendre/mod.jl` lines 14-64: struct `WLC`. -/
structure WLC (α : Type) where
  /-- field `number_of_links::UInt8` -/
  number_of_links : Nat
  /-- field `link_length::Float64` -/
  link_length : α
  /-- field `hinge_mass::Float64` -/
  hinge_mass : α
  /-- field `persistance_length::Float64` -/
  persistance_length : α
  /-- field `nondimensional_persistance_length::Float64` -/
  nondimensional_persistance_length : α
  /-- field `gibbs_free_energy::Function` -/
  gibbs_free_energy : JArr α → JArr α → Option (JArr α)
  /-- field `gibbs_free_energy_per_link::Function` -/
  gibbs_free_energy_per_link : JArr α → JArr α → Option (JArr α)
  /-- field `relative_gibbs_free_energy::Function` -/
  relative_gibbs_free_energy : JArr α → JArr α → Option (JArr α)
  /-- field `relative_gibbs_free_energy_per_link::Function` -/
  relative_gibbs_free_energy_per_link : JArr α → JArr α → Option (JArr α)
  /-- field `nondimensional_gibbs_free_energy::Function` -/
  nondimensional_gibbs_free_energy : JArr α → JArr α → Option (JArr α)
  /-- field `nondimensional_gibbs_free_energy_per_link::Function` -/
  nondimensional_gibbs_free_energy_per_link : JArr α → JArr α → Option (JArr α)
  /-- field `nondimensional_relative_gibbs_free_energy::Function` -/
  nondimensional_relative_gibbs_free_energy : JArr α → Option (JArr α)
  /-- field `nondimensional_relative_gibbs_free_energy_per_link::Function` -/
  nondimensional_relative_gibbs_free_energy_per_link : JArr α → Option (JArr α)

end Polymers.Julia.Wlc.Thermodynamics.Isometric.Legendre

namespace Polymers.Julia.Wlc.Thermodynamics.Isometric

/-- `src/physics/single_chain/wlc/thermodynamics/isometric/mod.jl` lines 18-97: struct `WLC`. -/
structure WLC (α : Type) where
  /-- field `number_of_links::UInt8` -/
  number_of_links : Nat
  /-- field `link_length::Float64` -/
  link_length : α
  /-- field `hinge_mass::Float64` -/
  hinge_mass : α
  /-- field `persistance_length::Float64` -/
  persistance_length : α
  /-- field `nondimensional_persistance_length::Float64` -/
  nondimensional_persistance_length : α
  /-- field `normalization_nondimensional_equilibrium_distribution::Float64` -/
  normalization_nondimensional_equilibrium_distribution : α
  /-- field `legendre::Any` -/
  legendre : Polymers.Julia.Wlc.Thermodynamics.Isometric.Legendre.WLC α
  /-- field `force::Function` -/
  force : JArr α → JArr α → Option (JArr α)
  /-- field `nondimensional_force::Function` -/
  nondimensional_force : JArr α → Option (JArr α)
  /-- field `helmholtz_free_energy::Function` -/
  helmholtz_free_energy : JArr α → JArr α → Option (JArr α)
  /-- field `helmholtz_free_energy_per_link::Function` -/
  helmholtz_free_energy_per_link : JArr α → JArr α → Option (JArr α)
  /-- field `relative_helmholtz_free_energy::Function` -/
  relative_helmholtz_free_energy : JArr α → JArr α → Option (JArr α)
  /-- field `relative_helmholtz_free_energy_per_link::Function` -/
  relative_helmholtz_free_energy_per_link : JArr α → JArr α → Option (JArr α)
  /-- field `nondimensional_helmholtz_free_energy::Function` -/
  nondimensional_helmholtz_free_energy : JArr α → JArr α → Option (JArr α)
  /-- field `nondimensional_helmholtz_free_energy_per_link::Function` -/
  nondimensional_helmholtz_free_energy_per_link : JArr α → JArr α → Option (JArr α)
  /-- field `nondimensional_relative_helmholtz_free_energy::Function` -/
  nondimensional_relative_helmholtz_free_energy : JArr α → Option (JArr α)
  /-- field `nondimensional_relative_helmholtz_free_energy_per_link::Function` -/
  nondimensional_relative_helmholtz_free_energy_per_link : JArr α → Option (JArr α)
  /-- field `equilibrium_distribution::Function` -/
  equilibrium_distribution : JArr α → Option (JArr α)
  /-- field `nondimensional_equilibrium_distribution::Function` -/
  nondimensional_equilibrium_distribution : JArr α → Option (JArr α)
  /-- field `equilibrium_radial_distribution::Function` -/
  equilibrium_radial_distribution : JArr α → Option (JArr α)
  /-- field `nondimensional_equilibrium_radial_distribution::Function` -/
  nondimensional_equilibrium_radial_distribution : JArr α → Option (JArr α)

end Polymers.Julia.Wlc.Thermodynamics.Isometric

namespace Polymers.Julia.Wlc.Thermodynamics.Isotensional.Legendre

/-- `src/physics/single_chain/wlc/thermodynamics/isotensional/legendre/mod.jl` lines 14-64: struct `WLC`. -/
structure WLC (α : Type) where
  /-- field `number_of_links::UInt8` -/
  number_of_links : Nat
  /-- field `link_length::Float64` -/
  link_length : α
  /-- field `hinge_mass::Float64` -/
  hinge_mass : α
  /-- field `persistance_length::Float64` -/
  persistance_length : α
  /-- field `nondimensional_persistance_length::Float64` -/
  nondimensional_persistance_length : α
  /-- field `helmholtz_free_energy::Function` -/
  helmholtz_free_energy : JArr α → JArr α → Option (JArr α)
  /-- field `helmholtz_free_energy_per_link::Function` -/
  helmholtz_free_energy_per_link : JArr α → JArr α → Option (JArr α)
  /-- field `relative_helmholtz_free_energy::Function` -/
  relative_helmholtz_free_energy : JArr α → JArr α → Option (JArr α)
  /-- field `relative_helmholtz_free_energy_per_link::Function` -/
  relative_helmholtz_free_energy_per_link : JArr α → JArr α → Option (JArr α)
  /-- field `nondimensional_helmholtz_free_energy::Function` -/
  nondimensional_helmholtz_free_energy : JArr α → JArr α → Option (JArr α)
  /-- field `nondimensional_helmholtz_free_energy_per_link::Function` -/
  nondimensional_helmholtz_free_energy_per_link : JArr α → JArr α → Option (JArr α)
  /-- field `nondimensional_relative_helmholtz_free_energy::Function` -/
  nondimensional_relative_helmholtz_free_energy : JArr α → Option (JArr α)
  /-- field `nondimensional_relative_helmholtz_free_energy_per_link::Function` -/
  nondimensional_relative_helmholtz_free_energy_per_link : JArr α → Option (JArr α)

end Polymers.Julia.Wlc.Thermodynamics.Isotensional.Legendre

namespace Polymers.Julia.Wlc.Thermodynamics.Isotensional

/-- `src/physics/single_chain/wlc/thermodynamics/isotensional/mod.jl` lines 17-87: struct `WLC`. -/
structure WLC (α : Type) where
  /-- field `number_of_links::UInt8` -/
  number_of_links : Nat
  /-- field `link_length::Float64` -/
  link_length : α
  /-- field `hinge_mass::Float64` -/
  hinge_mass : α
  /-- field `persistance_length::Float64` -/
  persistance_length : α
  /-- field `nondimensional_persistance_length::Float64` -/
  nondimensional_persistance_length : α
  /-- field `legendre::Any` -/
  legendre : Polymers.Julia.Wlc.Thermodynamics.Isotensional.Legendre.WLC α
  /-- field `end_to_end_length::Function` -/
  end_to_end_length : JArr α → JArr α → Option (JArr α)
  /-- field `end_to_end_length_per_link::Function` -/
  end_to_end_length_per_link : JArr α → JArr α → Option (JArr α)
  /-- field `nondimensional_end_to_end_length::Function` -/
  nondimensional_end_to_end_length : JArr α → Option (JArr α)
  /-- field `nondimensional_end_to_end_length_per_link::Function` -/
  nondimensional_end_to_end_length_per_link : JArr α → Option (JArr α)
  /-- field `gibbs_free_energy::Function` -/
  gibbs_free_energy : JArr α → JArr α → Option (JArr α)
  /-- field `gibbs_free_energy_per_link::Function` -/
  gibbs_free_energy_per_link : JArr α → JArr α → Option (JArr α)
  /-- field `relative_gibbs_free_energy::Function` -/
  relative_gibbs_free_energy : JArr α → JArr α → Option (JArr α)
  /-- field `relative_gibbs_free_energy_per_link::Function` -/
  relative_gibbs_free_energy_per_link : JArr α → JArr α → Option (JArr α)
  /-- field `nondimensional_gibbs_free_energy::Function` -/
  nondimensional_gibbs_free_energy : JArr α → JArr α → Option (JArr α)
  /-- field `nondimensional_gibbs_free_energy_per_link::Function` -/
  nondimensional_gibbs_free_energy_per_link : JArr α → JArr α → Option (JArr α)
  /-- field `nondimensional_relative_gibbs_free_energy::Function` -/
  nondimensional_relative_gibbs_free_energy : JArr α → Option (JArr α)
  /-- field `nondimensional_relative_gibbs_free_energy_per_link::Function` -/
  nondimensional_relative_gibbs_free_energy_per_link : JArr α → Option (JArr α)

end Polymers.Julia.Wlc.Thermodynamics.Isotensional

namespace Polymers.Julia.Wlc.Thermodynamics

/-- `src/physics/single_chain/wlc/thermodynamics/mod.jl` lines 16-41: struct `WLC`. -/
structure WLC (α : Type) where
  /-- field `number_of_links::UInt8` -/
  number_of_links : Nat
  /-- field `link_length::Float64` -/
  link_length : α
  /-- field `hinge_mass::Float64` -/
  hinge_mass : α
  /-- field `persistance_length::Float64` -/
  persistance_length : α
  /-- field `isometric::Any` -/
  isometric : Polymers.Julia.Wlc.Thermodynamics.Isometric.WLC α
  /-- field `isotensional::Any` -/
  isotensional : Polymers.Julia.Wlc.Thermodynamics.Isotensional.WLC α

end Polymers.Julia.Wlc.Thermodynamics

namespace Polymers.Julia.Wlc

/-- `src/physics/single_chain/wlc/mod.jl` lines 15-36: struct `WLC`. -/
structure WLC (α : Type) where
  /-- field `number_of_links::UInt8` -/
  number_of_links : Nat
  /-- field `link_length::Float64` -/
  link_length : α
  /-- field `hinge_mass::Float64` -/
  hinge_mass : α
  /-- field `persistance_length::Float64` -/
  persistance_length : α
  /-- field `thermodynamics::Any` -/
  thermodynamics : Polymers.Julia.Wlc.Thermodynamics.WLC α

end Polymers.Julia.Wlc

namespace Polymers.Julia.Wlc.Thermodynamics.Isometric

/-- `src/physics/single_chain/wlc/thermodynamics/isometric/mod.jl` lines 650-677. -/
def nondimensional_equilibrium_radial_distribution (pass : List (CArg α) → Registers α) (number_of_links : JArr Nat) (nondimensional_persistance_length : JArr α) (normalization_nondimensional_equilibrium_distribution : α) (nondimensional_end_to_end_length_per_link : JArr α) : Option (JArr α) :=
  JArr.ap (JArr.ap (JArr.map (fun (number_of_links_i : Nat) (nondimensional_persistance_length_i : α) (nondimensional_end_to_end_length_per_link_i : α) => Polymers.C.physics_single_chain_wlc_thermodynamics_isometric_nondimensional_equilibrium_radial_distribution ((pass [CArg.int number_of_links_i, CArg.float nondimensional_persistance_length_i, CArg.float normalization_nondimensional_equilibrium_distribution, CArg.float nondimensional_end_to_end_length_per_link_i]).float 0) ((pass [CArg.int number_of_links_i, CArg.float nondimensional_persistance_length_i, CArg.float normalization_nondimensional_equilibrium_distribution, CArg.float nondimensional_end_to_end_length_per_link_i]).float 1) ((pass [CArg.int number_of_links_i, CArg.float nondimensional_persistance_length_i, CArg.float normalization_nondimensional_equilibrium_distribution, CArg.float nondimensional_end_to_end_length_per_link_i]).float 2)) number_of_links) nondimensional_persistance_length) nondimensional_end_to_end_length_per_link

end Polymers.Julia.Wlc.Thermodynamics.Isometric

namespace Polymers.Julia.Wlc.Thermodynamics.Isometric.Legendre

/-- `src/physics/single_chain/wlc/thermodynamics/isometric/legendre/mod.jl` lines 78-115. -/
def gibbs_free_energy (number_of_links : JArr Nat) (link_length : JArr α) (hinge_mass : JArr α) (persistance_length : JArr α) (end_to_end_length : JArr α) (temperature : JArr α) : Option (JArr α) :=
  JArr.ap (JArr.ap (JArr.ap (JArr.ap (JArr.ap (JArr.map (fun (number_of_links_i : Nat) (link_length_i : α) (hinge_mass_i : α) (persistance_length_i : α) (end_to_end_length_i : α) (temperature_i : α) => Polymers.C.physics_single_chain_wlc_thermodynamics_isometric_legendre_gibbs_free_energy number_of_links_i link_length_i hinge_mass_i persistance_length_i end_to_end_length_i temperature_i) number_of_links) link_length) hinge_mass) persistance_length) end_to_end_length) temperature

/-- `src/physics/single_chain/wlc/thermodynamics/isometric/legendre/mod.jl` lines 123-160. -/
def gibbs_free_energy_per_link (number_of_links : JArr Nat) (link_length : JArr α) (hinge_mass : JArr α) (persistance_length : JArr α) (end_to_end_length : JArr α) (temperature : JArr α) : Option (JArr α) :=
  JArr.ap (JArr.ap (JArr.ap (JArr.ap (JArr.ap (JArr.map (fun (number_of_links_i : Nat) (link_length_i : α) (hinge_mass_i : α) (persistance_length_i : α) (end_to_end_length_i : α) (temperature_i : α) => Polymers.C.physics_single_chain_wlc_thermodynamics_isometric_legendre_gibbs_free_energy_per_link number_of_links_i link_length_i hinge_mass_i persistance_length_i end_to_end_length_i temperature_i) number_of_links) link_length) hinge_mass) persistance_length) end_to_end_length) temperature

/-- `src/physics/single_chain/wlc/thermodynamics/isometric/legendre/mod.jl` lines 168-201. -/
def relative_gibbs_free_energy (number_of_links : JArr Nat) (link_length : JArr α) (persistance_length : JArr α) (end_to_end_length : JArr α) (temperature : JArr α) : Option (JArr α) :=
  JArr.ap (JArr.ap (JArr.ap (JArr.ap (JArr.map (fun (number_of_links_i : Nat) (link_length_i : α) (persistance_length_i : α) (end_to_end_length_i : α) (temperature_i : α) => Polymers.C.physics_single_chain_wlc_thermodynamics_isometric_legendre_relative_gibbs_free_energy number_of_links_i link_length_i persistance_length_i end_to_end_length_i temperature_i) number_of_links) link_length) persistance_length) end_to_end_length) temperature

/-- `src/physics/single_chain/wlc/thermodynamics/isometric/legendre/mod.jl` lines 209-242. -/
def relative_gibbs_free_energy_per_link (number_of_links : JArr Nat) (link_length : JArr α) (persistance_length : JArr α) (end_to_end_length : JArr α) (temperature : JArr α) : Option (JArr α) :=
  JArr.ap (JArr.ap (JArr.ap (JArr.ap (JArr.map (fun (number_of_links_i : Nat) (link_length_i : α) (persistance_length_i : α) (end_to_end_length_i : α) (temperature_i : α) => Polymers.C.physics_single_chain_wlc_thermodynamics_isometric_legendre_relative_gibbs_free_energy_per_link number_of_links_i link_length_i persistance_length_i end_to_end_length_i temperature_i) number_of_links) link_length) persistance_length) end_to_end_length) temperature

/-- `src/physics/single_chain/wlc/thermodynamics/isometric/legendre/mod.jl` lines 250-287. -/
def nondimensional_gibbs_free_energy (number_of_links : JArr Nat) (link_length : JArr α) (hinge_mass : JArr α) (nondimensional_persistance_length : JArr α) (nondimensional_end_to_end_length_per_link : JArr α) (temperature : JArr α) : Option (JArr α) :=
  JArr.ap (JArr.ap (JArr.ap (JArr.ap (JArr.ap (JArr.map (fun (number_of_links_i : Nat) (link_length_i : α) (hinge_mass_i : α) (nondimensional_persistance_length_i : α) (nondimensional_end_to_end_length_per_link_i : α) (temperature_i : α) => Polymers.C.physics_single_chain_wlc_thermodynamics_isometric_legendre_nondimensional_gibbs_free_energy number_of_links_i link_length_i hinge_mass_i nondimensional_persistance_length_i nondimensional_end_to_end_length_per_link_i temperature_i) number_of_links) link_length) hinge_mass) nondimensional_persistance_length) nondimensional_end_to_end_length_per_link) temperature

/-- `src/physics/single_chain/wlc/thermodynamics/isometric/legendre/mod.jl` lines 295-332. -/
def nondimensional_gibbs_free_energy_per_link (number_of_links : JArr Nat) (link_length : JArr α) (hinge_mass : JArr α) (nondimensional_persistance_length : JArr α) (nondimensional_end_to_end_length_per_link : JArr α) (temperature : JArr α) : Option (JArr α) :=
  JArr.ap (JArr.ap (JArr.ap (JArr.ap (JArr.ap (JArr.map (fun (number_of_links_i : Nat) (link_length_i : α) (hinge_mass_i : α) (nondimensional_persistance_length_i : α) (nondimensional_end_to_end_length_per_link_i : α) (temperature_i : α) => Polymers.C.physics_single_chain_wlc_thermodynamics_isometric_legendre_nondimensional_gibbs_free_energy_per_link number_of_links_i link_length_i hinge_mass_i nondimensional_persistance_length_i nondimensional_end_to_end_length_per_link_i temperature_i) number_of_links) link_length) hinge_mass) nondimensional_persistance_length) nondimensional_end_to_end_length_per_link) temperature

/-- `src/physics/single_chain/wlc/thermodynamics/isometric/legendre/mod.jl` lines 340-365. -/
def nondimensional_relative_gibbs_free_energy (number_of_links : JArr Nat) (nondimensional_persistance_length : JArr α) (nondimensional_end_to_end_length_per_link : JArr α) : Option (JArr α) :=
  JArr.ap (JArr.ap (JArr.map (fun (number_of_links_i : Nat) (nondimensional_persistance_length_i : α) (nondimensional_end_to_end_length_per_link_i : α) => Polymers.C.physics_single_chain_wlc_thermodynamics_isometric_legendre_nondimensional_relative_gibbs_free_energy number_of_links_i nondimensional_persistance_length_i nondimensional_end_to_end_length_per_link_i) number_of_links) nondimensional_persistance_length) nondimensional_end_to_end_length_per_link

/-- `src/physics/single_chain/wlc/thermodynamics/isometric/legendre/mod.jl` lines 373-398. -/
def nondimensional_relative_gibbs_free_energy_per_link (number_of_links : JArr Nat) (nondimensional_persistance_length : JArr α) (nondimensional_end_to_end_length_per_link : JArr α) : Option (JArr α) :=
  JArr.ap (JArr.ap (JArr.map (fun (number_of_links_i : Nat) (nondimensional_persistance_length_i : α) (nondimensional_end_to_end_length_per_link_i : α) => Polymers.C.physics_single_chain_wlc_thermodynamics_isometric_legendre_nondimensional_relative_gibbs_free_energy_per_link number_of_links_i nondimensional_persistance_length_i nondimensional_end_to_end_length_per_link_i) number_of_links) nondimensional_persistance_length) nondimensional_end_to_end_length_per_link

/-- `src/physics/single_chain/wlc/thermodynamics/isometric/legendre/mod.jl` lines 405-479. -/
def WLC.new (number_of_links : Nat) (link_length : α) (hinge_mass : α) (persistance_length : α) : Polymers.Julia.Wlc.Thermodynamics.Isometric.Legendre.WLC α :=
  let nondimensional_persistance_length : α := persistance_length / (number_of_links : α) / link_length
  Polymers.Julia.Wlc.Thermodynamics.Isometric.Legendre.WLC.mk
    number_of_links
    link_length
    hinge_mass
    persistance_length
    nondimensional_persistance_length
    (fun (end_to_end_length : JArr α) (temperature : JArr α) => Polymers.Julia.Wlc.Thermodynamics.Isometric.Legendre.gibbs_free_energy (JArr.scalar number_of_links) (JArr.scalar link_length) (JArr.scalar hinge_mass) (JArr.scalar persistance_length) end_to_end_length temperature)
    (fun (end_to_end_length : JArr α) (temperature : JArr α) => Polymers.Julia.Wlc.Thermodynamics.Isometric.Legendre.gibbs_free_energy_per_link (JArr.scalar number_of_links) (JArr.scalar link_length) (JArr.scalar hinge_mass) (JArr.scalar persistance_length) end_to_end_length temperature)
    (fun (end_to_end_length : JArr α) (temperature : JArr α) => Polymers.Julia.Wlc.Thermodynamics.Isometric.Legendre.relative_gibbs_free_energy (JArr.scalar number_of_links) (JArr.scalar link_length) (JArr.scalar persistance_length) end_to_end_length temperature)
    (fun (end_to_end_length : JArr α) (temperature : JArr α) => Polymers.Julia.Wlc.Thermodynamics.Isometric.Legendre.relative_gibbs_free_energy_per_link (JArr.scalar number_of_links) (JArr.scalar link_length) (JArr.scalar persistance_length) end_to_end_length temperature)
    (fun (nondimensional_end_to_end_length_per_link : JArr α) (temperature : JArr α) => Polymers.Julia.Wlc.Thermodynamics.Isometric.Legendre.nondimensional_gibbs_free_energy (JArr.scalar number_of_links) (JArr.scalar link_length) (JArr.scalar hinge_mass) (JArr.scalar nondimensional_persistance_length) nondimensional_end_to_end_length_per_link temperature)
    (fun (nondimensional_end_to_end_length_per_link : JArr α) (temperature : JArr α) => Polymers.Julia.Wlc.Thermodynamics.Isometric.Legendre.nondimensional_gibbs_free_energy_per_link (JArr.scalar number_of_links) (JArr.scalar link_length) (JArr.scalar hinge_mass) (JArr.scalar nondimensional_persistance_length) nondimensional_end_to_end_length_per_link temperature)
    (fun (nondimensional_end_to_end_length_per_link : JArr α) => Polymers.Julia.Wlc.Thermodynamics.Isometric.Legendre.nondimensional_relative_gibbs_free_energy (JArr.scalar number_of_links) (JArr.scalar nondimensional_persistance_length) nondimensional_end_to_end_length_per_link)
    (fun (nondimensional_end_to_end_length_per_link : JArr α) => Polymers.Julia.Wlc.Thermodynamics.Isometric.Legendre.nondimensional_relative_gibbs_free_energy_per_link (JArr.scalar number_of_links) (JArr.scalar nondimensional_persistance_length) nondimensional_end_to_end_length_per_link)

end Polymers.Julia.Wlc.Thermodynamics.Isometric.Legendre

namespace Polymers.Julia.Wlc.Thermodynamics.Isometric

/-- `src/physics/single_chain/wlc/thermodynamics/isometric/mod.jl` lines 109-142. -/
def force (number_of_links : JArr Nat) (link_length : JArr α) (persistance_length : JArr α) (end_to_end_length : JArr α) (temperature : JArr α) : Option (JArr α) :=
  JArr.ap (JArr.ap (JArr.ap (JArr.ap (JArr.map (fun (number_of_links_i : Nat) (link_length_i : α) (persistance_length_i : α) (end_to_end_length_i : α) (temperature_i : α) => Polymers.C.physics_single_chain_wlc_thermodynamics_isometric_force number_of_links_i link_length_i persistance_length_i end_to_end_length_i temperature_i) number_of_links) link_length) persistance_length) end_to_end_length) temperature

/-- `src/physics/single_chain/wlc/thermodynamics/isometric/mod.jl` lines 154-179. -/
def nondimensional_force (number_of_links : JArr Nat) (nondimensional_persistance_length : JArr α) (nondimensional_end_to_end_length_per_link : JArr α) : Option (JArr α) :=
  JArr.ap (JArr.ap (JArr.map (fun (number_of_links_i : Nat) (nondimensional_persistance_length_i : α) (nondimensional_end_to_end_length_per_link_i : α) => Polymers.C.physics_single_chain_wlc_thermodynamics_isometric_nondimensional_force number_of_links_i nondimensional_persistance_length_i nondimensional_end_to_end_length_per_link_i) number_of_links) nondimensional_persistance_length) nondimensional_end_to_end_length_per_link

/-- `src/physics/single_chain/wlc/thermodynamics/isometric/mod.jl` lines 191-228. -/
def helmholtz_free_energy (number_of_links : JArr Nat) (link_length : JArr α) (hinge_mass : JArr α) (persistance_length : JArr α) (end_to_end_length : JArr α) (temperature : JArr α) : Option (JArr α) :=
  JArr.ap (JArr.ap (JArr.ap (JArr.ap (JArr.ap (JArr.map (fun (number_of_links_i : Nat) (link_length_i : α) (hinge_mass_i : α) (persistance_length_i : α) (end_to_end_length_i : α) (temperature_i : α) => Polymers.C.physics_single_chain_wlc_thermodynamics_isometric_helmholtz_free_energy number_of_links_i link_length_i hinge_mass_i persistance_length_i end_to_end_length_i temperature_i) number_of_links) link_length) hinge_mass) persistance_length) end_to_end_length) temperature

/-- `src/physics/single_chain/wlc/thermodynamics/isometric/mod.jl` lines 236-273. -/
def helmholtz_free_energy_per_link (number_of_links : JArr Nat) (link_length : JArr α) (hinge_mass : JArr α) (persistance_length : JArr α) (end_to_end_length : JArr α) (temperature : JArr α) : Option (JArr α) :=
  JArr.ap (JArr.ap (JArr.ap (JArr.ap (JArr.ap (JArr.map (fun (number_of_links_i : Nat) (link_length_i : α) (hinge_mass_i : α) (persistance_length_i : α) (end_to_end_length_i : α) (temperature_i : α) => Polymers.C.physics_single_chain_wlc_thermodynamics_isometric_helmholtz_free_energy_per_link number_of_links_i link_length_i hinge_mass_i persistance_length_i end_to_end_length_i temperature_i) number_of_links) link_length) hinge_mass) persistance_length) end_to_end_length) temperature

/-- `src/physics/single_chain/wlc/thermodynamics/isometric/mod.jl` lines 285-318. -/
def relative_helmholtz_free_energy (number_of_links : JArr Nat) (link_length : JArr α) (persistance_length : JArr α) (end_to_end_length : JArr α) (temperature : JArr α) : Option (JArr α) :=
  JArr.ap (JArr.ap (JArr.ap (JArr.ap (JArr.map (fun (number_of_links_i : Nat) (link_length_i : α) (persistance_length_i : α) (end_to_end_length_i : α) (temperature_i : α) => Polymers.C.physics_single_chain_wlc_thermodynamics_isometric_relative_helmholtz_free_energy number_of_links_i link_length_i persistance_length_i end_to_end_length_i temperature_i) number_of_links) link_length) persistance_length) end_to_end_length) temperature

/-- `src/physics/single_chain/wlc/thermodynamics/isometric/mod.jl` lines 326-359. -/
def relative_helmholtz_free_energy_per_link (number_of_links : JArr Nat) (link_length : JArr α) (persistance_length : JArr α) (end_to_end_length : JArr α) (temperature : JArr α) : Option (JArr α) :=
  JArr.ap (JArr.ap (JArr.ap (JArr.ap (JArr.map (fun (number_of_links_i : Nat) (link_length_i : α) (persistance_length_i : α) (end_to_end_length_i : α) (temperature_i : α) => Polymers.C.physics_single_chain_wlc_thermodynamics_isometric_relative_helmholtz_free_energy_per_link number_of_links_i link_length_i persistance_length_i end_to_end_length_i temperature_i) number_of_links) link_length) persistance_length) end_to_end_length) temperature

/-- `src/physics/single_chain/wlc/thermodynamics/isometric/mod.jl` lines 367-404. -/
def nondimensional_helmholtz_free_energy (number_of_links : JArr Nat) (link_length : JArr α) (hinge_mass : JArr α) (nondimensional_persistance_length : JArr α) (nondimensional_end_to_end_length_per_link : JArr α) (temperature : JArr α) : Option (JArr α) :=
  JArr.ap (JArr.ap (JArr.ap (JArr.ap (JArr.ap (JArr.map (fun (number_of_links_i : Nat) (link_length_i : α) (hinge_mass_i : α) (nondimensional_persistance_length_i : α) (nondimensional_end_to_end_length_per_link_i : α) (temperature_i : α) => Polymers.C.physics_single_chain_wlc_thermodynamics_isometric_nondimensional_helmholtz_free_energy number_of_links_i link_length_i hinge_mass_i nondimensional_persistance_length_i nondimensional_end_to_end_length_per_link_i temperature_i) number_of_links) link_length) hinge_mass) nondimensional_persistance_length) nondimensional_end_to_end_length_per_link) temperature

/-- `src/physics/single_chain/wlc/thermodynamics/isometric/mod.jl` lines 412-449. -/
def nondimensional_helmholtz_free_energy_per_link (number_of_links : JArr Nat) (link_length : JArr α) (hinge_mass : JArr α) (nondimensional_persistance_length : JArr α) (nondimensional_end_to_end_length_per_link : JArr α) (temperature : JArr α) : Option (JArr α) :=
  JArr.ap (JArr.ap (JArr.ap (JArr.ap (JArr.ap (JArr.map (fun (number_of_links_i : Nat) (link_length_i : α) (hinge_mass_i : α) (nondimensional_persistance_length_i : α) (nondimensional_end_to_end_length_per_link_i : α) (temperature_i : α) => Polymers.C.physics_single_chain_wlc_thermodynamics_isometric_nondimensional_helmholtz_free_energy_per_link number_of_links_i link_length_i hinge_mass_i nondimensional_persistance_length_i nondimensional_end_to_end_length_per_link_i temperature_i) number_of_links) link_length) hinge_mass) nondimensional_persistance_length) nondimensional_end_to_end_length_per_link) temperature

/-- `src/physics/single_chain/wlc/thermodynamics/isometric/mod.jl` lines 461-482. -/
def nondimensional_relative_helmholtz_free_energy (nondimensional_persistance_length : JArr α) (nondimensional_end_to_end_length_per_link : JArr α) : Option (JArr α) :=
  JArr.ap (JArr.map (fun (nondimensional_persistance_length_i : α) (nondimensional_end_to_end_length_per_link_i : α) => Polymers.C.physics_single_chain_wlc_thermodynamics_isometric_nondimensional_relative_helmholtz_free_energy nondimensional_persistance_length_i nondimensional_end_to_end_length_per_link_i) nondimensional_persistance_length) nondimensional_end_to_end_length_per_link

/-- `src/physics/single_chain/wlc/thermodynamics/isometric/mod.jl` lines 494-519. -/
def nondimensional_relative_helmholtz_free_energy_per_link (number_of_links : JArr Nat) (nondimensional_persistance_length : JArr α) (nondimensional_end_to_end_length_per_link : JArr α) : Option (JArr α) :=
  JArr.ap (JArr.ap (JArr.map (fun (number_of_links_i : Nat) (nondimensional_persistance_length_i : α) (nondimensional_end_to_end_length_per_link_i : α) => Polymers.C.physics_single_chain_wlc_thermodynamics_isometric_nondimensional_relative_helmholtz_free_energy_per_link number_of_links_i nondimensional_persistance_length_i nondimensional_end_to_end_length_per_link_i) number_of_links) nondimensional_persistance_length) nondimensional_end_to_end_length_per_link

/-- `src/physics/single_chain/wlc/thermodynamics/isometric/mod.jl` lines 531-558. -/
def equilibrium_distribution (number_of_links : JArr Nat) (link_length : JArr α) (persistance_length : JArr α) (normalization_nondimensional_equilibrium_distribution : α) (end_to_end_length : JArr α) : Option (JArr α) :=
  JArr.ap (JArr.ap (JArr.ap (JArr.map (fun (number_of_links_i : Nat) (link_length_i : α) (persistance_length_i : α) (end_to_end_length_i : α) => Polymers.C.physics_single_chain_wlc_thermodynamics_isometric_equilibrium_distribution number_of_links_i link_length_i persistance_length_i normalization_nondimensional_equilibrium_distribution end_to_end_length_i) number_of_links) link_length) persistance_length) end_to_end_length

/-- `src/physics/single_chain/wlc/thermodynamics/isometric/mod.jl` lines 570-597. -/
def nondimensional_equilibrium_distribution (pass : List (CArg α) → Registers α) (number_of_links : JArr Nat) (nondimensional_persistance_length : JArr α) (normalization_nondimensional_equilibrium_distribution : α) (nondimensional_end_to_end_length_per_link : JArr α) : Option (JArr α) :=
  JArr.ap (JArr.ap (JArr.map (fun (number_of_links_i : Nat) (nondimensional_persistance_length_i : α) (nondimensional_end_to_end_length_per_link_i : α) => Polymers.C.physics_single_chain_wlc_thermodynamics_isometric_nondimensional_equilibrium_distribution ((pass [CArg.int number_of_links_i, CArg.float nondimensional_persistance_length_i, CArg.float normalization_nondimensional_equilibrium_distribution, CArg.float nondimensional_end_to_end_length_per_link_i]).float 0) ((pass [CArg.int number_of_links_i, CArg.float nondimensional_persistance_length_i, CArg.float normalization_nondimensional_equilibrium_distribution, CArg.float nondimensional_end_to_end_length_per_link_i]).float 1) ((pass [CArg.int number_of_links_i, CArg.float nondimensional_persistance_length_i, CArg.float normalization_nondimensional_equilibrium_distribution, CArg.float nondimensional_end_to_end_length_per_link_i]).float 2)) number_of_links) nondimensional_persistance_length) nondimensional_end_to_end_length_per_link

/-- `src/physics/single_chain/wlc/thermodynamics/isometric/mod.jl` lines 611-638. -/
def equilibrium_radial_distribution (number_of_links : JArr Nat) (link_length : JArr α) (persistance_length : JArr α) (normalization_nondimensional_equilibrium_distribution : α) (end_to_end_length : JArr α) : Option (JArr α) :=
  JArr.ap (JArr.ap (JArr.ap (JArr.map (fun (number_of_links_i : Nat) (link_length_i : α) (persistance_length_i : α) (end_to_end_length_i : α) => Polymers.C.physics_single_chain_wlc_thermodynamics_isometric_equilibrium_radial_distribution number_of_links_i link_length_i persistance_length_i normalization_nondimensional_equilibrium_distribution end_to_end_length_i) number_of_links) link_length) persistance_length) end_to_end_length

/-- `src/physics/single_chain/wlc/thermodynamics/isometric/mod.jl` lines 684-811. -/
def WLC.new (pass : List (CArg α) → Registers α) (number_of_links : Nat) (link_length : α) (hinge_mass : α) (persistance_length : α) : Polymers.Julia.Wlc.Thermodynamics.Isometric.WLC α :=
  let nondimensional_persistance_length : α := persistance_length / (number_of_links : α) / link_length
  let normalization_nondimensional_equilibrium_distribution : α := Polymers.Julia.integrate (fun (nondimensional_end_to_end_length_per_link : α) => JArr.value (Polymers.Julia.Wlc.Thermodynamics.Isometric.nondimensional_equilibrium_radial_distribution pass (JArr.scalar number_of_links) (JArr.scalar nondimensional_persistance_length) 1.0 (JArr.scalar nondimensional_end_to_end_length_per_link))) (Polymers.Julia.ZERO : α) (Polymers.Julia.ONE : α) Polymers.Julia.POINTS
  Polymers.Julia.Wlc.Thermodynamics.Isometric.WLC.mk
    number_of_links
    link_length
    hinge_mass
    persistance_length
    nondimensional_persistance_length
    normalization_nondimensional_equilibrium_distribution
    (Polymers.Julia.Wlc.Thermodynamics.Isometric.Legendre.WLC.new number_of_links link_length hinge_mass persistance_length)
    (fun (end_to_end_length : JArr α) (temperature : JArr α) => Polymers.Julia.Wlc.Thermodynamics.Isometric.force (JArr.scalar number_of_links) (JArr.scalar link_length) (JArr.scalar persistance_length) end_to_end_length temperature)
    (fun (nondimensional_end_to_end_length_per_link : JArr α) => Polymers.Julia.Wlc.Thermodynamics.Isometric.nondimensional_force (JArr.scalar number_of_links) (JArr.scalar nondimensional_persistance_length) nondimensional_end_to_end_length_per_link)
    (fun (end_to_end_length : JArr α) (temperature : JArr α) => Polymers.Julia.Wlc.Thermodynamics.Isometric.helmholtz_free_energy (JArr.scalar number_of_links) (JArr.scalar link_length) (JArr.scalar hinge_mass) (JArr.scalar persistance_length) end_to_end_length temperature)
    (fun (end_to_end_length : JArr α) (temperature : JArr α) => Polymers.Julia.Wlc.Thermodynamics.Isometric.helmholtz_free_energy_per_link (JArr.scalar number_of_links) (JArr.scalar link_length) (JArr.scalar hinge_mass) (JArr.scalar persistance_length) end_to_end_length temperature)
    (fun (end_to_end_length : JArr α) (temperature : JArr α) => Polymers.Julia.Wlc.Thermodynamics.Isometric.relative_helmholtz_free_energy (JArr.scalar number_of_links) (JArr.scalar link_length) (JArr.scalar persistance_length) end_to_end_length temperature)
    (fun (end_to_end_length : JArr α) (temperature : JArr α) => Polymers.Julia.Wlc.Thermodynamics.Isometric.relative_helmholtz_free_energy_per_link (JArr.scalar number_of_links) (JArr.scalar link_length) (JArr.scalar persistance_length) end_to_end_length temperature)
    (fun (nondimensional_end_to_end_length_per_link : JArr α) (temperature : JArr α) => Polymers.Julia.Wlc.Thermodynamics.Isometric.nondimensional_helmholtz_free_energy (JArr.scalar number_of_links) (JArr.scalar link_length) (JArr.scalar hinge_mass) (JArr.scalar nondimensional_persistance_length) nondimensional_end_to_end_length_per_link temperature)
    (fun (nondimensional_end_to_end_length_per_link : JArr α) (temperature : JArr α) => Polymers.Julia.Wlc.Thermodynamics.Isometric.nondimensional_helmholtz_free_energy_per_link (JArr.scalar number_of_links) (JArr.scalar link_length) (JArr.scalar hinge_mass) (JArr.scalar nondimensional_persistance_length) nondimensional_end_to_end_length_per_link temperature)
    (fun (nondimensional_end_to_end_length_per_link : JArr α) => Polymers.Julia.Wlc.Thermodynamics.Isometric.nondimensional_relative_helmholtz_free_energy (JArr.scalar nondimensional_persistance_length) nondimensional_end_to_end_length_per_link)
    (fun (nondimensional_end_to_end_length_per_link : JArr α) => Polymers.Julia.Wlc.Thermodynamics.Isometric.nondimensional_relative_helmholtz_free_energy_per_link (JArr.scalar number_of_links) (JArr.scalar nondimensional_persistance_length) nondimensional_end_to_end_length_per_link)
    (fun (end_to_end_length : JArr α) => Polymers.Julia.Wlc.Thermodynamics.Isometric.equilibrium_distribution (JArr.scalar number_of_links) (JArr.scalar link_length) (JArr.scalar persistance_length) normalization_nondimensional_equilibrium_distribution end_to_end_length)
    (fun (nondimensional_end_to_end_length_per_link : JArr α) => Polymers.Julia.Wlc.Thermodynamics.Isometric.nondimensional_equilibrium_distribution pass (JArr.scalar number_of_links) (JArr.scalar nondimensional_persistance_length) normalization_nondimensional_equilibrium_distribution nondimensional_end_to_end_length_per_link)
    (fun (end_to_end_length : JArr α) => Polymers.Julia.Wlc.Thermodynamics.Isometric.equilibrium_radial_distribution (JArr.scalar number_of_links) (JArr.scalar link_length) (JArr.scalar persistance_length) normalization_nondimensional_equilibrium_distribution end_to_end_length)
    (fun (nondimensional_end_to_end_length_per_link : JArr α) => Polymers.Julia.Wlc.Thermodynamics.Isometric.nondimensional_equilibrium_radial_distribution pass (JArr.scalar number_of_links) (JArr.scalar nondimensional_persistance_length) normalization_nondimensional_equilibrium_distribution nondimensional_end_to_end_length_per_link)

end Polymers.Julia.Wlc.Thermodynamics.Isometric

namespace Polymers.Julia.Wlc.Thermodynamics.Isotensional.Legendre

/-- `src/physics/single_chain/wlc/thermodynamics/isotensional/legendre/mod.jl` lines 76-113. -/
def helmholtz_free_energy (number_of_links : JArr Nat) (link_length : JArr α) (hinge_mass : JArr α) (persistance_length : JArr α) (force : JArr α) (temperature : JArr α) : Option (JArr α) :=
  JArr.ap (JArr.ap (JArr.ap (JArr.ap (JArr.ap (JArr.map (fun (number_of_links_i : Nat) (link_length_i : α) (hinge_mass_i : α) (persistance_length_i : α) (force_i : α) (temperature_i : α) => Polymers.C.physics_single_chain_wlc_thermodynamics_isotensional_legendre_helmholtz_free_energy number_of_links_i link_length_i hinge_mass_i persistance_length_i force_i temperature_i) number_of_links) link_length) hinge_mass) persistance_length) force) temperature

/-- `src/physics/single_chain/wlc/thermodynamics/isotensional/legendre/mod.jl` lines 121-158. -/
def helmholtz_free_energy_per_link (number_of_links : JArr Nat) (link_length : JArr α) (hinge_mass : JArr α) (persistance_length : JArr α) (force : JArr α) (temperature : JArr α) : Option (JArr α) :=
  JArr.ap (JArr.ap (JArr.ap (JArr.ap (JArr.ap (JArr.map (fun (number_of_links_i : Nat) (link_length_i : α) (hinge_mass_i : α) (persistance_length_i : α) (force_i : α) (temperature_i : α) => Polymers.C.physics_single_chain_wlc_thermodynamics_isotensional_legendre_helmholtz_free_energy_per_link number_of_links_i link_length_i hinge_mass_i persistance_length_i force_i temperature_i) number_of_links) link_length) hinge_mass) persistance_length) force) temperature

/-- `src/physics/single_chain/wlc/thermodynamics/isotensional/legendre/mod.jl` lines 166-194. -/
def relative_helmholtz_free_energy (number_of_links : JArr Nat) (link_length : JArr α) (persistance_length : JArr α) (force : JArr α) (temperature : JArr α) : Option (JArr α) :=
  JArr.ap (JArr.ap (JArr.ap (JArr.ap (JArr.map (fun (number_of_links_i : Nat) (link_length_i : α) (persistance_length_i : α) (force_i : α) (temperature_i : α) => Polymers.C.physics_single_chain_wlc_thermodynamics_isotensional_legendre_relative_helmholtz_free_energy number_of_links_i link_length_i persistance_length_i force_i temperature_i) number_of_links) link_length) persistance_length) force) temperature

/-- `src/physics/single_chain/wlc/thermodynamics/isotensional/legendre/mod.jl` lines 202-230. -/
def relative_helmholtz_free_energy_per_link (number_of_links : JArr Nat) (link_length : JArr α) (persistance_length : JArr α) (force : JArr α) (temperature : JArr α) : Option (JArr α) :=
  JArr.ap (JArr.ap (JArr.ap (JArr.ap (JArr.map (fun (number_of_links_i : Nat) (link_length_i : α) (persistance_length_i : α) (force_i : α) (temperature_i : α) => Polymers.C.physics_single_chain_wlc_thermodynamics_isotensional_legendre_relative_helmholtz_free_energy_per_link number_of_links_i link_length_i persistance_length_i force_i temperature_i) number_of_links) link_length) persistance_length) force) temperature

/-- `src/physics/single_chain/wlc/thermodynamics/isotensional/legendre/mod.jl` lines 238-275. -/
def nondimensional_helmholtz_free_energy (number_of_links : JArr Nat) (link_length : JArr α) (hinge_mass : JArr α) (nondimensional_persistance_length : JArr α) (nondimensional_force : JArr α) (temperature : JArr α) : Option (JArr α) :=
  JArr.ap (JArr.ap (JArr.ap (JArr.ap (JArr.ap (JArr.map (fun (number_of_links_i : Nat) (link_length_i : α) (hinge_mass_i : α) (nondimensional_persistance_length_i : α) (nondimensional_force_i : α) (temperature_i : α) => Polymers.C.physics_single_chain_wlc_thermodynamics_isotensional_legendre_nondimensional_helmholtz_free_energy number_of_links_i link_length_i hinge_mass_i nondimensional_persistance_length_i nondimensional_force_i temperature_i) number_of_links) link_length) hinge_mass) nondimensional_persistance_length) nondimensional_force) temperature

/-- `src/physics/single_chain/wlc/thermodynamics/isotensional/legendre/mod.jl` lines 283-320. -/
def nondimensional_helmholtz_free_energy_per_link (number_of_links : JArr Nat) (link_length : JArr α) (hinge_mass : JArr α) (nondimensional_persistance_length : JArr α) (nondimensional_force : JArr α) (temperature : JArr α) : Option (JArr α) :=
  JArr.ap (JArr.ap (JArr.ap (JArr.ap (JArr.ap (JArr.map (fun (number_of_links_i : Nat) (link_length_i : α) (hinge_mass_i : α) (nondimensional_persistance_length_i : α) (nondimensional_force_i : α) (temperature_i : α) => Polymers.C.physics_single_chain_wlc_thermodynamics_isotensional_legendre_nondimensional_helmholtz_free_energy_per_link number_of_links_i link_length_i hinge_mass_i nondimensional_persistance_length_i nondimensional_force_i temperature_i) number_of_links) link_length) hinge_mass) nondimensional_persistance_length) nondimensional_force) temperature

/-- `src/physics/single_chain/wlc/thermodynamics/isotensional/legendre/mod.jl` lines 328-350. -/
def nondimensional_relative_helmholtz_free_energy (number_of_links : JArr Nat) (nondimensional_persistance_length : JArr α) (nondimensional_force : JArr α) : Option (JArr α) :=
  JArr.ap (JArr.ap (JArr.map (fun (number_of_links_i : Nat) (nondimensional_persistance_length_i : α) (nondimensional_force_i : α) => Polymers.C.physics_single_chain_wlc_thermodynamics_isotensional_legendre_nondimensional_relative_helmholtz_free_energy number_of_links_i nondimensional_persistance_length_i nondimensional_force_i) number_of_links) nondimensional_persistance_length) nondimensional_force

/-- `src/physics/single_chain/wlc/thermodynamics/isotensional/legendre/mod.jl` lines 358-380. -/
def nondimensional_relative_helmholtz_free_energy_per_link (number_of_links : JArr Nat) (nondimensional_persistance_length : JArr α) (nondimensional_force : JArr α) : Option (JArr α) :=
  JArr.ap (JArr.ap (JArr.map (fun (number_of_links_i : Nat) (nondimensional_persistance_length_i : α) (nondimensional_force_i : α) => Polymers.C.physics_single_chain_wlc_thermodynamics_isotensional_legendre_nondimensional_relative_helmholtz_free_energy_per_link number_of_links_i nondimensional_persistance_length_i nondimensional_force_i) number_of_links) nondimensional_persistance_length) nondimensional_force

/-- `src/physics/single_chain/wlc/thermodynamics/isotensional/legendre/mod.jl` lines 387-458. -/
def WLC.new (number_of_links : Nat) (link_length : α) (hinge_mass : α) (persistance_length : α) : Polymers.Julia.Wlc.Thermodynamics.Isotensional.Legendre.WLC α :=
  let nondimensional_persistance_length : α := persistance_length / (number_of_links : α) / link_length
  Polymers.Julia.Wlc.Thermodynamics.Isotensional.Legendre.WLC.mk
    number_of_links
    link_length
    hinge_mass
    persistance_length
    nondimensional_persistance_length
    (fun (force : JArr α) (temperature : JArr α) => Polymers.Julia.Wlc.Thermodynamics.Isotensional.Legendre.helmholtz_free_energy (JArr.scalar number_of_links) (JArr.scalar link_length) (JArr.scalar hinge_mass) (JArr.scalar persistance_length) force temperature)
    (fun (force : JArr α) (temperature : JArr α) => Polymers.Julia.Wlc.Thermodynamics.Isotensional.Legendre.helmholtz_free_energy_per_link (JArr.scalar number_of_links) (JArr.scalar link_length) (JArr.scalar hinge_mass) (JArr.scalar persistance_length) force temperature)
    (fun (force : JArr α) (temperature : JArr α) => Polymers.Julia.Wlc.Thermodynamics.Isotensional.Legendre.relative_helmholtz_free_energy (JArr.scalar number_of_links) (JArr.scalar link_length) (JArr.scalar persistance_length) force temperature)
    (fun (force : JArr α) (temperature : JArr α) => Polymers.Julia.Wlc.Thermodynamics.Isotensional.Legendre.relative_helmholtz_free_energy_per_link (JArr.scalar number_of_links) (JArr.scalar link_length) (JArr.scalar persistance_length) force temperature)
    (fun (nondimensional_force : JArr α) (temperature : JArr α) => Polymers.Julia.Wlc.Thermodynamics.Isotensional.Legendre.nondimensional_helmholtz_free_energy (JArr.scalar number_of_links) (JArr.scalar link_length) (JArr.scalar hinge_mass) (JArr.scalar nondimensional_persistance_length) nondimensional_force temperature)
    (fun (nondimensional_force : JArr α) (temperature : JArr α) => Polymers.Julia.Wlc.Thermodynamics.Isotensional.Legendre.nondimensional_helmholtz_free_energy_per_link (JArr.scalar number_of_links) (JArr.scalar link_length) (JArr.scalar hinge_mass) (JArr.scalar nondimensional_persistance_length) nondimensional_force temperature)
    (fun (nondimensional_force : JArr α) => Polymers.Julia.Wlc.Thermodynamics.Isotensional.Legendre.nondimensional_relative_helmholtz_free_energy (JArr.scalar number_of_links) (JArr.scalar nondimensional_persistance_length) nondimensional_force)
    (fun (nondimensional_force : JArr α) => Polymers.Julia.Wlc.Thermodynamics.Isotensional.Legendre.nondimensional_relative_helmholtz_free_energy_per_link (JArr.scalar number_of_links) (JArr.scalar nondimensional_persistance_length) nondimensional_force)

end Polymers.Julia.Wlc.Thermodynamics.Isotensional.Legendre

namespace Polymers.Julia.Wlc.Thermodynamics.Isotensional

/-- `src/physics/single_chain/wlc/thermodynamics/isotensional/mod.jl` lines 95-123. -/
def end_to_end_length (number_of_links : JArr Nat) (link_length : JArr α) (persistance_length : JArr α) (force : JArr α) (temperature : JArr α) : Option (JArr α) :=
  JArr.ap (JArr.ap (JArr.ap (JArr.ap (JArr.map (fun (number_of_links_i : Nat) (link_length_i : α) (persistance_length_i : α) (force_i : α) (temperature_i : α) => Polymers.C.physics_single_chain_wlc_thermodynamics_isotensional_end_to_end_length number_of_links_i link_length_i persistance_length_i force_i temperature_i) number_of_links) link_length) persistance_length) force) temperature

/-- `src/physics/single_chain/wlc/thermodynamics/isotensional/mod.jl` lines 131-159. -/
def end_to_end_length_per_link (number_of_links : JArr Nat) (link_length : JArr α) (persistance_length : JArr α) (force : JArr α) (temperature : JArr α) : Option (JArr α) :=
  JArr.ap (JArr.ap (JArr.ap (JArr.ap (JArr.map (fun (number_of_links_i : Nat) (link_length_i : α) (persistance_length_i : α) (force_i : α) (temperature_i : α) => Polymers.C.physics_single_chain_wlc_thermodynamics_isotensional_end_to_end_length_per_link number_of_links_i link_length_i persistance_length_i force_i temperature_i) number_of_links) link_length) persistance_length) force) temperature

/-- `src/physics/single_chain/wlc/thermodynamics/isotensional/mod.jl` lines 167-189. -/
def nondimensional_end_to_end_length (number_of_links : JArr Nat) (nondimensional_persistance_length : JArr α) (nondimensional_force : JArr α) : Option (JArr α) :=
  JArr.ap (JArr.ap (JArr.map (fun (number_of_links_i : Nat) (nondimensional_persistance_length_i : α) (nondimensional_force_i : α) => Polymers.C.physics_single_chain_wlc_thermodynamics_isotensional_nondimensional_end_to_end_length number_of_links_i nondimensional_persistance_length_i nondimensional_force_i) number_of_links) nondimensional_persistance_length) nondimensional_force

/-- `src/physics/single_chain/wlc/thermodynamics/isotensional/mod.jl` lines 197-219. -/
def nondimensional_end_to_end_length_per_link (number_of_links : JArr Nat) (nondimensional_persistance_length : JArr α) (nondimensional_force : JArr α) : Option (JArr α) :=
  JArr.ap (JArr.ap (JArr.map (fun (number_of_links_i : Nat) (nondimensional_persistance_length_i : α) (nondimensional_force_i : α) => Polymers.C.physics_single_chain_wlc_thermodynamics_isotensional_nondimensional_end_to_end_length_per_link number_of_links_i nondimensional_persistance_length_i nondimensional_force_i) number_of_links) nondimensional_persistance_length) nondimensional_force

/-- `src/physics/single_chain/wlc/thermodynamics/isotensional/mod.jl` lines 227-264. -/
def gibbs_free_energy (number_of_links : JArr Nat) (link_length : JArr α) (hinge_mass : JArr α) (persistance_length : JArr α) (end_to_end_length : JArr α) (temperature : JArr α) : Option (JArr α) :=
  JArr.ap (JArr.ap (JArr.ap (JArr.ap (JArr.ap (JArr.map (fun (number_of_links_i : Nat) (link_length_i : α) (hinge_mass_i : α) (persistance_length_i : α) (end_to_end_length_i : α) (temperature_i : α) => Polymers.C.physics_single_chain_wlc_thermodynamics_isotensional_gibbs_free_energy number_of_links_i link_length_i hinge_mass_i persistance_length_i end_to_end_length_i temperature_i) number_of_links) link_length) hinge_mass) persistance_length) end_to_end_length) temperature

/-- `src/physics/single_chain/wlc/thermodynamics/isotensional/mod.jl` lines 272-309. -/
def gibbs_free_energy_per_link (number_of_links : JArr Nat) (link_length : JArr α) (hinge_mass : JArr α) (persistance_length : JArr α) (end_to_end_length : JArr α) (temperature : JArr α) : Option (JArr α) :=
  JArr.ap (JArr.ap (JArr.ap (JArr.ap (JArr.ap (JArr.map (fun (number_of_links_i : Nat) (link_length_i : α) (hinge_mass_i : α) (persistance_length_i : α) (end_to_end_length_i : α) (temperature_i : α) => Polymers.C.physics_single_chain_wlc_thermodynamics_isotensional_gibbs_free_energy_per_link number_of_links_i link_length_i hinge_mass_i persistance_length_i end_to_end_length_i temperature_i) number_of_links) link_length) hinge_mass) persistance_length) end_to_end_length) temperature

/-- `src/physics/single_chain/wlc/thermodynamics/isotensional/mod.jl` lines 317-350. -/
def relative_gibbs_free_energy (number_of_links : JArr Nat) (link_length : JArr α) (persistance_length : JArr α) (end_to_end_length : JArr α) (temperature : JArr α) : Option (JArr α) :=
  JArr.ap (JArr.ap (JArr.ap (JArr.ap (JArr.map (fun (number_of_links_i : Nat) (link_length_i : α) (persistance_length_i : α) (end_to_end_length_i : α) (temperature_i : α) => Polymers.C.physics_single_chain_wlc_thermodynamics_isotensional_relative_gibbs_free_energy number_of_links_i link_length_i persistance_length_i end_to_end_length_i temperature_i) number_of_links) link_length) persistance_length) end_to_end_length) temperature

/-- `src/physics/single_chain/wlc/thermodynamics/isotensional/mod.jl` lines 358-391. -/
def relative_gibbs_free_energy_per_link (number_of_links : JArr Nat) (link_length : JArr α) (persistance_length : JArr α) (end_to_end_length : JArr α) (temperature : JArr α) : Option (JArr α) :=
  JArr.ap (JArr.ap (JArr.ap (JArr.ap (JArr.map (fun (number_of_links_i : Nat) (link_length_i : α) (persistance_length_i : α) (end_to_end_length_i : α) (temperature_i : α) => Polymers.C.physics_single_chain_wlc_thermodynamics_isotensional_relative_gibbs_free_energy_per_link number_of_links_i link_length_i persistance_length_i end_to_end_length_i temperature_i) number_of_links) link_length) persistance_length) end_to_end_length) temperature

/-- `src/physics/single_chain/wlc/thermodynamics/isotensional/mod.jl` lines 399-436. -/
def nondimensional_gibbs_free_energy (number_of_links : JArr Nat) (link_length : JArr α) (hinge_mass : JArr α) (nondimensional_persistance_length : JArr α) (nondimensional_end_to_end_length_per_link : JArr α) (temperature : JArr α) : Option (JArr α) :=
  JArr.ap (JArr.ap (JArr.ap (JArr.ap (JArr.ap (JArr.map (fun (number_of_links_i : Nat) (link_length_i : α) (hinge_mass_i : α) (nondimensional_persistance_length_i : α) (nondimensional_end_to_end_length_per_link_i : α) (temperature_i : α) => Polymers.C.physics_single_chain_wlc_thermodynamics_isotensional_nondimensional_gibbs_free_energy number_of_links_i link_length_i hinge_mass_i nondimensional_persistance_length_i nondimensional_end_to_end_length_per_link_i temperature_i) number_of_links) link_length) hinge_mass) nondimensional_persistance_length) nondimensional_end_to_end_length_per_link) temperature

/-- `src/physics/single_chain/wlc/thermodynamics/isotensional/mod.jl` lines 444-481. -/
def nondimensional_gibbs_free_energy_per_link (number_of_links : JArr Nat) (link_length : JArr α) (hinge_mass : JArr α) (nondimensional_persistance_length : JArr α) (nondimensional_end_to_end_length_per_link : JArr α) (temperature : JArr α) : Option (JArr α) :=
  JArr.ap (JArr.ap (JArr.ap (JArr.ap (JArr.ap (JArr.map (fun (number_of_links_i : Nat) (link_length_i : α) (hinge_mass_i : α) (nondimensional_persistance_length_i : α) (nondimensional_end_to_end_length_per_link_i : α) (temperature_i : α) => Polymers.C.physics_single_chain_wlc_thermodynamics_isotensional_nondimensional_gibbs_free_energy_per_link number_of_links_i link_length_i hinge_mass_i nondimensional_persistance_length_i nondimensional_end_to_end_length_per_link_i temperature_i) number_of_links) link_length) hinge_mass) nondimensional_persistance_length) nondimensional_end_to_end_length_per_link) temperature

/-- `src/physics/single_chain/wlc/thermodynamics/isotensional/mod.jl` lines 490-515. -/
def nondimensional_relative_gibbs_free_energy (number_of_links : JArr Nat) (nondimensional_persistance_length : JArr α) (nondimensional_end_to_end_length_per_link : JArr α) : Option (JArr α) :=
  JArr.ap (JArr.ap (JArr.map (fun (number_of_links_i : Nat) (nondimensional_persistance_length_i : α) (nondimensional_end_to_end_length_per_link_i : α) => Polymers.C.physics_single_chain_wlc_thermodynamics_isotensional_nondimensional_relative_gibbs_free_energy number_of_links_i nondimensional_persistance_length_i nondimensional_end_to_end_length_per_link_i) number_of_links) nondimensional_persistance_length) nondimensional_end_to_end_length_per_link

/-- `src/physics/single_chain/wlc/thermodynamics/isotensional/mod.jl` lines 523-548. -/
def nondimensional_relative_gibbs_free_energy_per_link (number_of_links : JArr Nat) (nondimensional_persistance_length : JArr α) (nondimensional_end_to_end_length_per_link : JArr α) : Option (JArr α) :=
  JArr.ap (JArr.ap (JArr.map (fun (number_of_links_i : Nat) (nondimensional_persistance_length_i : α) (nondimensional_end_to_end_length_per_link_i : α) => Polymers.C.physics_single_chain_wlc_thermodynamics_isotensional_nondimensional_relative_gibbs_free_energy_per_link number_of_links_i nondimensional_persistance_length_i nondimensional_end_to_end_length_per_link_i) number_of_links) nondimensional_persistance_length) nondimensional_end_to_end_length_per_link

/-- `src/physics/single_chain/wlc/thermodynamics/isotensional/mod.jl` lines 555-650. -/
def WLC.new (number_of_links : Nat) (link_length : α) (hinge_mass : α) (persistance_length : α) : Polymers.Julia.Wlc.Thermodynamics.Isotensional.WLC α :=
  let nondimensional_persistance_length : α := persistance_length / (number_of_links : α) / link_length
  Polymers.Julia.Wlc.Thermodynamics.Isotensional.WLC.mk
    number_of_links
    link_length
    hinge_mass
    persistance_length
    nondimensional_persistance_length
    (Polymers.Julia.Wlc.Thermodynamics.Isotensional.Legendre.WLC.new number_of_links link_length hinge_mass persistance_length)
    (fun (force : JArr α) (temperature : JArr α) => Polymers.Julia.Wlc.Thermodynamics.Isotensional.end_to_end_length (JArr.scalar number_of_links) (JArr.scalar link_length) (JArr.scalar persistance_length) force temperature)
    (fun (force : JArr α) (temperature : JArr α) => Polymers.Julia.Wlc.Thermodynamics.Isotensional.end_to_end_length_per_link (JArr.scalar number_of_links) (JArr.scalar link_length) (JArr.scalar persistance_length) force temperature)
    (fun (nondimensional_force : JArr α) => Polymers.Julia.Wlc.Thermodynamics.Isotensional.nondimensional_end_to_end_length (JArr.scalar number_of_links) (JArr.scalar nondimensional_persistance_length) nondimensional_force)
    (fun (nondimensional_force : JArr α) => Polymers.Julia.Wlc.Thermodynamics.Isotensional.nondimensional_end_to_end_length_per_link (JArr.scalar number_of_links) (JArr.scalar nondimensional_persistance_length) nondimensional_force)
    (fun (force : JArr α) (temperature : JArr α) => Polymers.Julia.Wlc.Thermodynamics.Isotensional.gibbs_free_energy (JArr.scalar number_of_links) (JArr.scalar link_length) (JArr.scalar hinge_mass) (JArr.scalar persistance_length) force temperature)
    (fun (force : JArr α) (temperature : JArr α) => Polymers.Julia.Wlc.Thermodynamics.Isotensional.gibbs_free_energy_per_link (JArr.scalar number_of_links) (JArr.scalar link_length) (JArr.scalar hinge_mass) (JArr.scalar persistance_length) force temperature)
    (fun (force : JArr α) (temperature : JArr α) => Polymers.Julia.Wlc.Thermodynamics.Isotensional.relative_gibbs_free_energy (JArr.scalar number_of_links) (JArr.scalar link_length) (JArr.scalar persistance_length) force temperature)
    (fun (force : JArr α) (temperature : JArr α) => Polymers.Julia.Wlc.Thermodynamics.Isotensional.relative_gibbs_free_energy_per_link (JArr.scalar number_of_links) (JArr.scalar link_length) (JArr.scalar persistance_length) force temperature)
    (fun (nondimensional_force : JArr α) (temperature : JArr α) => Polymers.Julia.Wlc.Thermodynamics.Isotensional.nondimensional_gibbs_free_energy (JArr.scalar number_of_links) (JArr.scalar link_length) (JArr.scalar hinge_mass) (JArr.scalar nondimensional_persistance_length) nondimensional_force temperature)
    (fun (nondimensional_force : JArr α) (temperature : JArr α) => Polymers.Julia.Wlc.Thermodynamics.Isotensional.nondimensional_gibbs_free_energy_per_link (JArr.scalar number_of_links) (JArr.scalar link_length) (JArr.scalar hinge_mass) (JArr.scalar nondimensional_persistance_length) nondimensional_force temperature)
    (fun (nondimensional_force : JArr α) => Polymers.Julia.Wlc.Thermodynamics.Isotensional.nondimensional_relative_gibbs_free_energy (JArr.scalar number_of_links) (JArr.scalar nondimensional_persistance_length) nondimensional_force)
    (fun (nondimensional_force : JArr α) => Polymers.Julia.Wlc.Thermodynamics.Isotensional.nondimensional_relative_gibbs_free_energy_per_link (JArr.scalar number_of_links) (JArr.scalar nondimensional_persistance_length) nondimensional_force)

end Polymers.Julia.Wlc.Thermodynamics.Isotensional

namespace Polymers.Julia.Wlc.Thermodynamics

/-- `src/physics/single_chain/wlc/thermodynamics/mod.jl` lines 48-62. -/
def WLC.new (pass : List (CArg α) → Registers α) (number_of_links : Nat) (link_length : α) (hinge_mass : α) (persistance_length : α) : Polymers.Julia.Wlc.Thermodynamics.WLC α :=
  Polymers.Julia.Wlc.Thermodynamics.WLC.mk
    number_of_links
    link_length
    hinge_mass
    persistance_length
    (Polymers.Julia.Wlc.Thermodynamics.Isometric.WLC.new pass number_of_links link_length hinge_mass persistance_length)
    (Polymers.Julia.Wlc.Thermodynamics.Isotensional.WLC.new number_of_links link_length hinge_mass persistance_length)

end Polymers.Julia.Wlc.Thermodynamics

namespace Polymers.Julia.Wlc

/-- `src/physics/single_chain/wlc/mod.jl` lines 43-56. -/
def WLC.new (pass : List (CArg α) → Registers α) (number_of_links : Nat) (link_length : α) (hinge_mass : α) (persistance_length : α) : Polymers.Julia.Wlc.WLC α :=
  Polymers.Julia.Wlc.WLC.mk
    number_of_links
    link_length
    hinge_mass
    persistance_length
    (Polymers.Julia.Wlc.Thermodynamics.WLC.new pass number_of_links link_length hinge_mass persistance_length)

end Polymers.Julia.Wlc
