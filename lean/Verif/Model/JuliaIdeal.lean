/- Generated by tools/jl2lean.py from the mod.jl files of /repo/src/physics/single_chain/ideal ; do not edit by hand. -/
import Verif.Model.CIdeal
import Verif.Model.JuliaBase

set_option linter.unusedVariables false

open Polymers Polymers.Julia

variable {α : Type} [Add α] [Sub α] [Mul α] [Div α] [Neg α] [OfScientific α] [NatCast α] [Elem α]

namespace Polymers.Julia.Ideal.Thermodynamics.Isometric

/-- `src/physics/single_chain/ideal/thermodynamics/isometric/mod.jl` lines 15-84: struct `IDEAL`. -/
structure IDEAL (α : Type) where
  /-- field `number_of_links::UInt8` -/
  number_of_links : Nat
  /-- field `link_length::Float64` -/
  link_length : α
  /-- field `hinge_mass::Float64` -/
  hinge_mass : α
  /-- field `force::Function` -/
  force : JArr α → JArr α → Option (JArr α)
  /-- field `nondimensional_force::Function` -/
  nondimensional_force : JArr α → Option (JArr α)
  /-- field `helmholtz_free_energy::Function` -/
  helmholtz_free_energy : JArr α → JArr α → Option (JArr α)
  /-- field `helmholtz_free_energy_per_link::Function` -/
  helmholtz_free_energy_per_link : JArr α → JArr α → Option (JArr α)
  /-- field `relative_helmholtz_free_energy::Function` -/
  relative_helmholtz_free_energy : JArr α → JArr α → Option (JArr α)
  /-- field `relative_helmholtz_free_energy_per_link::Function` -/
  relative_helmholtz_free_energy_per_link : JArr α → JArr α → Option (JArr α)
  /-- field `nondimensional_helmholtz_free_energy::Function` -/
  nondimensional_helmholtz_free_energy : JArr α → JArr α → Option (JArr α)
  /-- field `nondimensional_helmholtz_free_energy_per_link::Function` -/
  nondimensional_helmholtz_free_energy_per_link : JArr α → JArr α → Option (JArr α)
  /-- field `nondimensional_relative_helmholtz_free_energy::Function` -/
  nondimensional_relative_helmholtz_free_energy : JArr α → Option (JArr α)
  /-- field `nondimensional_relative_helmholtz_free_energy_per_link::Function` -/
  nondimensional_relative_helmholtz_free_energy_per_link : JArr α → Option (JArr α)
  /-- field `equilibrium_distribution::Function` -/
  equilibrium_distribution : JArr α → Option (JArr α)
  /-- field `nondimensional_equilibrium_distribution::Function` -/
  nondimensional_equilibrium_distribution : JArr α → Option (JArr α)
  /-- field `equilibrium_radial_distribution::Function` -/
  equilibrium_radial_distribution : JArr α → Option (JArr α)
  /-- field `nondimensional_equilibrium_radial_distribution::Function` -/
  nondimensional_equilibrium_radial_distribution : JArr α → Option (JArr α)

end Polymers.Julia.Ideal.Thermodynamics.Isometric

namespace Polymers.Julia.Ideal.Thermodynamics.Isotensional

/-- `src/physics/single_chain/ideal/thermodynamics/isotensional/mod.jl` lines 15-76: struct `IDEAL`. -/
structure IDEAL (α : Type) where
  /-- field `number_of_links::UInt8` -/
  number_of_links : Nat
  /-- field `link_length::Float64` -/
  link_length : α
  /-- field `hinge_mass::Float64` -/
  hinge_mass : α
  /-- field `end_to_end_length::Function` -/
  end_to_end_length : JArr α → JArr α → Option (JArr α)
  /-- field `end_to_end_length_per_link::Function` -/
  end_to_end_length_per_link : JArr α → JArr α → Option (JArr α)
  /-- field `nondimensional_end_to_end_length::Function` -/
  nondimensional_end_to_end_length : JArr α → Option (JArr α)
  /-- field `nondimensional_end_to_end_length_per_link::Function` -/
  nondimensional_end_to_end_length_per_link : JArr α → Option (JArr α)
  /-- field `gibbs_free_energy::Function` -/
  gibbs_free_energy : JArr α → JArr α → Option (JArr α)
  /-- field `gibbs_free_energy_per_link::Function` -/
  gibbs_free_energy_per_link : JArr α → JArr α → Option (JArr α)
  /-- field `relative_gibbs_free_energy::Function` -/
  relative_gibbs_free_energy : JArr α → JArr α → Option (JArr α)
  /-- field `relative_gibbs_free_energy_per_link::Function` -/
  relative_gibbs_free_energy_per_link : JArr α → JArr α → Option (JArr α)
  /-- field `nondimensional_gibbs_free_energy::Function` -/
  nondimensional_gibbs_free_energy : JArr α → JArr α → Option (JArr α)
  /-- field `nondimensional_gibbs_free_energy_per_link::Function` -/
  nondimensional_gibbs_free_energy_per_link : JArr α → JArr α → Option (JArr α)
  /-- field `nondimensional_relative_gibbs_free_energy::Function` -/
  nondimensional_relative_gibbs_free_energy : JArr α → Option (JArr α)
  /-- field `nondimensional_relative_gibbs_free_energy_per_link::Function` -/
  nondimensional_relative_gibbs_free_energy_per_link : JArr α → Option (JArr α)

end Polymers.Julia.Ideal.Thermodynamics.Isotensional

namespace Polymers.Julia.Ideal.Thermodynamics

/-- `src/physics/single_chain/ideal/thermodynamics/mod.jl` lines 16-37: struct `IDEAL`. -/
structure IDEAL (α : Type) where
  /-- field `number_of_links::UInt8` -/
  number_of_links : Nat
  /-- field `link_length::Float64` -/
  link_length : α
  /-- field `hinge_mass::Float64` -/
  hinge_mass : α
  /-- field `isometric::Any` -/
  isometric : Polymers.Julia.Ideal.Thermodynamics.Isometric.IDEAL α
  /-- field `isotensional::Any` -/
  isotensional : Polymers.Julia.Ideal.Thermodynamics.Isotensional.IDEAL α

end Polymers.Julia.Ideal.Thermodynamics

namespace Polymers.Julia.Ideal

/-- `src/physics/single_chain/ideal/mod.jl` lines 15-32: struct `IDEAL`. -/
structure IDEAL (α : Type) where
  /-- field `number_of_links::UInt8` -/
  number_of_links : Nat
  /-- field `link_length::Float64` -/
  link_length : α
  /-- field `hinge_mass::Float64` -/
  hinge_mass : α
  /-- field `thermodynamics::Any` -/
  thermodynamics : Polymers.Julia.Ideal.Thermodynamics.IDEAL α

end Polymers.Julia.Ideal

namespace Polymers.Julia.Ideal.Thermodynamics.Isometric

/-- `src/physics/single_chain/ideal/thermodynamics/isometric/mod.jl` lines 96-120. -/
def force (number_of_links : JArr Nat) (link_length : JArr α) (end_to_end_length : JArr α) (temperature : JArr α) : Option (JArr α) :=
  JArr.ap (JArr.ap (JArr.ap (JArr.map (fun (number_of_links_i : Nat) (link_length_i : α) (end_to_end_length_i : α) (temperature_i : α) => Polymers.C.physics_single_chain_ideal_thermodynamics_isometric_force number_of_links_i link_length_i end_to_end_length_i temperature_i) number_of_links) link_length) end_to_end_length) temperature

/-- `src/physics/single_chain/ideal/thermodynamics/isometric/mod.jl` lines 131-146. -/
def nondimensional_force (nondimensional_end_to_end_length_per_link : JArr α) : Option (JArr α) :=
  JArr.map (fun (nondimensional_end_to_end_length_per_link_i : α) => Polymers.C.physics_single_chain_ideal_thermodynamics_isometric_nondimensional_force nondimensional_end_to_end_length_per_link_i) nondimensional_end_to_end_length_per_link

/-- `src/physics/single_chain/ideal/thermodynamics/isometric/mod.jl` lines 158-191. -/
def helmholtz_free_energy (number_of_links : JArr Nat) (link_length : JArr α) (hinge_mass : JArr α) (end_to_end_length : JArr α) (temperature : JArr α) : Option (JArr α) :=
  JArr.ap (JArr.ap (JArr.ap (JArr.ap (JArr.map (fun (number_of_links_i : Nat) (link_length_i : α) (hinge_mass_i : α) (end_to_end_length_i : α) (temperature_i : α) => Polymers.C.physics_single_chain_ideal_thermodynamics_isometric_helmholtz_free_energy number_of_links_i link_length_i hinge_mass_i end_to_end_length_i temperature_i) number_of_links) link_length) hinge_mass) end_to_end_length) temperature

/-- `src/physics/single_chain/ideal/thermodynamics/isometric/mod.jl` lines 199-232. -/
def helmholtz_free_energy_per_link (number_of_links : JArr Nat) (link_length : JArr α) (hinge_mass : JArr α) (end_to_end_length : JArr α) (temperature : JArr α) : Option (JArr α) :=
  JArr.ap (JArr.ap (JArr.ap (JArr.ap (JArr.map (fun (number_of_links_i : Nat) (link_length_i : α) (hinge_mass_i : α) (end_to_end_length_i : α) (temperature_i : α) => Polymers.C.physics_single_chain_ideal_thermodynamics_isometric_helmholtz_free_energy_per_link number_of_links_i link_length_i hinge_mass_i end_to_end_length_i temperature_i) number_of_links) link_length) hinge_mass) end_to_end_length) temperature

/-- `src/physics/single_chain/ideal/thermodynamics/isometric/mod.jl` lines 244-268. -/
def relative_helmholtz_free_energy (number_of_links : JArr Nat) (link_length : JArr α) (end_to_end_length : JArr α) (temperature : JArr α) : Option (JArr α) :=
  JArr.ap (JArr.ap (JArr.ap (JArr.map (fun (number_of_links_i : Nat) (link_length_i : α) (end_to_end_length_i : α) (temperature_i : α) => Polymers.C.physics_single_chain_ideal_thermodynamics_isometric_relative_helmholtz_free_energy number_of_links_i link_length_i end_to_end_length_i temperature_i) number_of_links) link_length) end_to_end_length) temperature

/-- `src/physics/single_chain/ideal/thermodynamics/isometric/mod.jl` lines 276-300. -/
def relative_helmholtz_free_energy_per_link (number_of_links : JArr Nat) (link_length : JArr α) (end_to_end_length : JArr α) (temperature : JArr α) : Option (JArr α) :=
  JArr.ap (JArr.ap (JArr.ap (JArr.map (fun (number_of_links_i : Nat) (link_length_i : α) (end_to_end_length_i : α) (temperature_i : α) => Polymers.C.physics_single_chain_ideal_thermodynamics_isometric_relative_helmholtz_free_energy_per_link number_of_links_i link_length_i end_to_end_length_i temperature_i) number_of_links) link_length) end_to_end_length) temperature

/-- `src/physics/single_chain/ideal/thermodynamics/isometric/mod.jl` lines 308-341. -/
def nondimensional_helmholtz_free_energy (number_of_links : JArr Nat) (link_length : JArr α) (hinge_mass : JArr α) (nondimensional_end_to_end_length_per_link : JArr α) (temperature : JArr α) : Option (JArr α) :=
  JArr.ap (JArr.ap (JArr.ap (JArr.ap (JArr.map (fun (number_of_links_i : Nat) (link_length_i : α) (hinge_mass_i : α) (nondimensional_end_to_end_length_per_link_i : α) (temperature_i : α) => Polymers.C.physics_single_chain_ideal_thermodynamics_isometric_nondimensional_helmholtz_free_energy number_of_links_i link_length_i hinge_mass_i nondimensional_end_to_end_length_per_link_i temperature_i) number_of_links) link_length) hinge_mass) nondimensional_end_to_end_length_per_link) temperature

/-- `src/physics/single_chain/ideal/thermodynamics/isometric/mod.jl` lines 349-378. -/
def nondimensional_helmholtz_free_energy_per_link (link_length : JArr α) (hinge_mass : JArr α) (nondimensional_end_to_end_length_per_link : JArr α) (temperature : JArr α) : Option (JArr α) :=
  JArr.ap (JArr.ap (JArr.ap (JArr.map (fun (link_length_i : α) (hinge_mass_i : α) (nondimensional_end_to_end_length_per_link_i : α) (temperature_i : α) => Polymers.C.physics_single_chain_ideal_thermodynamics_isometric_nondimensional_helmholtz_free_energy_per_link link_length_i hinge_mass_i nondimensional_end_to_end_length_per_link_i temperature_i) link_length) hinge_mass) nondimensional_end_to_end_length_per_link) temperature

/-- `src/physics/single_chain/ideal/thermodynamics/isometric/mod.jl` lines 390-408. -/
def nondimensional_relative_helmholtz_free_energy (number_of_links : JArr Nat) (nondimensional_end_to_end_length_per_link : JArr α) : Option (JArr α) :=
  JArr.ap (JArr.map (fun (number_of_links_i : Nat) (nondimensional_end_to_end_length_per_link_i : α) => Polymers.C.physics_single_chain_ideal_thermodynamics_isometric_nondimensional_relative_helmholtz_free_energy number_of_links_i nondimensional_end_to_end_length_per_link_i) number_of_links) nondimensional_end_to_end_length_per_link

/-- `src/physics/single_chain/ideal/thermodynamics/isometric/mod.jl` lines 420-435. -/
def nondimensional_relative_helmholtz_free_energy_per_link (nondimensional_end_to_end_length_per_link : JArr α) : Option (JArr α) :=
  JArr.map (fun (nondimensional_end_to_end_length_per_link_i : α) => Polymers.C.physics_single_chain_ideal_thermodynamics_isometric_nondimensional_relative_helmholtz_free_energy_per_link nondimensional_end_to_end_length_per_link_i) nondimensional_end_to_end_length_per_link

/-- `src/physics/single_chain/ideal/thermodynamics/isometric/mod.jl` lines 447-468. -/
def equilibrium_distribution (number_of_links : JArr Nat) (link_length : JArr α) (end_to_end_length : JArr α) : Option (JArr α) :=
  JArr.ap (JArr.ap (JArr.map (fun (number_of_links_i : Nat) (link_length_i : α) (end_to_end_length_i : α) => Polymers.C.physics_single_chain_ideal_thermodynamics_isometric_equilibrium_distribution number_of_links_i link_length_i end_to_end_length_i) number_of_links) link_length) end_to_end_length

/-- `src/physics/single_chain/ideal/thermodynamics/isometric/mod.jl` lines 480-498. -/
def nondimensional_equilibrium_distribution (number_of_links : JArr Nat) (nondimensional_end_to_end_length_per_link : JArr α) : Option (JArr α) :=
  JArr.ap (JArr.map (fun (number_of_links_i : Nat) (nondimensional_end_to_end_length_per_link_i : α) => Polymers.C.physics_single_chain_ideal_thermodynamics_isometric_nondimensional_equilibrium_distribution number_of_links_i nondimensional_end_to_end_length_per_link_i) number_of_links) nondimensional_end_to_end_length_per_link

/-- `src/physics/single_chain/ideal/thermodynamics/isometric/mod.jl` lines 510-531. -/
def equilibrium_radial_distribution (number_of_links : JArr Nat) (link_length : JArr α) (end_to_end_length : JArr α) : Option (JArr α) :=
  JArr.ap (JArr.ap (JArr.map (fun (number_of_links_i : Nat) (link_length_i : α) (end_to_end_length_i : α) => Polymers.C.physics_single_chain_ideal_thermodynamics_isometric_equilibrium_radial_distribution number_of_links_i link_length_i end_to_end_length_i) number_of_links) link_length) end_to_end_length

/-- `src/physics/single_chain/ideal/thermodynamics/isometric/mod.jl` lines 543-561. -/
def nondimensional_equilibrium_radial_distribution (number_of_links : JArr Nat) (nondimensional_end_to_end_length_per_link : JArr α) : Option (JArr α) :=
  JArr.ap (JArr.map (fun (number_of_links_i : Nat) (nondimensional_end_to_end_length_per_link_i : α) => Polymers.C.physics_single_chain_ideal_thermodynamics_isometric_nondimensional_equilibrium_radial_distribution number_of_links_i nondimensional_end_to_end_length_per_link_i) number_of_links) nondimensional_end_to_end_length_per_link

/-- `src/physics/single_chain/ideal/thermodynamics/isometric/mod.jl` lines 568-645. -/
def IDEAL.new (number_of_links : Nat) (link_length : α) (hinge_mass : α) : Polymers.Julia.Ideal.Thermodynamics.Isometric.IDEAL α :=
  Polymers.Julia.Ideal.Thermodynamics.Isometric.IDEAL.mk
    number_of_links
    link_length
    hinge_mass
    (fun (end_to_end_length : JArr α) (temperature : JArr α) => Polymers.Julia.Ideal.Thermodynamics.Isometric.force (JArr.scalar number_of_links) (JArr.scalar link_length) end_to_end_length temperature)
    (fun (nondimensional_end_to_end_length_per_link : JArr α) => Polymers.Julia.Ideal.Thermodynamics.Isometric.nondimensional_force nondimensional_end_to_end_length_per_link)
    (fun (end_to_end_length : JArr α) (temperature : JArr α) => Polymers.Julia.Ideal.Thermodynamics.Isometric.helmholtz_free_energy (JArr.scalar number_of_links) (JArr.scalar link_length) (JArr.scalar hinge_mass) end_to_end_length temperature)
    (fun (end_to_end_length : JArr α) (temperature : JArr α) => Polymers.Julia.Ideal.Thermodynamics.Isometric.helmholtz_free_energy_per_link (JArr.scalar number_of_links) (JArr.scalar link_length) (JArr.scalar hinge_mass) end_to_end_length temperature)
    (fun (end_to_end_length : JArr α) (temperature : JArr α) => Polymers.Julia.Ideal.Thermodynamics.Isometric.relative_helmholtz_free_energy (JArr.scalar number_of_links) (JArr.scalar link_length) end_to_end_length temperature)
    (fun (end_to_end_length : JArr α) (temperature : JArr α) => Polymers.Julia.Ideal.Thermodynamics.Isometric.relative_helmholtz_free_energy_per_link (JArr.scalar number_of_links) (JArr.scalar link_length) end_to_end_length temperature)
    (fun (nondimensional_end_to_end_length_per_link : JArr α) (temperature : JArr α) => Polymers.Julia.Ideal.Thermodynamics.Isometric.nondimensional_helmholtz_free_energy (JArr.scalar number_of_links) (JArr.scalar link_length) (JArr.scalar hinge_mass) nondimensional_end_to_end_length_per_link temperature)
    (fun (nondimensional_end_to_end_length_per_link : JArr α) (temperature : JArr α) => Polymers.Julia.Ideal.Thermodynamics.Isometric.nondimensional_helmholtz_free_energy_per_link (JArr.scalar link_length) (JArr.scalar hinge_mass) nondimensional_end_to_end_length_per_link temperature)
    (fun (nondimensional_end_to_end_length_per_link : JArr α) => Polymers.Julia.Ideal.Thermodynamics.Isometric.nondimensional_relative_helmholtz_free_energy (JArr.scalar number_of_links) nondimensional_end_to_end_length_per_link)
    (fun (nondimensional_end_to_end_length_per_link : JArr α) => Polymers.Julia.Ideal.Thermodynamics.Isometric.nondimensional_relative_helmholtz_free_energy_per_link nondimensional_end_to_end_length_per_link)
    (fun (end_to_end_length : JArr α) => Polymers.Julia.Ideal.Thermodynamics.Isometric.equilibrium_distribution (JArr.scalar number_of_links) (JArr.scalar link_length) end_to_end_length)
    (fun (nondimensional_end_to_end_length_per_link : JArr α) => Polymers.Julia.Ideal.Thermodynamics.Isometric.nondimensional_equilibrium_distribution (JArr.scalar number_of_links) nondimensional_end_to_end_length_per_link)
    (fun (end_to_end_length : JArr α) => Polymers.Julia.Ideal.Thermodynamics.Isometric.equilibrium_radial_distribution (JArr.scalar number_of_links) (JArr.scalar link_length) end_to_end_length)
    (fun (nondimensional_end_to_end_length_per_link : JArr α) => Polymers.Julia.Ideal.Thermodynamics.Isometric.nondimensional_equilibrium_radial_distribution (JArr.scalar number_of_links) nondimensional_end_to_end_length_per_link)

end Polymers.Julia.Ideal.Thermodynamics.Isometric

namespace Polymers.Julia.Ideal.Thermodynamics.Isotensional

/-- `src/physics/single_chain/ideal/thermodynamics/isotensional/mod.jl` lines 88-112. -/
def end_to_end_length (number_of_links : JArr Nat) (link_length : JArr α) (force : JArr α) (temperature : JArr α) : Option (JArr α) :=
  JArr.ap (JArr.ap (JArr.ap (JArr.map (fun (number_of_links_i : Nat) (link_length_i : α) (force_i : α) (temperature_i : α) => Polymers.C.physics_single_chain_ideal_thermodynamics_isotensional_end_to_end_length number_of_links_i link_length_i force_i temperature_i) number_of_links) link_length) force) temperature

/-- `src/physics/single_chain/ideal/thermodynamics/isotensional/mod.jl` lines 120-141. -/
def end_to_end_length_per_link (link_length : JArr α) (force : JArr α) (temperature : JArr α) : Option (JArr α) :=
  JArr.ap (JArr.ap (JArr.map (fun (link_length_i : α) (force_i : α) (temperature_i : α) => Polymers.C.physics_single_chain_ideal_thermodynamics_isotensional_end_to_end_length_per_link link_length_i force_i temperature_i) link_length) force) temperature

/-- `src/physics/single_chain/ideal/thermodynamics/isotensional/mod.jl` lines 149-167. -/
def nondimensional_end_to_end_length (number_of_links : JArr Nat) (nondimensional_force : JArr α) : Option (JArr α) :=
  JArr.ap (JArr.map (fun (number_of_links_i : Nat) (nondimensional_force_i : α) => Polymers.C.physics_single_chain_ideal_thermodynamics_isotensional_nondimensional_end_to_end_length number_of_links_i nondimensional_force_i) number_of_links) nondimensional_force

/-- `src/physics/single_chain/ideal/thermodynamics/isotensional/mod.jl` lines 178-193. -/
def nondimensional_end_to_end_length_per_link (nondimensional_force : JArr α) : Option (JArr α) :=
  JArr.map (fun (nondimensional_force_i : α) => Polymers.C.physics_single_chain_ideal_thermodynamics_isotensional_nondimensional_end_to_end_length_per_link nondimensional_force_i) nondimensional_force

/-- `src/physics/single_chain/ideal/thermodynamics/isotensional/mod.jl` lines 205-232. -/
def gibbs_free_energy (number_of_links : JArr Nat) (link_length : JArr α) (hinge_mass : JArr α) (force : JArr α) (temperature : JArr α) : Option (JArr α) :=
  JArr.ap (JArr.ap (JArr.ap (JArr.ap (JArr.map (fun (number_of_links_i : Nat) (link_length_i : α) (hinge_mass_i : α) (force_i : α) (temperature_i : α) => Polymers.C.physics_single_chain_ideal_thermodynamics_isotensional_gibbs_free_energy number_of_links_i link_length_i hinge_mass_i force_i temperature_i) number_of_links) link_length) hinge_mass) force) temperature

/-- `src/physics/single_chain/ideal/thermodynamics/isotensional/mod.jl` lines 240-264. -/
def gibbs_free_energy_per_link (link_length : JArr α) (hinge_mass : JArr α) (force : JArr α) (temperature : JArr α) : Option (JArr α) :=
  JArr.ap (JArr.ap (JArr.ap (JArr.map (fun (link_length_i : α) (hinge_mass_i : α) (force_i : α) (temperature_i : α) => Polymers.C.physics_single_chain_ideal_thermodynamics_isotensional_gibbs_free_energy_per_link link_length_i hinge_mass_i force_i temperature_i) link_length) hinge_mass) force) temperature

/-- `src/physics/single_chain/ideal/thermodynamics/isotensional/mod.jl` lines 276-300. -/
def relative_gibbs_free_energy (number_of_links : JArr Nat) (link_length : JArr α) (force : JArr α) (temperature : JArr α) : Option (JArr α) :=
  JArr.ap (JArr.ap (JArr.ap (JArr.map (fun (number_of_links_i : Nat) (link_length_i : α) (force_i : α) (temperature_i : α) => Polymers.C.physics_single_chain_ideal_thermodynamics_isotensional_relative_gibbs_free_energy number_of_links_i link_length_i force_i temperature_i) number_of_links) link_length) force) temperature

/-- `src/physics/single_chain/ideal/thermodynamics/isotensional/mod.jl` lines 308-329. -/
def relative_gibbs_free_energy_per_link (link_length : JArr α) (force : JArr α) (temperature : JArr α) : Option (JArr α) :=
  JArr.ap (JArr.ap (JArr.map (fun (link_length_i : α) (force_i : α) (temperature_i : α) => Polymers.C.physics_single_chain_ideal_thermodynamics_isotensional_relative_gibbs_free_energy_per_link link_length_i force_i temperature_i) link_length) force) temperature

/-- `src/physics/single_chain/ideal/thermodynamics/isotensional/mod.jl` lines 337-370. -/
def nondimensional_gibbs_free_energy (number_of_links : JArr Nat) (link_length : JArr α) (hinge_mass : JArr α) (nondimensional_force : JArr α) (temperature : JArr α) : Option (JArr α) :=
  JArr.ap (JArr.ap (JArr.ap (JArr.ap (JArr.map (fun (number_of_links_i : Nat) (link_length_i : α) (hinge_mass_i : α) (nondimensional_force_i : α) (temperature_i : α) => Polymers.C.physics_single_chain_ideal_thermodynamics_isotensional_nondimensional_gibbs_free_energy number_of_links_i link_length_i hinge_mass_i nondimensional_force_i temperature_i) number_of_links) link_length) hinge_mass) nondimensional_force) temperature

/-- `src/physics/single_chain/ideal/thermodynamics/isotensional/mod.jl` lines 378-402. -/
def nondimensional_gibbs_free_energy_per_link (link_length : JArr α) (hinge_mass : JArr α) (nondimensional_force : JArr α) (temperature : JArr α) : Option (JArr α) :=
  JArr.ap (JArr.ap (JArr.ap (JArr.map (fun (link_length_i : α) (hinge_mass_i : α) (nondimensional_force_i : α) (temperature_i : α) => Polymers.C.physics_single_chain_ideal_thermodynamics_isotensional_nondimensional_gibbs_free_energy_per_link link_length_i hinge_mass_i nondimensional_force_i temperature_i) link_length) hinge_mass) nondimensional_force) temperature

/-- `src/physics/single_chain/ideal/thermodynamics/isotensional/mod.jl` lines 410-428. -/
def nondimensional_relative_gibbs_free_energy (number_of_links : JArr Nat) (nondimensional_force : JArr α) : Option (JArr α) :=
  JArr.ap (JArr.map (fun (number_of_links_i : Nat) (nondimensional_force_i : α) => Polymers.C.physics_single_chain_ideal_thermodynamics_isotensional_nondimensional_relative_gibbs_free_energy number_of_links_i nondimensional_force_i) number_of_links) nondimensional_force

/-- `src/physics/single_chain/ideal/thermodynamics/isotensional/mod.jl` lines 439-454. -/
def nondimensional_relative_gibbs_free_energy_per_link (nondimensional_force : JArr α) : Option (JArr α) :=
  JArr.map (fun (nondimensional_force_i : α) => Polymers.C.physics_single_chain_ideal_thermodynamics_isotensional_nondimensional_relative_gibbs_free_energy_per_link nondimensional_force_i) nondimensional_force

/-- `src/physics/single_chain/ideal/thermodynamics/isotensional/mod.jl` lines 461-501. -/
def IDEAL.new (number_of_links : Nat) (link_length : α) (hinge_mass : α) : Polymers.Julia.Ideal.Thermodynamics.Isotensional.IDEAL α :=
  Polymers.Julia.Ideal.Thermodynamics.Isotensional.IDEAL.mk
    number_of_links
    link_length
    hinge_mass
    (fun (force : JArr α) (temperature : JArr α) => Polymers.Julia.Ideal.Thermodynamics.Isotensional.end_to_end_length (JArr.scalar number_of_links) (JArr.scalar link_length) force temperature)
    (fun (force : JArr α) (temperature : JArr α) => Polymers.Julia.Ideal.Thermodynamics.Isotensional.end_to_end_length_per_link (JArr.scalar link_length) force temperature)
    (fun (nondimensional_force : JArr α) => Polymers.Julia.Ideal.Thermodynamics.Isotensional.nondimensional_end_to_end_length (JArr.scalar number_of_links) nondimensional_force)
    (fun (nondimensional_force : JArr α) => Polymers.Julia.Ideal.Thermodynamics.Isotensional.nondimensional_end_to_end_length_per_link nondimensional_force)
    (fun (force : JArr α) (temperature : JArr α) => Polymers.Julia.Ideal.Thermodynamics.Isotensional.gibbs_free_energy (JArr.scalar number_of_links) (JArr.scalar link_length) (JArr.scalar hinge_mass) force temperature)
    (fun (force : JArr α) (temperature : JArr α) => Polymers.Julia.Ideal.Thermodynamics.Isotensional.gibbs_free_energy_per_link (JArr.scalar link_length) (JArr.scalar hinge_mass) force temperature)
    (fun (force : JArr α) (temperature : JArr α) => Polymers.Julia.Ideal.Thermodynamics.Isotensional.relative_gibbs_free_energy (JArr.scalar number_of_links) (JArr.scalar link_length) force temperature)
    (fun (force : JArr α) (temperature : JArr α) => Polymers.Julia.Ideal.Thermodynamics.Isotensional.relative_gibbs_free_energy_per_link (JArr.scalar link_length) force temperature)
    (fun (nondimensional_force : JArr α) (temperature : JArr α) => Polymers.Julia.Ideal.Thermodynamics.Isotensional.nondimensional_gibbs_free_energy (JArr.scalar number_of_links) (JArr.scalar link_length) (JArr.scalar hinge_mass) nondimensional_force temperature)
    (fun (nondimensional_force : JArr α) (temperature : JArr α) => Polymers.Julia.Ideal.Thermodynamics.Isotensional.nondimensional_gibbs_free_energy_per_link (JArr.scalar link_length) (JArr.scalar hinge_mass) nondimensional_force temperature)
    (fun (nondimensional_force : JArr α) => Polymers.Julia.Ideal.Thermodynamics.Isotensional.nondimensional_relative_gibbs_free_energy (JArr.scalar number_of_links) nondimensional_force)
    (fun (nondimensional_force : JArr α) => Polymers.Julia.Ideal.Thermodynamics.Isotensional.nondimensional_relative_gibbs_free_energy_per_link nondimensional_force)

end Polymers.Julia.Ideal.Thermodynamics.Isotensional

namespace Polymers.Julia.Ideal.Thermodynamics

/-- `src/physics/single_chain/ideal/thermodynamics/mod.jl` lines 44-52. -/
def IDEAL.new (number_of_links : Nat) (link_length : α) (hinge_mass : α) : Polymers.Julia.Ideal.Thermodynamics.IDEAL α :=
  Polymers.Julia.Ideal.Thermodynamics.IDEAL.mk
    number_of_links
    link_length
    hinge_mass
    (Polymers.Julia.Ideal.Thermodynamics.Isometric.IDEAL.new number_of_links link_length hinge_mass)
    (Polymers.Julia.Ideal.Thermodynamics.Isotensional.IDEAL.new number_of_links link_length hinge_mass)

end Polymers.Julia.Ideal.Thermodynamics

namespace Polymers.Julia.Ideal

/-- `src/physics/single_chain/ideal/mod.jl` lines 39-46. -/
def IDEAL.new (number_of_links : Nat) (link_length : α) (hinge_mass : α) : Polymers.Julia.Ideal.IDEAL α :=
  Polymers.Julia.Ideal.IDEAL.mk
    number_of_links
    link_length
    hinge_mass
    (Polymers.Julia.Ideal.Thermodynamics.IDEAL.new number_of_links link_length hinge_mass)

end Polymers.Julia.Ideal
