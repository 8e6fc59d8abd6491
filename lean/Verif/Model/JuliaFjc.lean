/- Generated by tools/jl2lean.py from the mod.jl files of /repo/src/physics/single_chain/fjc ; do not edit by hand. -/
import Verif.Model.CFjc
import Verif.Model.JuliaBase

set_option linter.unusedVariables false

open Polymers Polymers.Julia

variable {α : Type} [Add α] [Sub α] [Mul α] [Div α] [Neg α] [OfScientific α] [NatCast α] [Elem α]

namespace Polymers.Julia.Fjc.Thermodynamics.Isometric.Legendre

/-- `src/physics/single_chain/fjc/thermodynamics/isometric/legendre/mod.jl` lines 15-117: struct `FJC`. -/
structure FJC (α : Type) where
  /-- field `number_of_links::UInt8` -/
  number_of_links : Nat
  /-- field `link_length::Float64` -/
  link_length : α
  /-- field `hinge_mass::Float64` -/
  hinge_mass : α
  /-- field `normalization_nondimensional_equilibrium_distribution::Float64` -/
  normalization_nondimensional_equilibrium_distribution : α
  /-- field `force::Function` -/
  force : JArr α → JArr α → Option (JArr α)
  /-- field `nondimensional_force::Function` -/
  nondimensional_force : JArr α → Option (JArr α)
  /-- field `helmholtz_free_energy::Function` -/
  helmholtz_free_energy : JArr α → JArr α → Option (JArr α)
  /-- field `helmholtz_free_energy_per_link::Function` -/
  helmholtz_free_energy_per_link : JArr α → JArr α → Option (JArr α)
  /-- field `relative_helmholtz_free_energy::Function` -/
  relative_helmholtz_free_energy : JArr α → JArr α → Option (JArr α)
  /-- field `relative_helmholtz_free_energy_per_link::Function` -/
  relative_helmholtz_free_energy_per_link : JArr α → JArr α → Option (JArr α)
  /-- field `nondimensional_helmholtz_free_energy::Function` -/
  nondimensional_helmholtz_free_energy : JArr α → JArr α → Option (JArr α)
  /-- field `nondimensional_helmholtz_free_energy_per_link::Function` -/
  nondimensional_helmholtz_free_energy_per_link : JArr α → JArr α → Option (JArr α)
  /-- field `nondimensional_relative_helmholtz_free_energy::Function` -/
  nondimensional_relative_helmholtz_free_energy : JArr α → Option (JArr α)
  /-- field `nondimensional_relative_helmholtz_free_energy_per_link::Function` -/
  nondimensional_relative_helmholtz_free_energy_per_link : JArr α → Option (JArr α)
  /-- field `equilibrium_distribution::Function` -/
  equilibrium_distribution : JArr α → Option (JArr α)
  /-- field `nondimensional_equilibrium_distribution::Function` -/
  nondimensional_equilibrium_distribution : JArr α → Option (JArr α)
  /-- field `equilibrium_radial_distribution::Function` -/
  equilibrium_radial_distribution : JArr α → Option (JArr α)
  /-- field `nondimensional_equilibrium_radial_distribution::Function` -/
  nondimensional_equilibrium_radial_distribution : JArr α → Option (JArr α)
  /-- field `gibbs_free_energy::Function` -/
  gibbs_free_energy : JArr α → JArr α → Option (JArr α)
  /-- field `gibbs_free_energy_per_link::Function` -/
  gibbs_free_energy_per_link : JArr α → JArr α → Option (JArr α)
  /-- field `relative_gibbs_free_energy::Function` -/
  relative_gibbs_free_energy : JArr α → JArr α → Option (JArr α)
  /-- field `relative_gibbs_free_energy_per_link::Function` -/
  relative_gibbs_free_energy_per_link : JArr α → JArr α → Option (JArr α)
  /-- field `nondimensional_gibbs_free_energy::Function` -/
  nondimensional_gibbs_free_energy : JArr α → JArr α → Option (JArr α)
  /-- field `nondimensional_gibbs_free_energy_per_link::Function` -/
  nondimensional_gibbs_free_energy_per_link : JArr α → JArr α → Option (JArr α)
  /-- field `nondimensional_relative_gibbs_free_energy::Function` -/
  nondimensional_relative_gibbs_free_energy : JArr α → Option (JArr α)
  /-- field `nondimensional_relative_gibbs_free_energy_per_link::Function` -/
  nondimensional_relative_gibbs_free_energy_per_link : JArr α → Option (JArr α)

end Polymers.Julia.Fjc.Thermodynamics.Isometric.Legendre

namespace Polymers.Julia.Fjc.Thermodynamics.Isometric

/-- `src/physics/single_chain/fjc/thermodynamics/isometric/mod.jl` lines 17-90: struct `FJC`. -/
structure FJC (α : Type) where
  /-- field `number_of_links::UInt8` -/
  number_of_links : Nat
  /-- field `link_length::Float64` -/
  link_length : α
  /-- field `hinge_mass::Float64` -/
  hinge_mass : α
  /-- field `legendre::Any` -/
  legendre : Polymers.Julia.Fjc.Thermodynamics.Isometric.Legendre.FJC α
  /-- field `force::Function` -/
  force : JArr α → JArr α → Option (JArr α)
  /-- field `nondimensional_force::Function` -/
  nondimensional_force : JArr α → Option (JArr α)
  /-- field `helmholtz_free_energy::Function` -/
  helmholtz_free_energy : JArr α → JArr α → Option (JArr α)
  /-- field `helmholtz_free_energy_per_link::Function` -/
  helmholtz_free_energy_per_link : JArr α → JArr α → Option (JArr α)
  /-- field `relative_helmholtz_free_energy::Function` -/
  relative_helmholtz_free_energy : JArr α → JArr α → Option (JArr α)
  /-- field `relative_helmholtz_free_energy_per_link::Function` -/
  relative_helmholtz_free_energy_per_link : JArr α → JArr α → Option (JArr α)
  /-- field `nondimensional_helmholtz_free_energy::Function` -/
  nondimensional_helmholtz_free_energy : JArr α → JArr α → Option (JArr α)
  /-- field `nondimensional_helmholtz_free_energy_per_link::Function` -/
  nondimensional_helmholtz_free_energy_per_link : JArr α → JArr α → Option (JArr α)
  /-- field `nondimensional_relative_helmholtz_free_energy::Function` -/
  nondimensional_relative_helmholtz_free_energy : JArr α → Option (JArr α)
  /-- field `nondimensional_relative_helmholtz_free_energy_per_link::Function` -/
  nondimensional_relative_helmholtz_free_energy_per_link : JArr α → Option (JArr α)
  /-- field `equilibrium_distribution::Function` -/
  equilibrium_distribution : JArr α → Option (JArr α)
  /-- field `nondimensional_equilibrium_distribution::Function` -/
  nondimensional_equilibrium_distribution : JArr α → Option (JArr α)
  /-- field `equilibrium_radial_distribution::Function` -/
  equilibrium_radial_distribution : JArr α → Option (JArr α)
  /-- field `nondimensional_equilibrium_radial_distribution::Function` -/
  nondimensional_equilibrium_radial_distribution : JArr α → Option (JArr α)

end Polymers.Julia.Fjc.Thermodynamics.Isometric

namespace Polymers.Julia.Fjc.Thermodynamics.Isotensional.Legendre

/-- `src/physics/single_chain/fjc/thermodynamics/isotensional/legendre/mod.jl` lines 14-59: struct `FJC`. -/
structure FJC (α : Type) where
  /-- field `number_of_links::UInt8` -/
  number_of_links : Nat
  /-- field `link_length::Float64` -/
  link_length : α
  /-- field `hinge_mass::Float64` -/
  hinge_mass : α
  /-- field `helmholtz_free_energy::Function` -/
  helmholtz_free_energy : JArr α → JArr α → Option (JArr α)
  /-- field `helmholtz_free_energy_per_link::Function` -/
  helmholtz_free_energy_per_link : JArr α → JArr α → Option (JArr α)
  /-- field `relative_helmholtz_free_energy::Function` -/
  relative_helmholtz_free_energy : JArr α → JArr α → Option (JArr α)
  /-- field `relative_helmholtz_free_energy_per_link::Function` -/
  relative_helmholtz_free_energy_per_link : JArr α → JArr α → Option (JArr α)
  /-- field `nondimensional_helmholtz_free_energy::Function` -/
  nondimensional_helmholtz_free_energy : JArr α → JArr α → Option (JArr α)
  /-- field `nondimensional_helmholtz_free_energy_per_link::Function` -/
  nondimensional_helmholtz_free_energy_per_link : JArr α → JArr α → Option (JArr α)
  /-- field `nondimensional_relative_helmholtz_free_energy::Function` -/
  nondimensional_relative_helmholtz_free_energy : JArr α → Option (JArr α)
  /-- field `nondimensional_relative_helmholtz_free_energy_per_link::Function` -/
  nondimensional_relative_helmholtz_free_energy_per_link : JArr α → Option (JArr α)

end Polymers.Julia.Fjc.Thermodynamics.Isotensional.Legendre

namespace Polymers.Julia.Fjc.Thermodynamics.Isotensional

/-- `src/physics/single_chain/fjc/thermodynamics/isotensional/mod.jl` lines 17-82: struct `FJC`. -/
structure FJC (α : Type) where
  /-- field `number_of_links::UInt8` -/
  number_of_links : Nat
  /-- field `link_length::Float64` -/
  link_length : α
  /-- field `hinge_mass::Float64` -/
  hinge_mass : α
  /-- field `legendre::Any` -/
  legendre : Polymers.Julia.Fjc.Thermodynamics.Isotensional.Legendre.FJC α
  /-- field `end_to_end_length::Function` -/
  end_to_end_length : JArr α → JArr α → Option (JArr α)
  /-- field `end_to_end_length_per_link::Function` -/
  end_to_end_length_per_link : JArr α → JArr α → Option (JArr α)
  /-- field `nondimensional_end_to_end_length::Function` -/
  nondimensional_end_to_end_length : JArr α → Option (JArr α)
  /-- field `nondimensional_end_to_end_length_per_link::Function` -/
  nondimensional_end_to_end_length_per_link : JArr α → Option (JArr α)
  /-- field `gibbs_free_energy::Function` -/
  gibbs_free_energy : JArr α → JArr α → Option (JArr α)
  /-- field `gibbs_free_energy_per_link::Function` -/
  gibbs_free_energy_per_link : JArr α → JArr α → Option (JArr α)
  /-- field `relative_gibbs_free_energy::Function` -/
  relative_gibbs_free_energy : JArr α → JArr α → Option (JArr α)
  /-- field `relative_gibbs_free_energy_per_link::Function` -/
  relative_gibbs_free_energy_per_link : JArr α → JArr α → Option (JArr α)
  /-- field `nondimensional_gibbs_free_energy::Function` -/
  nondimensional_gibbs_free_energy : JArr α → JArr α → Option (JArr α)
  /-- field `nondimensional_gibbs_free_energy_per_link::Function` -/
  nondimensional_gibbs_free_energy_per_link : JArr α → JArr α → Option (JArr α)
  /-- field `nondimensional_relative_gibbs_free_energy::Function` -/
  nondimensional_relative_gibbs_free_energy : JArr α → Option (JArr α)
  /-- field `nondimensional_relative_gibbs_free_energy_per_link::Function` -/
  nondimensional_relative_gibbs_free_energy_per_link : JArr α → Option (JArr α)

end Polymers.Julia.Fjc.Thermodynamics.Isotensional

namespace Polymers.Julia.Fjc.Thermodynamics.ModifiedCanonical.Asymptotic.StrongPotential

/-- `src/physics/single_chain/fjc/thermodynamics/modified_canonical/asymptotic/strong_potential/mod.jl` lines 15-68: struct `FJC`. -/
structure FJC (α : Type) where
  /-- field `number_of_links::UInt8` -/
  number_of_links : Nat
  /-- field `link_length::Float64` -/
  link_length : α
  /-- field `hinge_mass::Float64` -/
  hinge_mass : α
  /-- field `force::Function` -/
  force : JArr α → JArr α → JArr α → Option (JArr α)
  /-- field `nondimensional_force::Function` -/
  nondimensional_force : JArr α → JArr α → Option (JArr α)
  /-- field `helmholtz_free_energy::Function` -/
  helmholtz_free_energy : JArr α → JArr α → JArr α → Option (JArr α)
  /-- field `helmholtz_free_energy_per_link::Function` -/
  helmholtz_free_energy_per_link : JArr α → JArr α → JArr α → Option (JArr α)
  /-- field `relative_helmholtz_free_energy::Function` -/
  relative_helmholtz_free_energy : JArr α → JArr α → JArr α → Option (JArr α)
  /-- field `relative_helmholtz_free_energy_per_link::Function` -/
  relative_helmholtz_free_energy_per_link : JArr α → JArr α → JArr α → Option (JArr α)
  /-- field `nondimensional_helmholtz_free_energy::Function` -/
  nondimensional_helmholtz_free_energy : JArr α → JArr α → JArr α → Option (JArr α)
  /-- field `nondimensional_helmholtz_free_energy_per_link::Function` -/
  nondimensional_helmholtz_free_energy_per_link : JArr α → JArr α → JArr α → Option (JArr α)
  /-- field `nondimensional_relative_helmholtz_free_energy::Function` -/
  nondimensional_relative_helmholtz_free_energy : JArr α → JArr α → Option (JArr α)
  /-- field `nondimensional_relative_helmholtz_free_energy_per_link::Function` -/
  nondimensional_relative_helmholtz_free_energy_per_link : JArr α → JArr α → Option (JArr α)

end Polymers.Julia.Fjc.Thermodynamics.ModifiedCanonical.Asymptotic.StrongPotential

namespace Polymers.Julia.Fjc.Thermodynamics.ModifiedCanonical.Asymptotic.WeakPotential

/-- `src/physics/single_chain/fjc/thermodynamics/modified_canonical/asymptotic/weak_potential/mod.jl` lines 15-84: struct `FJC`. -/
structure FJC (α : Type) where
  /-- field `number_of_links::UInt8` -/
  number_of_links : Nat
  /-- field `link_length::Float64` -/
  link_length : α
  /-- field `hinge_mass::Float64` -/
  hinge_mass : α
  /-- field `end_to_end_length::Function` -/
  end_to_end_length : JArr α → JArr α → JArr α → Option (JArr α)
  /-- field `end_to_end_length_per_link::Function` -/
  end_to_end_length_per_link : JArr α → JArr α → JArr α → Option (JArr α)
  /-- field `nondimensional_end_to_end_length::Function` -/
  nondimensional_end_to_end_length : JArr α → JArr α → Option (JArr α)
  /-- field `nondimensional_end_to_end_length_per_link::Function` -/
  nondimensional_end_to_end_length_per_link : JArr α → JArr α → Option (JArr α)
  /-- field `force::Function` -/
  force : JArr α → JArr α → Option (JArr α)
  /-- field `nondimensional_force::Function` -/
  nondimensional_force : JArr α → JArr α → Option (JArr α)
  /-- field `gibbs_free_energy::Function` -/
  gibbs_free_energy : JArr α → JArr α → JArr α → Option (JArr α)
  /-- field `gibbs_free_energy_per_link::Function` -/
  gibbs_free_energy_per_link : JArr α → JArr α → JArr α → Option (JArr α)
  /-- field `relative_gibbs_free_energy::Function` -/
  relative_gibbs_free_energy : JArr α → JArr α → JArr α → Option (JArr α)
  /-- field `relative_gibbs_free_energy_per_link::Function` -/
  relative_gibbs_free_energy_per_link : JArr α → JArr α → JArr α → Option (JArr α)
  /-- field `nondimensional_gibbs_free_energy::Function` -/
  nondimensional_gibbs_free_energy : JArr α → JArr α → JArr α → Option (JArr α)
  /-- field `nondimensional_gibbs_free_energy_per_link::Function` -/
  nondimensional_gibbs_free_energy_per_link : JArr α → JArr α → JArr α → Option (JArr α)
  /-- field `nondimensional_relative_gibbs_free_energy::Function` -/
  nondimensional_relative_gibbs_free_energy : JArr α → JArr α → Option (JArr α)
  /-- field `nondimensional_relative_gibbs_free_energy_per_link::Function` -/
  nondimensional_relative_gibbs_free_energy_per_link : JArr α → JArr α → Option (JArr α)

end Polymers.Julia.Fjc.Thermodynamics.ModifiedCanonical.Asymptotic.WeakPotential

namespace Polymers.Julia.Fjc.Thermodynamics.ModifiedCanonical.Asymptotic

/-- `src/physics/single_chain/fjc/thermodynamics/modified_canonical/asymptotic/mod.jl` lines 17-38: struct `FJC`. -/
structure FJC (α : Type) where
  /-- field `number_of_links::UInt8` -/
  number_of_links : Nat
  /-- field `link_length::Float64` -/
  link_length : α
  /-- field `hinge_mass::Float64` -/
  hinge_mass : α
  /-- field `strong_potential::Any` -/
  strong_potential : Polymers.Julia.Fjc.Thermodynamics.ModifiedCanonical.Asymptotic.StrongPotential.FJC α
  /-- field `weak_potential::Any` -/
  weak_potential : Polymers.Julia.Fjc.Thermodynamics.ModifiedCanonical.Asymptotic.WeakPotential.FJC α

end Polymers.Julia.Fjc.Thermodynamics.ModifiedCanonical.Asymptotic

namespace Polymers.Julia.Fjc.Thermodynamics.ModifiedCanonical

/-- `src/physics/single_chain/fjc/thermodynamics/modified_canonical/mod.jl` lines 17-122: struct `FJC`. -/
structure FJC (α : Type) where
  /-- field `number_of_links::UInt8` -/
  number_of_links : Nat
  /-- field `link_length::Float64` -/
  link_length : α
  /-- field `hinge_mass::Float64` -/
  hinge_mass : α
  /-- field `asymptotic::Any` -/
  asymptotic : Polymers.Julia.Fjc.Thermodynamics.ModifiedCanonical.Asymptotic.FJC α
  /-- field `end_to_end_length::Function` -/
  end_to_end_length : JArr α → JArr α → JArr α → Option (JArr α)
  /-- field `end_to_end_length_per_link::Function` -/
  end_to_end_length_per_link : JArr α → JArr α → JArr α → Option (JArr α)
  /-- field `nondimensional_end_to_end_length::Function` -/
  nondimensional_end_to_end_length : JArr α → JArr α → Option (JArr α)
  /-- field `nondimensional_end_to_end_length_per_link::Function` -/
  nondimensional_end_to_end_length_per_link : JArr α → JArr α → Option (JArr α)
  /-- field `force::Function` -/
  force : JArr α → JArr α → JArr α → Option (JArr α)
  /-- field `nondimensional_force::Function` -/
  nondimensional_force : JArr α → JArr α → Option (JArr α)
  /-- field `helmholtz_free_energy::Function` -/
  helmholtz_free_energy : JArr α → JArr α → JArr α → Option (JArr α)
  /-- field `helmholtz_free_energy_per_link::Function` -/
  helmholtz_free_energy_per_link : JArr α → JArr α → JArr α → Option (JArr α)
  /-- field `relative_helmholtz_free_energy::Function` -/
  relative_helmholtz_free_energy : JArr α → JArr α → JArr α → Option (JArr α)
  /-- field `relative_helmholtz_free_energy_per_link::Function` -/
  relative_helmholtz_free_energy_per_link : JArr α → JArr α → JArr α → Option (JArr α)
  /-- field `nondimensional_helmholtz_free_energy::Function` -/
  nondimensional_helmholtz_free_energy : JArr α → JArr α → JArr α → Option (JArr α)
  /-- field `nondimensional_helmholtz_free_energy_per_link::Function` -/
  nondimensional_helmholtz_free_energy_per_link : JArr α → JArr α → JArr α → Option (JArr α)
  /-- field `nondimensional_relative_helmholtz_free_energy::Function` -/
  nondimensional_relative_helmholtz_free_energy : JArr α → JArr α → Option (JArr α)
  /-- field `nondimensional_relative_helmholtz_free_energy_per_link::Function` -/
  nondimensional_relative_helmholtz_free_energy_per_link : JArr α → JArr α → Option (JArr α)
  /-- field `gibbs_free_energy::Function` -/
  gibbs_free_energy : JArr α → JArr α → JArr α → Option (JArr α)
  /-- field `gibbs_free_energy_per_link::Function` -/
  gibbs_free_energy_per_link : JArr α → JArr α → JArr α → Option (JArr α)
  /-- field `relative_gibbs_free_energy::Function` -/
  relative_gibbs_free_energy : JArr α → JArr α → JArr α → Option (JArr α)
  /-- field `relative_gibbs_free_energy_per_link::Function` -/
  relative_gibbs_free_energy_per_link : JArr α → JArr α → JArr α → Option (JArr α)
  /-- field `nondimensional_gibbs_free_energy::Function` -/
  nondimensional_gibbs_free_energy : JArr α → JArr α → JArr α → Option (JArr α)
  /-- field `nondimensional_gibbs_free_energy_per_link::Function` -/
  nondimensional_gibbs_free_energy_per_link : JArr α → JArr α → JArr α → Option (JArr α)
  /-- field `nondimensional_relative_gibbs_free_energy::Function` -/
  nondimensional_relative_gibbs_free_energy : JArr α → JArr α → Option (JArr α)
  /-- field `nondimensional_relative_gibbs_free_energy_per_link::Function` -/
  nondimensional_relative_gibbs_free_energy_per_link : JArr α → JArr α → Option (JArr α)

end Polymers.Julia.Fjc.Thermodynamics.ModifiedCanonical

namespace Polymers.Julia.Fjc.Thermodynamics

/-- `src/physics/single_chain/fjc/thermodynamics/mod.jl` lines 17-42: struct `FJC`. -/
structure FJC (α : Type) where
  /-- field `number_of_links::UInt8` -/
  number_of_links : Nat
  /-- field `link_length::Float64` -/
  link_length : α
  /-- field `hinge_mass::Float64` -/
  hinge_mass : α
  /-- field `isometric::Any` -/
  isometric : Polymers.Julia.Fjc.Thermodynamics.Isometric.FJC α
  /-- field `isotensional::Any` -/
  isotensional : Polymers.Julia.Fjc.Thermodynamics.Isotensional.FJC α
  /-- field `modified_canonical::Any` -/
  modified_canonical : Polymers.Julia.Fjc.Thermodynamics.ModifiedCanonical.FJC α

end Polymers.Julia.Fjc.Thermodynamics

namespace Polymers.Julia.Fjc

/-- `src/physics/single_chain/fjc/mod.jl` lines 15-32: struct `FJC`. -/
structure FJC (α : Type) where
  /-- field `number_of_links::UInt8` -/
  number_of_links : Nat
  /-- field `link_length::Float64` -/
  link_length : α
  /-- field `hinge_mass::Float64` -/
  hinge_mass : α
  /-- field `thermodynamics::Any` -/
  thermodynamics : Polymers.Julia.Fjc.Thermodynamics.FJC α

end Polymers.Julia.Fjc

namespace Polymers.Julia.Fjc.Thermodynamics.Isometric.Legendre

/-- `src/physics/single_chain/fjc/thermodynamics/isometric/legendre/mod.jl` lines 593-613. -/
def nondimensional_equilibrium_radial_distribution (number_of_links : JArr Nat) (normalization_nondimensional_equilibrium_distribution : α) (nondimensional_end_to_end_length_per_link : JArr α) : Option (JArr α) :=
  JArr.ap (JArr.map (fun (number_of_links_i : Nat) (nondimensional_end_to_end_length_per_link_i : α) => Polymers.C.physics_single_chain_fjc_thermodynamics_isometric_legendre_nondimensional_equilibrium_radial_distribution number_of_links_i normalization_nondimensional_equilibrium_distribution nondimensional_end_to_end_length_per_link_i) number_of_links) nondimensional_end_to_end_length_per_link

/-- `src/physics/single_chain/fjc/thermodynamics/isometric/legendre/mod.jl` lines 131-155. -/
def force (number_of_links : JArr Nat) (link_length : JArr α) (end_to_end_length : JArr α) (temperature : JArr α) : Option (JArr α) :=
  JArr.ap (JArr.ap (JArr.ap (JArr.map (fun (number_of_links_i : Nat) (link_length_i : α) (end_to_end_length_i : α) (temperature_i : α) => Polymers.C.physics_single_chain_fjc_thermodynamics_isometric_legendre_force number_of_links_i link_length_i end_to_end_length_i temperature_i) number_of_links) link_length) end_to_end_length) temperature

/-- `src/physics/single_chain/fjc/thermodynamics/isometric/legendre/mod.jl` lines 168-183. -/
def nondimensional_force (nondimensional_end_to_end_length_per_link : JArr α) : Option (JArr α) :=
  JArr.map (fun (nondimensional_end_to_end_length_per_link_i : α) => Polymers.C.physics_single_chain_fjc_thermodynamics_isometric_legendre_nondimensional_force nondimensional_end_to_end_length_per_link_i) nondimensional_end_to_end_length_per_link

/-- `src/physics/single_chain/fjc/thermodynamics/isometric/legendre/mod.jl` lines 197-230. -/
def helmholtz_free_energy (number_of_links : JArr Nat) (link_length : JArr α) (hinge_mass : JArr α) (end_to_end_length : JArr α) (temperature : JArr α) : Option (JArr α) :=
  JArr.ap (JArr.ap (JArr.ap (JArr.ap (JArr.map (fun (number_of_links_i : Nat) (link_length_i : α) (hinge_mass_i : α) (end_to_end_length_i : α) (temperature_i : α) => Polymers.C.physics_single_chain_fjc_thermodynamics_isometric_legendre_helmholtz_free_energy number_of_links_i link_length_i hinge_mass_i end_to_end_length_i temperature_i) number_of_links) link_length) hinge_mass) end_to_end_length) temperature

/-- `src/physics/single_chain/fjc/thermodynamics/isometric/legendre/mod.jl` lines 238-271. -/
def helmholtz_free_energy_per_link (number_of_links : JArr Nat) (link_length : JArr α) (hinge_mass : JArr α) (end_to_end_length : JArr α) (temperature : JArr α) : Option (JArr α) :=
  JArr.ap (JArr.ap (JArr.ap (JArr.ap (JArr.map (fun (number_of_links_i : Nat) (link_length_i : α) (hinge_mass_i : α) (end_to_end_length_i : α) (temperature_i : α) => Polymers.C.physics_single_chain_fjc_thermodynamics_isometric_legendre_helmholtz_free_energy_per_link number_of_links_i link_length_i hinge_mass_i end_to_end_length_i temperature_i) number_of_links) link_length) hinge_mass) end_to_end_length) temperature

/-- `src/physics/single_chain/fjc/thermodynamics/isometric/legendre/mod.jl` lines 279-303. -/
def relative_helmholtz_free_energy (number_of_links : JArr Nat) (link_length : JArr α) (end_to_end_length : JArr α) (temperature : JArr α) : Option (JArr α) :=
  JArr.ap (JArr.ap (JArr.ap (JArr.map (fun (number_of_links_i : Nat) (link_length_i : α) (end_to_end_length_i : α) (temperature_i : α) => Polymers.C.physics_single_chain_fjc_thermodynamics_isometric_legendre_relative_helmholtz_free_energy number_of_links_i link_length_i end_to_end_length_i temperature_i) number_of_links) link_length) end_to_end_length) temperature

/-- `src/physics/single_chain/fjc/thermodynamics/isometric/legendre/mod.jl` lines 311-335. -/
def relative_helmholtz_free_energy_per_link (number_of_links : JArr Nat) (link_length : JArr α) (end_to_end_length : JArr α) (temperature : JArr α) : Option (JArr α) :=
  JArr.ap (JArr.ap (JArr.ap (JArr.map (fun (number_of_links_i : Nat) (link_length_i : α) (end_to_end_length_i : α) (temperature_i : α) => Polymers.C.physics_single_chain_fjc_thermodynamics_isometric_legendre_relative_helmholtz_free_energy_per_link number_of_links_i link_length_i end_to_end_length_i temperature_i) number_of_links) link_length) end_to_end_length) temperature

/-- `src/physics/single_chain/fjc/thermodynamics/isometric/legendre/mod.jl` lines 343-376. -/
def nondimensional_helmholtz_free_energy (number_of_links : JArr Nat) (link_length : JArr α) (hinge_mass : JArr α) (nondimensional_end_to_end_length_per_link : JArr α) (temperature : JArr α) : Option (JArr α) :=
  JArr.ap (JArr.ap (JArr.ap (JArr.ap (JArr.map (fun (number_of_links_i : Nat) (link_length_i : α) (hinge_mass_i : α) (nondimensional_end_to_end_length_per_link_i : α) (temperature_i : α) => Polymers.C.physics_single_chain_fjc_thermodynamics_isometric_legendre_nondimensional_helmholtz_free_energy number_of_links_i link_length_i hinge_mass_i nondimensional_end_to_end_length_per_link_i temperature_i) number_of_links) link_length) hinge_mass) nondimensional_end_to_end_length_per_link) temperature

/-- `src/physics/single_chain/fjc/thermodynamics/isometric/legendre/mod.jl` lines 391-424. -/
def nondimensional_helmholtz_free_energy_per_link (number_of_links : JArr Nat) (link_length : JArr α) (hinge_mass : JArr α) (nondimensional_end_to_end_length_per_link : JArr α) (temperature : JArr α) : Option (JArr α) :=
  JArr.ap (JArr.ap (JArr.ap (JArr.ap (JArr.map (fun (number_of_links_i : Nat) (link_length_i : α) (hinge_mass_i : α) (nondimensional_end_to_end_length_per_link_i : α) (temperature_i : α) => Polymers.C.physics_single_chain_fjc_thermodynamics_isometric_legendre_nondimensional_helmholtz_free_energy_per_link number_of_links_i link_length_i hinge_mass_i nondimensional_end_to_end_length_per_link_i temperature_i) number_of_links) link_length) hinge_mass) nondimensional_end_to_end_length_per_link) temperature

/-- `src/physics/single_chain/fjc/thermodynamics/isometric/legendre/mod.jl` lines 432-450. -/
def nondimensional_relative_helmholtz_free_energy (number_of_links : JArr Nat) (nondimensional_end_to_end_length_per_link : JArr α) : Option (JArr α) :=
  JArr.ap (JArr.map (fun (number_of_links_i : Nat) (nondimensional_end_to_end_length_per_link_i : α) => Polymers.C.physics_single_chain_fjc_thermodynamics_isometric_legendre_nondimensional_relative_helmholtz_free_energy number_of_links_i nondimensional_end_to_end_length_per_link_i) number_of_links) nondimensional_end_to_end_length_per_link

/-- `src/physics/single_chain/fjc/thermodynamics/isometric/legendre/mod.jl` lines 464-479. -/
def nondimensional_relative_helmholtz_free_energy_per_link (nondimensional_end_to_end_length_per_link : JArr α) : Option (JArr α) :=
  JArr.map (fun (nondimensional_end_to_end_length_per_link_i : α) => Polymers.C.physics_single_chain_fjc_thermodynamics_isometric_legendre_nondimensional_relative_helmholtz_free_energy_per_link nondimensional_end_to_end_length_per_link_i) nondimensional_end_to_end_length_per_link

/-- `src/physics/single_chain/fjc/thermodynamics/isometric/legendre/mod.jl` lines 491-514. -/
def equilibrium_distribution (number_of_links : JArr Nat) (link_length : JArr α) (normalization_nondimensional_equilibrium_distribution : α) (end_to_end_length : JArr α) : Option (JArr α) :=
  JArr.ap (JArr.ap (JArr.map (fun (number_of_links_i : Nat) (link_length_i : α) (end_to_end_length_i : α) => Polymers.C.physics_single_chain_fjc_thermodynamics_isometric_legendre_equilibrium_distribution number_of_links_i link_length_i normalization_nondimensional_equilibrium_distribution end_to_end_length_i) number_of_links) link_length) end_to_end_length

/-- `src/physics/single_chain/fjc/thermodynamics/isometric/legendre/mod.jl` lines 526-546. -/
def nondimensional_equilibrium_distribution (number_of_links : JArr Nat) (normalization_nondimensional_equilibrium_distribution : α) (nondimensional_end_to_end_length_per_link : JArr α) : Option (JArr α) :=
  JArr.ap (JArr.map (fun (number_of_links_i : Nat) (nondimensional_end_to_end_length_per_link_i : α) => Polymers.C.physics_single_chain_fjc_thermodynamics_isometric_legendre_nondimensional_equilibrium_distribution number_of_links_i normalization_nondimensional_equilibrium_distribution nondimensional_end_to_end_length_per_link_i) number_of_links) nondimensional_end_to_end_length_per_link

/-- `src/physics/single_chain/fjc/thermodynamics/isometric/legendre/mod.jl` lines 558-581. -/
def equilibrium_radial_distribution (number_of_links : JArr Nat) (link_length : JArr α) (normalization_nondimensional_equilibrium_distribution : α) (end_to_end_length : JArr α) : Option (JArr α) :=
  JArr.ap (JArr.ap (JArr.map (fun (number_of_links_i : Nat) (link_length_i : α) (end_to_end_length_i : α) => Polymers.C.physics_single_chain_fjc_thermodynamics_isometric_legendre_equilibrium_radial_distribution number_of_links_i link_length_i normalization_nondimensional_equilibrium_distribution end_to_end_length_i) number_of_links) link_length) end_to_end_length

/-- `src/physics/single_chain/fjc/thermodynamics/isometric/legendre/mod.jl` lines 627-660. -/
def gibbs_free_energy (number_of_links : JArr Nat) (link_length : JArr α) (hinge_mass : JArr α) (end_to_end_length : JArr α) (temperature : JArr α) : Option (JArr α) :=
  JArr.ap (JArr.ap (JArr.ap (JArr.ap (JArr.map (fun (number_of_links_i : Nat) (link_length_i : α) (hinge_mass_i : α) (end_to_end_length_i : α) (temperature_i : α) => Polymers.C.physics_single_chain_fjc_thermodynamics_isometric_legendre_gibbs_free_energy number_of_links_i link_length_i hinge_mass_i end_to_end_length_i temperature_i) number_of_links) link_length) hinge_mass) end_to_end_length) temperature

/-- `src/physics/single_chain/fjc/thermodynamics/isometric/legendre/mod.jl` lines 668-701. -/
def gibbs_free_energy_per_link (number_of_links : JArr Nat) (link_length : JArr α) (hinge_mass : JArr α) (end_to_end_length : JArr α) (temperature : JArr α) : Option (JArr α) :=
  JArr.ap (JArr.ap (JArr.ap (JArr.ap (JArr.map (fun (number_of_links_i : Nat) (link_length_i : α) (hinge_mass_i : α) (end_to_end_length_i : α) (temperature_i : α) => Polymers.C.physics_single_chain_fjc_thermodynamics_isometric_legendre_gibbs_free_energy_per_link number_of_links_i link_length_i hinge_mass_i end_to_end_length_i temperature_i) number_of_links) link_length) hinge_mass) end_to_end_length) temperature

/-- `src/physics/single_chain/fjc/thermodynamics/isometric/legendre/mod.jl` lines 709-733. -/
def relative_gibbs_free_energy (number_of_links : JArr Nat) (link_length : JArr α) (end_to_end_length : JArr α) (temperature : JArr α) : Option (JArr α) :=
  JArr.ap (JArr.ap (JArr.ap (JArr.map (fun (number_of_links_i : Nat) (link_length_i : α) (end_to_end_length_i : α) (temperature_i : α) => Polymers.C.physics_single_chain_fjc_thermodynamics_isometric_legendre_relative_gibbs_free_energy number_of_links_i link_length_i end_to_end_length_i temperature_i) number_of_links) link_length) end_to_end_length) temperature

/-- `src/physics/single_chain/fjc/thermodynamics/isometric/legendre/mod.jl` lines 741-765. -/
def relative_gibbs_free_energy_per_link (number_of_links : JArr Nat) (link_length : JArr α) (end_to_end_length : JArr α) (temperature : JArr α) : Option (JArr α) :=
  JArr.ap (JArr.ap (JArr.ap (JArr.map (fun (number_of_links_i : Nat) (link_length_i : α) (end_to_end_length_i : α) (temperature_i : α) => Polymers.C.physics_single_chain_fjc_thermodynamics_isometric_legendre_relative_gibbs_free_energy_per_link number_of_links_i link_length_i end_to_end_length_i temperature_i) number_of_links) link_length) end_to_end_length) temperature

/-- `src/physics/single_chain/fjc/thermodynamics/isometric/legendre/mod.jl` lines 773-806. -/
def nondimensional_gibbs_free_energy (number_of_links : JArr Nat) (link_length : JArr α) (hinge_mass : JArr α) (nondimensional_end_to_end_length_per_link : JArr α) (temperature : JArr α) : Option (JArr α) :=
  JArr.ap (JArr.ap (JArr.ap (JArr.ap (JArr.map (fun (number_of_links_i : Nat) (link_length_i : α) (hinge_mass_i : α) (nondimensional_end_to_end_length_per_link_i : α) (temperature_i : α) => Polymers.C.physics_single_chain_fjc_thermodynamics_isometric_legendre_nondimensional_gibbs_free_energy number_of_links_i link_length_i hinge_mass_i nondimensional_end_to_end_length_per_link_i temperature_i) number_of_links) link_length) hinge_mass) nondimensional_end_to_end_length_per_link) temperature

/-- `src/physics/single_chain/fjc/thermodynamics/isometric/legendre/mod.jl` lines 814-847. -/
def nondimensional_gibbs_free_energy_per_link (number_of_links : JArr Nat) (link_length : JArr α) (hinge_mass : JArr α) (nondimensional_end_to_end_length_per_link : JArr α) (temperature : JArr α) : Option (JArr α) :=
  JArr.ap (JArr.ap (JArr.ap (JArr.ap (JArr.map (fun (number_of_links_i : Nat) (link_length_i : α) (hinge_mass_i : α) (nondimensional_end_to_end_length_per_link_i : α) (temperature_i : α) => Polymers.C.physics_single_chain_fjc_thermodynamics_isometric_legendre_nondimensional_gibbs_free_energy_per_link number_of_links_i link_length_i hinge_mass_i nondimensional_end_to_end_length_per_link_i temperature_i) number_of_links) link_length) hinge_mass) nondimensional_end_to_end_length_per_link) temperature

/-- `src/physics/single_chain/fjc/thermodynamics/isometric/legendre/mod.jl` lines 855-873. -/
def nondimensional_relative_gibbs_free_energy (number_of_links : JArr Nat) (nondimensional_end_to_end_length_per_link : JArr α) : Option (JArr α) :=
  JArr.ap (JArr.map (fun (number_of_links_i : Nat) (nondimensional_end_to_end_length_per_link_i : α) => Polymers.C.physics_single_chain_fjc_thermodynamics_isometric_legendre_nondimensional_relative_gibbs_free_energy number_of_links_i nondimensional_end_to_end_length_per_link_i) number_of_links) nondimensional_end_to_end_length_per_link

/-- `src/physics/single_chain/fjc/thermodynamics/isometric/legendre/mod.jl` lines 881-899. -/
def nondimensional_relative_gibbs_free_energy_per_link (number_of_links : JArr Nat) (nondimensional_end_to_end_length_per_link : JArr α) : Option (JArr α) :=
  JArr.ap (JArr.map (fun (number_of_links_i : Nat) (nondimensional_end_to_end_length_per_link_i : α) => Polymers.C.physics_single_chain_fjc_thermodynamics_isometric_legendre_nondimensional_relative_gibbs_free_energy_per_link number_of_links_i nondimensional_end_to_end_length_per_link_i) number_of_links) nondimensional_end_to_end_length_per_link

/-- `src/physics/single_chain/fjc/thermodynamics/isometric/legendre/mod.jl` lines 906-1055. -/
def FJC.new (number_of_links : Nat) (link_length : α) (hinge_mass : α) : Polymers.Julia.Fjc.Thermodynamics.Isometric.Legendre.FJC α :=
  let normalization_nondimensional_equilibrium_distribution : α := Polymers.Julia.integrate (fun (nondimensional_end_to_end_length_per_link : α) => JArr.value (Polymers.Julia.Fjc.Thermodynamics.Isometric.Legendre.nondimensional_equilibrium_radial_distribution (JArr.scalar number_of_links) 1.0 (JArr.scalar nondimensional_end_to_end_length_per_link))) (Polymers.Julia.ZERO : α) (Polymers.Julia.ONE : α) Polymers.Julia.POINTS
  Polymers.Julia.Fjc.Thermodynamics.Isometric.Legendre.FJC.mk
    number_of_links
    link_length
    hinge_mass
    normalization_nondimensional_equilibrium_distribution
    (fun (end_to_end_length : JArr α) (temperature : JArr α) => Polymers.Julia.Fjc.Thermodynamics.Isometric.Legendre.force (JArr.scalar number_of_links) (JArr.scalar link_length) end_to_end_length temperature)
    (fun (nondimensional_end_to_end_length_per_link : JArr α) => Polymers.Julia.Fjc.Thermodynamics.Isometric.Legendre.nondimensional_force nondimensional_end_to_end_length_per_link)
    (fun (end_to_end_length : JArr α) (temperature : JArr α) => Polymers.Julia.Fjc.Thermodynamics.Isometric.Legendre.helmholtz_free_energy (JArr.scalar number_of_links) (JArr.scalar link_length) (JArr.scalar hinge_mass) end_to_end_length temperature)
    (fun (end_to_end_length : JArr α) (temperature : JArr α) => Polymers.Julia.Fjc.Thermodynamics.Isometric.Legendre.helmholtz_free_energy_per_link (JArr.scalar number_of_links) (JArr.scalar link_length) (JArr.scalar hinge_mass) end_to_end_length temperature)
    (fun (end_to_end_length : JArr α) (temperature : JArr α) => Polymers.Julia.Fjc.Thermodynamics.Isometric.Legendre.relative_helmholtz_free_energy (JArr.scalar number_of_links) (JArr.scalar link_length) end_to_end_length temperature)
    (fun (end_to_end_length : JArr α) (temperature : JArr α) => Polymers.Julia.Fjc.Thermodynamics.Isometric.Legendre.relative_helmholtz_free_energy_per_link (JArr.scalar number_of_links) (JArr.scalar link_length) end_to_end_length temperature)
    (fun (nondimensional_end_to_end_length_per_link : JArr α) (temperature : JArr α) => Polymers.Julia.Fjc.Thermodynamics.Isometric.Legendre.nondimensional_helmholtz_free_energy (JArr.scalar number_of_links) (JArr.scalar link_length) (JArr.scalar hinge_mass) nondimensional_end_to_end_length_per_link temperature)
    (fun (nondimensional_end_to_end_length_per_link : JArr α) (temperature : JArr α) => Polymers.Julia.Fjc.Thermodynamics.Isometric.Legendre.nondimensional_helmholtz_free_energy_per_link (JArr.scalar number_of_links) (JArr.scalar link_length) (JArr.scalar hinge_mass) nondimensional_end_to_end_length_per_link temperature)
    (fun (nondimensional_end_to_end_length_per_link : JArr α) => Polymers.Julia.Fjc.Thermodynamics.Isometric.Legendre.nondimensional_relative_helmholtz_free_energy (JArr.scalar number_of_links) nondimensional_end_to_end_length_per_link)
    (fun (nondimensional_end_to_end_length_per_link : JArr α) => Polymers.Julia.Fjc.Thermodynamics.Isometric.Legendre.nondimensional_relative_helmholtz_free_energy_per_link nondimensional_end_to_end_length_per_link)
    (fun (end_to_end_length : JArr α) => Polymers.Julia.Fjc.Thermodynamics.Isometric.Legendre.equilibrium_distribution (JArr.scalar number_of_links) (JArr.scalar link_length) normalization_nondimensional_equilibrium_distribution end_to_end_length)
    (fun (nondimensional_end_to_end_length_per_link : JArr α) => Polymers.Julia.Fjc.Thermodynamics.Isometric.Legendre.nondimensional_equilibrium_distribution (JArr.scalar number_of_links) normalization_nondimensional_equilibrium_distribution nondimensional_end_to_end_length_per_link)
    (fun (end_to_end_length : JArr α) => Polymers.Julia.Fjc.Thermodynamics.Isometric.Legendre.equilibrium_radial_distribution (JArr.scalar number_of_links) (JArr.scalar link_length) normalization_nondimensional_equilibrium_distribution end_to_end_length)
    (fun (nondimensional_end_to_end_length_per_link : JArr α) => Polymers.Julia.Fjc.Thermodynamics.Isometric.Legendre.nondimensional_equilibrium_radial_distribution (JArr.scalar number_of_links) normalization_nondimensional_equilibrium_distribution nondimensional_end_to_end_length_per_link)
    (fun (end_to_end_length : JArr α) (temperature : JArr α) => Polymers.Julia.Fjc.Thermodynamics.Isometric.Legendre.gibbs_free_energy (JArr.scalar number_of_links) (JArr.scalar link_length) (JArr.scalar hinge_mass) end_to_end_length temperature)
    (fun (end_to_end_length : JArr α) (temperature : JArr α) => Polymers.Julia.Fjc.Thermodynamics.Isometric.Legendre.gibbs_free_energy_per_link (JArr.scalar number_of_links) (JArr.scalar link_length) (JArr.scalar hinge_mass) end_to_end_length temperature)
    (fun (end_to_end_length : JArr α) (temperature : JArr α) => Polymers.Julia.Fjc.Thermodynamics.Isometric.Legendre.relative_gibbs_free_energy (JArr.scalar number_of_links) (JArr.scalar link_length) end_to_end_length temperature)
    (fun (end_to_end_length : JArr α) (temperature : JArr α) => Polymers.Julia.Fjc.Thermodynamics.Isometric.Legendre.relative_gibbs_free_energy_per_link (JArr.scalar number_of_links) (JArr.scalar link_length) end_to_end_length temperature)
    (fun (nondimensional_end_to_end_length_per_link : JArr α) (temperature : JArr α) => Polymers.Julia.Fjc.Thermodynamics.Isometric.Legendre.nondimensional_gibbs_free_energy (JArr.scalar number_of_links) (JArr.scalar link_length) (JArr.scalar hinge_mass) nondimensional_end_to_end_length_per_link temperature)
    (fun (nondimensional_end_to_end_length_per_link : JArr α) (temperature : JArr α) => Polymers.Julia.Fjc.Thermodynamics.Isometric.Legendre.nondimensional_gibbs_free_energy_per_link (JArr.scalar number_of_links) (JArr.scalar link_length) (JArr.scalar hinge_mass) nondimensional_end_to_end_length_per_link temperature)
    (fun (nondimensional_end_to_end_length_per_link : JArr α) => Polymers.Julia.Fjc.Thermodynamics.Isometric.Legendre.nondimensional_relative_gibbs_free_energy (JArr.scalar number_of_links) nondimensional_end_to_end_length_per_link)
    (fun (nondimensional_end_to_end_length_per_link : JArr α) => Polymers.Julia.Fjc.Thermodynamics.Isometric.Legendre.nondimensional_relative_gibbs_free_energy_per_link (JArr.scalar number_of_links) nondimensional_end_to_end_length_per_link)

end Polymers.Julia.Fjc.Thermodynamics.Isometric.Legendre

namespace Polymers.Julia.Fjc.Thermodynamics.Isometric

/-- `src/physics/single_chain/fjc/thermodynamics/isometric/mod.jl` lines 104-128. -/
def force (number_of_links : JArr Nat) (link_length : JArr α) (end_to_end_length : JArr α) (temperature : JArr α) : Option (JArr α) :=
  JArr.ap (JArr.ap (JArr.ap (JArr.map (fun (number_of_links_i : Nat) (link_length_i : α) (end_to_end_length_i : α) (temperature_i : α) => Polymers.C.physics_single_chain_fjc_thermodynamics_isometric_force number_of_links_i link_length_i end_to_end_length_i temperature_i) number_of_links) link_length) end_to_end_length) temperature

/-- `src/physics/single_chain/fjc/thermodynamics/isometric/mod.jl` lines 142-160. -/
def nondimensional_force (number_of_links : JArr Nat) (nondimensional_end_to_end_length_per_link : JArr α) : Option (JArr α) :=
  JArr.ap (JArr.map (fun (number_of_links_i : Nat) (nondimensional_end_to_end_length_per_link_i : α) => Polymers.C.physics_single_chain_fjc_thermodynamics_isometric_nondimensional_force number_of_links_i nondimensional_end_to_end_length_per_link_i) number_of_links) nondimensional_end_to_end_length_per_link

/-- `src/physics/single_chain/fjc/thermodynamics/isometric/mod.jl` lines 172-205. -/
def helmholtz_free_energy (number_of_links : JArr Nat) (link_length : JArr α) (hinge_mass : JArr α) (end_to_end_length : JArr α) (temperature : JArr α) : Option (JArr α) :=
  JArr.ap (JArr.ap (JArr.ap (JArr.ap (JArr.map (fun (number_of_links_i : Nat) (link_length_i : α) (hinge_mass_i : α) (end_to_end_length_i : α) (temperature_i : α) => Polymers.C.physics_single_chain_fjc_thermodynamics_isometric_helmholtz_free_energy number_of_links_i link_length_i hinge_mass_i end_to_end_length_i temperature_i) number_of_links) link_length) hinge_mass) end_to_end_length) temperature

/-- `src/physics/single_chain/fjc/thermodynamics/isometric/mod.jl` lines 213-246. -/
def helmholtz_free_energy_per_link (number_of_links : JArr Nat) (link_length : JArr α) (hinge_mass : JArr α) (end_to_end_length : JArr α) (temperature : JArr α) : Option (JArr α) :=
  JArr.ap (JArr.ap (JArr.ap (JArr.ap (JArr.map (fun (number_of_links_i : Nat) (link_length_i : α) (hinge_mass_i : α) (end_to_end_length_i : α) (temperature_i : α) => Polymers.C.physics_single_chain_fjc_thermodynamics_isometric_helmholtz_free_energy_per_link number_of_links_i link_length_i hinge_mass_i end_to_end_length_i temperature_i) number_of_links) link_length) hinge_mass) end_to_end_length) temperature

/-- `src/physics/single_chain/fjc/thermodynamics/isometric/mod.jl` lines 258-282. -/
def relative_helmholtz_free_energy (number_of_links : JArr Nat) (link_length : JArr α) (end_to_end_length : JArr α) (temperature : JArr α) : Option (JArr α) :=
  JArr.ap (JArr.ap (JArr.ap (JArr.map (fun (number_of_links_i : Nat) (link_length_i : α) (end_to_end_length_i : α) (temperature_i : α) => Polymers.C.physics_single_chain_fjc_thermodynamics_isometric_relative_helmholtz_free_energy number_of_links_i link_length_i end_to_end_length_i temperature_i) number_of_links) link_length) end_to_end_length) temperature

/-- `src/physics/single_chain/fjc/thermodynamics/isometric/mod.jl` lines 290-314. -/
def relative_helmholtz_free_energy_per_link (number_of_links : JArr Nat) (link_length : JArr α) (end_to_end_length : JArr α) (temperature : JArr α) : Option (JArr α) :=
  JArr.ap (JArr.ap (JArr.ap (JArr.map (fun (number_of_links_i : Nat) (link_length_i : α) (end_to_end_length_i : α) (temperature_i : α) => Polymers.C.physics_single_chain_fjc_thermodynamics_isometric_relative_helmholtz_free_energy_per_link number_of_links_i link_length_i end_to_end_length_i temperature_i) number_of_links) link_length) end_to_end_length) temperature

/-- `src/physics/single_chain/fjc/thermodynamics/isometric/mod.jl` lines 322-355. -/
def nondimensional_helmholtz_free_energy (number_of_links : JArr Nat) (link_length : JArr α) (hinge_mass : JArr α) (nondimensional_end_to_end_length_per_link : JArr α) (temperature : JArr α) : Option (JArr α) :=
  JArr.ap (JArr.ap (JArr.ap (JArr.ap (JArr.map (fun (number_of_links_i : Nat) (link_length_i : α) (hinge_mass_i : α) (nondimensional_end_to_end_length_per_link_i : α) (temperature_i : α) => Polymers.C.physics_single_chain_fjc_thermodynamics_isometric_nondimensional_helmholtz_free_energy number_of_links_i link_length_i hinge_mass_i nondimensional_end_to_end_length_per_link_i temperature_i) number_of_links) link_length) hinge_mass) nondimensional_end_to_end_length_per_link) temperature

/-- `src/physics/single_chain/fjc/thermodynamics/isometric/mod.jl` lines 363-396. -/
def nondimensional_helmholtz_free_energy_per_link (number_of_links : JArr Nat) (link_length : JArr α) (hinge_mass : JArr α) (nondimensional_end_to_end_length_per_link : JArr α) (temperature : JArr α) : Option (JArr α) :=
  JArr.ap (JArr.ap (JArr.ap (JArr.ap (JArr.map (fun (number_of_links_i : Nat) (link_length_i : α) (hinge_mass_i : α) (nondimensional_end_to_end_length_per_link_i : α) (temperature_i : α) => Polymers.C.physics_single_chain_fjc_thermodynamics_isometric_nondimensional_helmholtz_free_energy_per_link number_of_links_i link_length_i hinge_mass_i nondimensional_end_to_end_length_per_link_i temperature_i) number_of_links) link_length) hinge_mass) nondimensional_end_to_end_length_per_link) temperature

/-- `src/physics/single_chain/fjc/thermodynamics/isometric/mod.jl` lines 408-426. -/
def nondimensional_relative_helmholtz_free_energy (number_of_links : JArr Nat) (nondimensional_end_to_end_length_per_link : JArr α) : Option (JArr α) :=
  JArr.ap (JArr.map (fun (number_of_links_i : Nat) (nondimensional_end_to_end_length_per_link_i : α) => Polymers.C.physics_single_chain_fjc_thermodynamics_isometric_nondimensional_relative_helmholtz_free_energy number_of_links_i nondimensional_end_to_end_length_per_link_i) number_of_links) nondimensional_end_to_end_length_per_link

/-- `src/physics/single_chain/fjc/thermodynamics/isometric/mod.jl` lines 438-456. -/
def nondimensional_relative_helmholtz_free_energy_per_link (number_of_links : JArr Nat) (nondimensional_end_to_end_length_per_link : JArr α) : Option (JArr α) :=
  JArr.ap (JArr.map (fun (number_of_links_i : Nat) (nondimensional_end_to_end_length_per_link_i : α) => Polymers.C.physics_single_chain_fjc_thermodynamics_isometric_nondimensional_relative_helmholtz_free_energy_per_link number_of_links_i nondimensional_end_to_end_length_per_link_i) number_of_links) nondimensional_end_to_end_length_per_link

/-- `src/physics/single_chain/fjc/thermodynamics/isometric/mod.jl` lines 470-491. -/
def equilibrium_distribution (number_of_links : JArr Nat) (link_length : JArr α) (end_to_end_length : JArr α) : Option (JArr α) :=
  JArr.ap (JArr.ap (JArr.map (fun (number_of_links_i : Nat) (link_length_i : α) (end_to_end_length_i : α) => Polymers.C.physics_single_chain_fjc_thermodynamics_isometric_equilibrium_distribution number_of_links_i link_length_i end_to_end_length_i) number_of_links) link_length) end_to_end_length

/-- `src/physics/single_chain/fjc/thermodynamics/isometric/mod.jl` lines 505-523. -/
def nondimensional_equilibrium_distribution (number_of_links : JArr Nat) (nondimensional_end_to_end_length_per_link : JArr α) : Option (JArr α) :=
  JArr.ap (JArr.map (fun (number_of_links_i : Nat) (nondimensional_end_to_end_length_per_link_i : α) => Polymers.C.physics_single_chain_fjc_thermodynamics_isometric_nondimensional_equilibrium_distribution number_of_links_i nondimensional_end_to_end_length_per_link_i) number_of_links) nondimensional_end_to_end_length_per_link

/-- `src/physics/single_chain/fjc/thermodynamics/isometric/mod.jl` lines 538-559. -/
def equilibrium_radial_distribution (number_of_links : JArr Nat) (link_length : JArr α) (end_to_end_length : JArr α) : Option (JArr α) :=
  JArr.ap (JArr.ap (JArr.map (fun (number_of_links_i : Nat) (link_length_i : α) (end_to_end_length_i : α) => Polymers.C.physics_single_chain_fjc_thermodynamics_isometric_equilibrium_radial_distribution number_of_links_i link_length_i end_to_end_length_i) number_of_links) link_length) end_to_end_length

/-- `src/physics/single_chain/fjc/thermodynamics/isometric/mod.jl` lines 573-591. -/
def nondimensional_equilibrium_radial_distribution (number_of_links : JArr Nat) (nondimensional_end_to_end_length_per_link : JArr α) : Option (JArr α) :=
  JArr.ap (JArr.map (fun (number_of_links_i : Nat) (nondimensional_end_to_end_length_per_link_i : α) => Polymers.C.physics_single_chain_fjc_thermodynamics_isometric_nondimensional_equilibrium_radial_distribution number_of_links_i nondimensional_end_to_end_length_per_link_i) number_of_links) nondimensional_end_to_end_length_per_link

/-- `src/physics/single_chain/fjc/thermodynamics/isometric/mod.jl` lines 598-680. -/
def FJC.new (number_of_links : Nat) (link_length : α) (hinge_mass : α) : Polymers.Julia.Fjc.Thermodynamics.Isometric.FJC α :=
  Polymers.Julia.Fjc.Thermodynamics.Isometric.FJC.mk
    number_of_links
    link_length
    hinge_mass
    (Polymers.Julia.Fjc.Thermodynamics.Isometric.Legendre.FJC.new number_of_links link_length hinge_mass)
    (fun (end_to_end_length : JArr α) (temperature : JArr α) => Polymers.Julia.Fjc.Thermodynamics.Isometric.force (JArr.scalar number_of_links) (JArr.scalar link_length) end_to_end_length temperature)
    (fun (nondimensional_end_to_end_length_per_link : JArr α) => Polymers.Julia.Fjc.Thermodynamics.Isometric.nondimensional_force (JArr.scalar number_of_links) nondimensional_end_to_end_length_per_link)
    (fun (end_to_end_length : JArr α) (temperature : JArr α) => Polymers.Julia.Fjc.Thermodynamics.Isometric.helmholtz_free_energy (JArr.scalar number_of_links) (JArr.scalar link_length) (JArr.scalar hinge_mass) end_to_end_length temperature)
    (fun (end_to_end_length : JArr α) (temperature : JArr α) => Polymers.Julia.Fjc.Thermodynamics.Isometric.helmholtz_free_energy_per_link (JArr.scalar number_of_links) (JArr.scalar link_length) (JArr.scalar hinge_mass) end_to_end_length temperature)
    (fun (end_to_end_length : JArr α) (temperature : JArr α) => Polymers.Julia.Fjc.Thermodynamics.Isometric.relative_helmholtz_free_energy (JArr.scalar number_of_links) (JArr.scalar link_length) end_to_end_length temperature)
    (fun (end_to_end_length : JArr α) (temperature : JArr α) => Polymers.Julia.Fjc.Thermodynamics.Isometric.relative_helmholtz_free_energy_per_link (JArr.scalar number_of_links) (JArr.scalar link_length) end_to_end_length temperature)
    (fun (nondimensional_end_to_end_length_per_link : JArr α) (temperature : JArr α) => Polymers.Julia.Fjc.Thermodynamics.Isometric.nondimensional_helmholtz_free_energy (JArr.scalar number_of_links) (JArr.scalar link_length) (JArr.scalar hinge_mass) nondimensional_end_to_end_length_per_link temperature)
    (fun (nondimensional_end_to_end_length_per_link : JArr α) (temperature : JArr α) => Polymers.Julia.Fjc.Thermodynamics.Isometric.nondimensional_helmholtz_free_energy_per_link (JArr.scalar number_of_links) (JArr.scalar link_length) (JArr.scalar hinge_mass) nondimensional_end_to_end_length_per_link temperature)
    (fun (nondimensional_end_to_end_length_per_link : JArr α) => Polymers.Julia.Fjc.Thermodynamics.Isometric.nondimensional_relative_helmholtz_free_energy (JArr.scalar number_of_links) nondimensional_end_to_end_length_per_link)
    (fun (nondimensional_end_to_end_length_per_link : JArr α) => Polymers.Julia.Fjc.Thermodynamics.Isometric.nondimensional_relative_helmholtz_free_energy_per_link (JArr.scalar number_of_links) nondimensional_end_to_end_length_per_link)
    (fun (end_to_end_length : JArr α) => Polymers.Julia.Fjc.Thermodynamics.Isometric.equilibrium_distribution (JArr.scalar number_of_links) (JArr.scalar link_length) end_to_end_length)
    (fun (nondimensional_end_to_end_length_per_link : JArr α) => Polymers.Julia.Fjc.Thermodynamics.Isometric.nondimensional_equilibrium_distribution (JArr.scalar number_of_links) nondimensional_end_to_end_length_per_link)
    (fun (end_to_end_length : JArr α) => Polymers.Julia.Fjc.Thermodynamics.Isometric.equilibrium_radial_distribution (JArr.scalar number_of_links) (JArr.scalar link_length) end_to_end_length)
    (fun (nondimensional_end_to_end_length_per_link : JArr α) => Polymers.Julia.Fjc.Thermodynamics.Isometric.nondimensional_equilibrium_radial_distribution (JArr.scalar number_of_links) nondimensional_end_to_end_length_per_link)

end Polymers.Julia.Fjc.Thermodynamics.Isometric

namespace Polymers.Julia.Fjc.Thermodynamics.Isotensional.Legendre

/-- `src/physics/single_chain/fjc/thermodynamics/isotensional/legendre/mod.jl` lines 71-98. -/
def helmholtz_free_energy (number_of_links : JArr Nat) (link_length : JArr α) (hinge_mass : JArr α) (force : JArr α) (temperature : JArr α) : Option (JArr α) :=
  JArr.ap (JArr.ap (JArr.ap (JArr.ap (JArr.map (fun (number_of_links_i : Nat) (link_length_i : α) (hinge_mass_i : α) (force_i : α) (temperature_i : α) => Polymers.C.physics_single_chain_fjc_thermodynamics_isotensional_legendre_helmholtz_free_energy number_of_links_i link_length_i hinge_mass_i force_i temperature_i) number_of_links) link_length) hinge_mass) force) temperature

/-- `src/physics/single_chain/fjc/thermodynamics/isotensional/legendre/mod.jl` lines 106-130. -/
def helmholtz_free_energy_per_link (link_length : JArr α) (hinge_mass : JArr α) (force : JArr α) (temperature : JArr α) : Option (JArr α) :=
  JArr.ap (JArr.ap (JArr.ap (JArr.map (fun (link_length_i : α) (hinge_mass_i : α) (force_i : α) (temperature_i : α) => Polymers.C.physics_single_chain_fjc_thermodynamics_isotensional_legendre_helmholtz_free_energy_per_link link_length_i hinge_mass_i force_i temperature_i) link_length) hinge_mass) force) temperature

/-- `src/physics/single_chain/fjc/thermodynamics/isotensional/legendre/mod.jl` lines 138-162. -/
def relative_helmholtz_free_energy (number_of_links : JArr Nat) (link_length : JArr α) (force : JArr α) (temperature : JArr α) : Option (JArr α) :=
  JArr.ap (JArr.ap (JArr.ap (JArr.map (fun (number_of_links_i : Nat) (link_length_i : α) (force_i : α) (temperature_i : α) => Polymers.C.physics_single_chain_fjc_thermodynamics_isotensional_legendre_relative_helmholtz_free_energy number_of_links_i link_length_i force_i temperature_i) number_of_links) link_length) force) temperature

/-- `src/physics/single_chain/fjc/thermodynamics/isotensional/legendre/mod.jl` lines 170-191. -/
def relative_helmholtz_free_energy_per_link (link_length : JArr α) (force : JArr α) (temperature : JArr α) : Option (JArr α) :=
  JArr.ap (JArr.ap (JArr.map (fun (link_length_i : α) (force_i : α) (temperature_i : α) => Polymers.C.physics_single_chain_fjc_thermodynamics_isotensional_legendre_relative_helmholtz_free_energy_per_link link_length_i force_i temperature_i) link_length) force) temperature

/-- `src/physics/single_chain/fjc/thermodynamics/isotensional/legendre/mod.jl` lines 199-232. -/
def nondimensional_helmholtz_free_energy (number_of_links : JArr Nat) (link_length : JArr α) (hinge_mass : JArr α) (nondimensional_force : JArr α) (temperature : JArr α) : Option (JArr α) :=
  JArr.ap (JArr.ap (JArr.ap (JArr.ap (JArr.map (fun (number_of_links_i : Nat) (link_length_i : α) (hinge_mass_i : α) (nondimensional_force_i : α) (temperature_i : α) => Polymers.C.physics_single_chain_fjc_thermodynamics_isotensional_legendre_nondimensional_helmholtz_free_energy number_of_links_i link_length_i hinge_mass_i nondimensional_force_i temperature_i) number_of_links) link_length) hinge_mass) nondimensional_force) temperature

/-- `src/physics/single_chain/fjc/thermodynamics/isotensional/legendre/mod.jl` lines 240-264. -/
def nondimensional_helmholtz_free_energy_per_link (link_length : JArr α) (hinge_mass : JArr α) (nondimensional_force : JArr α) (temperature : JArr α) : Option (JArr α) :=
  JArr.ap (JArr.ap (JArr.ap (JArr.map (fun (link_length_i : α) (hinge_mass_i : α) (nondimensional_force_i : α) (temperature_i : α) => Polymers.C.physics_single_chain_fjc_thermodynamics_isotensional_legendre_nondimensional_helmholtz_free_energy_per_link link_length_i hinge_mass_i nondimensional_force_i temperature_i) link_length) hinge_mass) nondimensional_force) temperature

/-- `src/physics/single_chain/fjc/thermodynamics/isotensional/legendre/mod.jl` lines 272-290. -/
def nondimensional_relative_helmholtz_free_energy (number_of_links : JArr Nat) (nondimensional_force : JArr α) : Option (JArr α) :=
  JArr.ap (JArr.map (fun (number_of_links_i : Nat) (nondimensional_force_i : α) => Polymers.C.physics_single_chain_fjc_thermodynamics_isotensional_legendre_nondimensional_relative_helmholtz_free_energy number_of_links_i nondimensional_force_i) number_of_links) nondimensional_force

/-- `src/physics/single_chain/fjc/thermodynamics/isotensional/legendre/mod.jl` lines 297-312. -/
def nondimensional_relative_helmholtz_free_energy_per_link (nondimensional_force : JArr α) : Option (JArr α) :=
  JArr.map (fun (nondimensional_force_i : α) => Polymers.C.physics_single_chain_fjc_thermodynamics_isotensional_legendre_nondimensional_relative_helmholtz_free_energy_per_link nondimensional_force_i) nondimensional_force

/-- `src/physics/single_chain/fjc/thermodynamics/isotensional/legendre/mod.jl` lines 319-362. -/
def FJC.new (number_of_links : Nat) (link_length : α) (hinge_mass : α) : Polymers.Julia.Fjc.Thermodynamics.Isotensional.Legendre.FJC α :=
  Polymers.Julia.Fjc.Thermodynamics.Isotensional.Legendre.FJC.mk
    number_of_links
    link_length
    hinge_mass
    (fun (force : JArr α) (temperature : JArr α) => Polymers.Julia.Fjc.Thermodynamics.Isotensional.Legendre.helmholtz_free_energy (JArr.scalar number_of_links) (JArr.scalar link_length) (JArr.scalar hinge_mass) force temperature)
    (fun (force : JArr α) (temperature : JArr α) => Polymers.Julia.Fjc.Thermodynamics.Isotensional.Legendre.helmholtz_free_energy_per_link (JArr.scalar link_length) (JArr.scalar hinge_mass) force temperature)
    (fun (force : JArr α) (temperature : JArr α) => Polymers.Julia.Fjc.Thermodynamics.Isotensional.Legendre.relative_helmholtz_free_energy (JArr.scalar number_of_links) (JArr.scalar link_length) force temperature)
    (fun (force : JArr α) (temperature : JArr α) => Polymers.Julia.Fjc.Thermodynamics.Isotensional.Legendre.relative_helmholtz_free_energy_per_link (JArr.scalar link_length) force temperature)
    (fun (nondimensional_force : JArr α) (temperature : JArr α) => Polymers.Julia.Fjc.Thermodynamics.Isotensional.Legendre.nondimensional_helmholtz_free_energy (JArr.scalar number_of_links) (JArr.scalar link_length) (JArr.scalar hinge_mass) nondimensional_force temperature)
    (fun (nondimensional_force : JArr α) (temperature : JArr α) => Polymers.Julia.Fjc.Thermodynamics.Isotensional.Legendre.nondimensional_helmholtz_free_energy_per_link (JArr.scalar link_length) (JArr.scalar hinge_mass) nondimensional_force temperature)
    (fun (nondimensional_force : JArr α) => Polymers.Julia.Fjc.Thermodynamics.Isotensional.Legendre.nondimensional_relative_helmholtz_free_energy (JArr.scalar number_of_links) nondimensional_force)
    (fun (nondimensional_force : JArr α) => Polymers.Julia.Fjc.Thermodynamics.Isotensional.Legendre.nondimensional_relative_helmholtz_free_energy_per_link nondimensional_force)

end Polymers.Julia.Fjc.Thermodynamics.Isotensional.Legendre

namespace Polymers.Julia.Fjc.Thermodynamics.Isotensional

/-- `src/physics/single_chain/fjc/thermodynamics/isotensional/mod.jl` lines 97-121. -/
def end_to_end_length (number_of_links : JArr Nat) (link_length : JArr α) (force : JArr α) (temperature : JArr α) : Option (JArr α) :=
  JArr.ap (JArr.ap (JArr.ap (JArr.map (fun (number_of_links_i : Nat) (link_length_i : α) (force_i : α) (temperature_i : α) => Polymers.C.physics_single_chain_fjc_thermodynamics_isotensional_end_to_end_length number_of_links_i link_length_i force_i temperature_i) number_of_links) link_length) force) temperature

/-- `src/physics/single_chain/fjc/thermodynamics/isotensional/mod.jl` lines 129-150. -/
def end_to_end_length_per_link (link_length : JArr α) (force : JArr α) (temperature : JArr α) : Option (JArr α) :=
  JArr.ap (JArr.ap (JArr.map (fun (link_length_i : α) (force_i : α) (temperature_i : α) => Polymers.C.physics_single_chain_fjc_thermodynamics_isotensional_end_to_end_length_per_link link_length_i force_i temperature_i) link_length) force) temperature

/-- `src/physics/single_chain/fjc/thermodynamics/isotensional/mod.jl` lines 158-176. -/
def nondimensional_end_to_end_length (number_of_links : JArr Nat) (nondimensional_force : JArr α) : Option (JArr α) :=
  JArr.ap (JArr.map (fun (number_of_links_i : Nat) (nondimensional_force_i : α) => Polymers.C.physics_single_chain_fjc_thermodynamics_isotensional_nondimensional_end_to_end_length number_of_links_i nondimensional_force_i) number_of_links) nondimensional_force

/-- `src/physics/single_chain/fjc/thermodynamics/isotensional/mod.jl` lines 183-198. -/
def nondimensional_end_to_end_length_per_link (nondimensional_force : JArr α) : Option (JArr α) :=
  JArr.map (fun (nondimensional_force_i : α) => Polymers.C.physics_single_chain_fjc_thermodynamics_isotensional_nondimensional_end_to_end_length_per_link nondimensional_force_i) nondimensional_force

/-- `src/physics/single_chain/fjc/thermodynamics/isotensional/mod.jl` lines 210-237. -/
def gibbs_free_energy (number_of_links : JArr Nat) (link_length : JArr α) (hinge_mass : JArr α) (force : JArr α) (temperature : JArr α) : Option (JArr α) :=
  JArr.ap (JArr.ap (JArr.ap (JArr.ap (JArr.map (fun (number_of_links_i : Nat) (link_length_i : α) (hinge_mass_i : α) (force_i : α) (temperature_i : α) => Polymers.C.physics_single_chain_fjc_thermodynamics_isotensional_gibbs_free_energy number_of_links_i link_length_i hinge_mass_i force_i temperature_i) number_of_links) link_length) hinge_mass) force) temperature

/-- `src/physics/single_chain/fjc/thermodynamics/isotensional/mod.jl` lines 245-269. -/
def gibbs_free_energy_per_link (link_length : JArr α) (hinge_mass : JArr α) (force : JArr α) (temperature : JArr α) : Option (JArr α) :=
  JArr.ap (JArr.ap (JArr.ap (JArr.map (fun (link_length_i : α) (hinge_mass_i : α) (force_i : α) (temperature_i : α) => Polymers.C.physics_single_chain_fjc_thermodynamics_isotensional_gibbs_free_energy_per_link link_length_i hinge_mass_i force_i temperature_i) link_length) hinge_mass) force) temperature

/-- `src/physics/single_chain/fjc/thermodynamics/isotensional/mod.jl` lines 277-301. -/
def relative_gibbs_free_energy (number_of_links : JArr Nat) (link_length : JArr α) (force : JArr α) (temperature : JArr α) : Option (JArr α) :=
  JArr.ap (JArr.ap (JArr.ap (JArr.map (fun (number_of_links_i : Nat) (link_length_i : α) (force_i : α) (temperature_i : α) => Polymers.C.physics_single_chain_fjc_thermodynamics_isotensional_relative_gibbs_free_energy number_of_links_i link_length_i force_i temperature_i) number_of_links) link_length) force) temperature

/-- `src/physics/single_chain/fjc/thermodynamics/isotensional/mod.jl` lines 309-330. -/
def relative_gibbs_free_energy_per_link (link_length : JArr α) (force : JArr α) (temperature : JArr α) : Option (JArr α) :=
  JArr.ap (JArr.ap (JArr.map (fun (link_length_i : α) (force_i : α) (temperature_i : α) => Polymers.C.physics_single_chain_fjc_thermodynamics_isotensional_relative_gibbs_free_energy_per_link link_length_i force_i temperature_i) link_length) force) temperature

/-- `src/physics/single_chain/fjc/thermodynamics/isotensional/mod.jl` lines 338-371. -/
def nondimensional_gibbs_free_energy (number_of_links : JArr Nat) (link_length : JArr α) (hinge_mass : JArr α) (nondimensional_force : JArr α) (temperature : JArr α) : Option (JArr α) :=
  JArr.ap (JArr.ap (JArr.ap (JArr.ap (JArr.map (fun (number_of_links_i : Nat) (link_length_i : α) (hinge_mass_i : α) (nondimensional_force_i : α) (temperature_i : α) => Polymers.C.physics_single_chain_fjc_thermodynamics_isotensional_nondimensional_gibbs_free_energy number_of_links_i link_length_i hinge_mass_i nondimensional_force_i temperature_i) number_of_links) link_length) hinge_mass) nondimensional_force) temperature

/-- `src/physics/single_chain/fjc/thermodynamics/isotensional/mod.jl` lines 379-403. -/
def nondimensional_gibbs_free_energy_per_link (link_length : JArr α) (hinge_mass : JArr α) (nondimensional_force : JArr α) (temperature : JArr α) : Option (JArr α) :=
  JArr.ap (JArr.ap (JArr.ap (JArr.map (fun (link_length_i : α) (hinge_mass_i : α) (nondimensional_force_i : α) (temperature_i : α) => Polymers.C.physics_single_chain_fjc_thermodynamics_isotensional_nondimensional_gibbs_free_energy_per_link link_length_i hinge_mass_i nondimensional_force_i temperature_i) link_length) hinge_mass) nondimensional_force) temperature

/-- `src/physics/single_chain/fjc/thermodynamics/isotensional/mod.jl` lines 411-429. -/
def nondimensional_relative_gibbs_free_energy (number_of_links : JArr Nat) (nondimensional_force : JArr α) : Option (JArr α) :=
  JArr.ap (JArr.map (fun (number_of_links_i : Nat) (nondimensional_force_i : α) => Polymers.C.physics_single_chain_fjc_thermodynamics_isotensional_nondimensional_relative_gibbs_free_energy number_of_links_i nondimensional_force_i) number_of_links) nondimensional_force

/-- `src/physics/single_chain/fjc/thermodynamics/isotensional/mod.jl` lines 436-451. -/
def nondimensional_relative_gibbs_free_energy_per_link (nondimensional_force : JArr α) : Option (JArr α) :=
  JArr.map (fun (nondimensional_force_i : α) => Polymers.C.physics_single_chain_fjc_thermodynamics_isotensional_nondimensional_relative_gibbs_free_energy_per_link nondimensional_force_i) nondimensional_force

/-- `src/physics/single_chain/fjc/thermodynamics/isotensional/mod.jl` lines 458-499. -/
def FJC.new (number_of_links : Nat) (link_length : α) (hinge_mass : α) : Polymers.Julia.Fjc.Thermodynamics.Isotensional.FJC α :=
  Polymers.Julia.Fjc.Thermodynamics.Isotensional.FJC.mk
    number_of_links
    link_length
    hinge_mass
    (Polymers.Julia.Fjc.Thermodynamics.Isotensional.Legendre.FJC.new number_of_links link_length hinge_mass)
    (fun (force : JArr α) (temperature : JArr α) => Polymers.Julia.Fjc.Thermodynamics.Isotensional.end_to_end_length (JArr.scalar number_of_links) (JArr.scalar link_length) force temperature)
    (fun (force : JArr α) (temperature : JArr α) => Polymers.Julia.Fjc.Thermodynamics.Isotensional.end_to_end_length_per_link (JArr.scalar link_length) force temperature)
    (fun (nondimensional_force : JArr α) => Polymers.Julia.Fjc.Thermodynamics.Isotensional.nondimensional_end_to_end_length (JArr.scalar number_of_links) nondimensional_force)
    (fun (nondimensional_force : JArr α) => Polymers.Julia.Fjc.Thermodynamics.Isotensional.nondimensional_end_to_end_length_per_link nondimensional_force)
    (fun (force : JArr α) (temperature : JArr α) => Polymers.Julia.Fjc.Thermodynamics.Isotensional.gibbs_free_energy (JArr.scalar number_of_links) (JArr.scalar link_length) (JArr.scalar hinge_mass) force temperature)
    (fun (force : JArr α) (temperature : JArr α) => Polymers.Julia.Fjc.Thermodynamics.Isotensional.gibbs_free_energy_per_link (JArr.scalar link_length) (JArr.scalar hinge_mass) force temperature)
    (fun (force : JArr α) (temperature : JArr α) => Polymers.Julia.Fjc.Thermodynamics.Isotensional.relative_gibbs_free_energy (JArr.scalar number_of_links) (JArr.scalar link_length) force temperature)
    (fun (force : JArr α) (temperature : JArr α) => Polymers.Julia.Fjc.Thermodynamics.Isotensional.relative_gibbs_free_energy_per_link (JArr.scalar link_length) force temperature)
    (fun (nondimensional_force : JArr α) (temperature : JArr α) => Polymers.Julia.Fjc.Thermodynamics.Isotensional.nondimensional_gibbs_free_energy (JArr.scalar number_of_links) (JArr.scalar link_length) (JArr.scalar hinge_mass) nondimensional_force temperature)
    (fun (nondimensional_force : JArr α) (temperature : JArr α) => Polymers.Julia.Fjc.Thermodynamics.Isotensional.nondimensional_gibbs_free_energy_per_link (JArr.scalar link_length) (JArr.scalar hinge_mass) nondimensional_force temperature)
    (fun (nondimensional_force : JArr α) => Polymers.Julia.Fjc.Thermodynamics.Isotensional.nondimensional_relative_gibbs_free_energy (JArr.scalar number_of_links) nondimensional_force)
    (fun (nondimensional_force : JArr α) => Polymers.Julia.Fjc.Thermodynamics.Isotensional.nondimensional_relative_gibbs_free_energy_per_link nondimensional_force)

end Polymers.Julia.Fjc.Thermodynamics.Isotensional

namespace Polymers.Julia.Fjc.Thermodynamics.ModifiedCanonical.Asymptotic.StrongPotential

/-- `src/physics/single_chain/fjc/thermodynamics/modified_canonical/asymptotic/strong_potential/mod.jl` lines 76-109. -/
def force (number_of_links : JArr Nat) (link_length : JArr α) (potential_distance : JArr α) (potential_stiffness : JArr α) (temperature : JArr α) : Option (JArr α) :=
  JArr.ap (JArr.ap (JArr.ap (JArr.ap (JArr.map (fun (number_of_links_i : Nat) (link_length_i : α) (potential_distance_i : α) (potential_stiffness_i : α) (temperature_i : α) => Polymers.C.physics_single_chain_fjc_thermodynamics_modified_canonical_asymptotic_strong_potential_force number_of_links_i link_length_i potential_distance_i potential_stiffness_i temperature_i) number_of_links) link_length) potential_distance) potential_stiffness) temperature

/-- `src/physics/single_chain/fjc/thermodynamics/modified_canonical/asymptotic/strong_potential/mod.jl` lines 123-148. -/
def nondimensional_force (number_of_links : JArr Nat) (nondimensional_potential_distance : JArr α) (nondimensional_potential_stiffness : JArr α) : Option (JArr α) :=
  JArr.ap (JArr.ap (JArr.map (fun (number_of_links_i : Nat) (nondimensional_potential_distance_i : α) (nondimensional_potential_stiffness_i : α) => Polymers.C.physics_single_chain_fjc_thermodynamics_modified_canonical_asymptotic_strong_potential_nondimensional_force number_of_links_i nondimensional_potential_distance_i nondimensional_potential_stiffness_i) number_of_links) nondimensional_potential_distance) nondimensional_potential_stiffness

/-- `src/physics/single_chain/fjc/thermodynamics/modified_canonical/asymptotic/strong_potential/mod.jl` lines 156-193. -/
def helmholtz_free_energy (number_of_links : JArr Nat) (link_length : JArr α) (hinge_mass : JArr α) (potential_distance : JArr α) (potential_stiffness : JArr α) (temperature : JArr α) : Option (JArr α) :=
  JArr.ap (JArr.ap (JArr.ap (JArr.ap (JArr.ap (JArr.map (fun (number_of_links_i : Nat) (link_length_i : α) (hinge_mass_i : α) (potential_distance_i : α) (potential_stiffness_i : α) (temperature_i : α) => Polymers.C.physics_single_chain_fjc_thermodynamics_modified_canonical_asymptotic_strong_potential_helmholtz_free_energy number_of_links_i link_length_i hinge_mass_i potential_distance_i potential_stiffness_i temperature_i) number_of_links) link_length) hinge_mass) potential_distance) potential_stiffness) temperature

/-- `src/physics/single_chain/fjc/thermodynamics/modified_canonical/asymptotic/strong_potential/mod.jl` lines 201-238. -/
def helmholtz_free_energy_per_link (number_of_links : JArr Nat) (link_length : JArr α) (hinge_mass : JArr α) (potential_distance : JArr α) (potential_stiffness : JArr α) (temperature : JArr α) : Option (JArr α) :=
  JArr.ap (JArr.ap (JArr.ap (JArr.ap (JArr.ap (JArr.map (fun (number_of_links_i : Nat) (link_length_i : α) (hinge_mass_i : α) (potential_distance_i : α) (potential_stiffness_i : α) (temperature_i : α) => Polymers.C.physics_single_chain_fjc_thermodynamics_modified_canonical_asymptotic_strong_potential_helmholtz_free_energy_per_link number_of_links_i link_length_i hinge_mass_i potential_distance_i potential_stiffness_i temperature_i) number_of_links) link_length) hinge_mass) potential_distance) potential_stiffness) temperature

/-- `src/physics/single_chain/fjc/thermodynamics/modified_canonical/asymptotic/strong_potential/mod.jl` lines 246-279. -/
def relative_helmholtz_free_energy (number_of_links : JArr Nat) (link_length : JArr α) (potential_distance : JArr α) (potential_stiffness : JArr α) (temperature : JArr α) : Option (JArr α) :=
  JArr.ap (JArr.ap (JArr.ap (JArr.ap (JArr.map (fun (number_of_links_i : Nat) (link_length_i : α) (potential_distance_i : α) (potential_stiffness_i : α) (temperature_i : α) => Polymers.C.physics_single_chain_fjc_thermodynamics_modified_canonical_asymptotic_strong_potential_relative_helmholtz_free_energy number_of_links_i link_length_i potential_distance_i potential_stiffness_i temperature_i) number_of_links) link_length) potential_distance) potential_stiffness) temperature

/-- `src/physics/single_chain/fjc/thermodynamics/modified_canonical/asymptotic/strong_potential/mod.jl` lines 287-320. -/
def relative_helmholtz_free_energy_per_link (number_of_links : JArr Nat) (link_length : JArr α) (potential_distance : JArr α) (potential_stiffness : JArr α) (temperature : JArr α) : Option (JArr α) :=
  JArr.ap (JArr.ap (JArr.ap (JArr.ap (JArr.map (fun (number_of_links_i : Nat) (link_length_i : α) (potential_distance_i : α) (potential_stiffness_i : α) (temperature_i : α) => Polymers.C.physics_single_chain_fjc_thermodynamics_modified_canonical_asymptotic_strong_potential_relative_helmholtz_free_energy_per_link number_of_links_i link_length_i potential_distance_i potential_stiffness_i temperature_i) number_of_links) link_length) potential_distance) potential_stiffness) temperature

/-- `src/physics/single_chain/fjc/thermodynamics/modified_canonical/asymptotic/strong_potential/mod.jl` lines 328-365. -/
def nondimensional_helmholtz_free_energy (number_of_links : JArr Nat) (link_length : JArr α) (hinge_mass : JArr α) (nondimensional_potential_distance : JArr α) (nondimensional_potential_stiffness : JArr α) (temperature : JArr α) : Option (JArr α) :=
  JArr.ap (JArr.ap (JArr.ap (JArr.ap (JArr.ap (JArr.map (fun (number_of_links_i : Nat) (link_length_i : α) (hinge_mass_i : α) (nondimensional_potential_distance_i : α) (nondimensional_potential_stiffness_i : α) (temperature_i : α) => Polymers.C.physics_single_chain_fjc_thermodynamics_modified_canonical_asymptotic_strong_potential_nondimensional_helmholtz_free_energy number_of_links_i link_length_i hinge_mass_i nondimensional_potential_distance_i nondimensional_potential_stiffness_i temperature_i) number_of_links) link_length) hinge_mass) nondimensional_potential_distance) nondimensional_potential_stiffness) temperature

/-- `src/physics/single_chain/fjc/thermodynamics/modified_canonical/asymptotic/strong_potential/mod.jl` lines 373-410. -/
def nondimensional_helmholtz_free_energy_per_link (number_of_links : JArr Nat) (link_length : JArr α) (hinge_mass : JArr α) (nondimensional_potential_distance : JArr α) (nondimensional_potential_stiffness : JArr α) (temperature : JArr α) : Option (JArr α) :=
  JArr.ap (JArr.ap (JArr.ap (JArr.ap (JArr.ap (JArr.map (fun (number_of_links_i : Nat) (link_length_i : α) (hinge_mass_i : α) (nondimensional_potential_distance_i : α) (nondimensional_potential_stiffness_i : α) (temperature_i : α) => Polymers.C.physics_single_chain_fjc_thermodynamics_modified_canonical_asymptotic_strong_potential_nondimensional_helmholtz_free_energy_per_link number_of_links_i link_length_i hinge_mass_i nondimensional_potential_distance_i nondimensional_potential_stiffness_i temperature_i) number_of_links) link_length) hinge_mass) nondimensional_potential_distance) nondimensional_potential_stiffness) temperature

/-- `src/physics/single_chain/fjc/thermodynamics/modified_canonical/asymptotic/strong_potential/mod.jl` lines 418-443. -/
def nondimensional_relative_helmholtz_free_energy (number_of_links : JArr Nat) (nondimensional_potential_distance : JArr α) (nondimensional_potential_stiffness : JArr α) : Option (JArr α) :=
  JArr.ap (JArr.ap (JArr.map (fun (number_of_links_i : Nat) (nondimensional_potential_distance_i : α) (nondimensional_potential_stiffness_i : α) => Polymers.C.physics_single_chain_fjc_thermodynamics_modified_canonical_asymptotic_strong_potential_nondimensional_relative_helmholtz_free_energy number_of_links_i nondimensional_potential_distance_i nondimensional_potential_stiffness_i) number_of_links) nondimensional_potential_distance) nondimensional_potential_stiffness

/-- `src/physics/single_chain/fjc/thermodynamics/modified_canonical/asymptotic/strong_potential/mod.jl` lines 451-476. -/
def nondimensional_relative_helmholtz_free_energy_per_link (number_of_links : JArr Nat) (nondimensional_potential_distance : JArr α) (nondimensional_potential_stiffness : JArr α) : Option (JArr α) :=
  JArr.ap (JArr.ap (JArr.map (fun (number_of_links_i : Nat) (nondimensional_potential_distance_i : α) (nondimensional_potential_stiffness_i : α) => Polymers.C.physics_single_chain_fjc_thermodynamics_modified_canonical_asymptotic_strong_potential_nondimensional_relative_helmholtz_free_energy_per_link number_of_links_i nondimensional_potential_distance_i nondimensional_potential_stiffness_i) number_of_links) nondimensional_potential_distance) nondimensional_potential_stiffness

/-- `src/physics/single_chain/fjc/thermodynamics/modified_canonical/asymptotic/strong_potential/mod.jl` lines 483-571. -/
def FJC.new (number_of_links : Nat) (link_length : α) (hinge_mass : α) : Polymers.Julia.Fjc.Thermodynamics.ModifiedCanonical.Asymptotic.StrongPotential.FJC α :=
  Polymers.Julia.Fjc.Thermodynamics.ModifiedCanonical.Asymptotic.StrongPotential.FJC.mk
    number_of_links
    link_length
    hinge_mass
    (fun (potential_distance : JArr α) (potential_stiffness : JArr α) (temperature : JArr α) => Polymers.Julia.Fjc.Thermodynamics.ModifiedCanonical.Asymptotic.StrongPotential.force (JArr.scalar number_of_links) (JArr.scalar link_length) potential_distance potential_stiffness temperature)
    (fun (nondimensional_potential_distance : JArr α) (nondimensional_potential_stiffness : JArr α) => Polymers.Julia.Fjc.Thermodynamics.ModifiedCanonical.Asymptotic.StrongPotential.nondimensional_force (JArr.scalar number_of_links) nondimensional_potential_distance nondimensional_potential_stiffness)
    (fun (potential_distance : JArr α) (potential_stiffness : JArr α) (temperature : JArr α) => Polymers.Julia.Fjc.Thermodynamics.ModifiedCanonical.Asymptotic.StrongPotential.helmholtz_free_energy (JArr.scalar number_of_links) (JArr.scalar link_length) (JArr.scalar hinge_mass) potential_distance potential_stiffness temperature)
    (fun (potential_distance : JArr α) (potential_stiffness : JArr α) (temperature : JArr α) => Polymers.Julia.Fjc.Thermodynamics.ModifiedCanonical.Asymptotic.StrongPotential.helmholtz_free_energy_per_link (JArr.scalar number_of_links) (JArr.scalar link_length) (JArr.scalar hinge_mass) potential_distance potential_stiffness temperature)
    (fun (potential_distance : JArr α) (potential_stiffness : JArr α) (temperature : JArr α) => Polymers.Julia.Fjc.Thermodynamics.ModifiedCanonical.Asymptotic.StrongPotential.relative_helmholtz_free_energy (JArr.scalar number_of_links) (JArr.scalar link_length) potential_distance potential_stiffness temperature)
    (fun (potential_distance : JArr α) (potential_stiffness : JArr α) (temperature : JArr α) => Polymers.Julia.Fjc.Thermodynamics.ModifiedCanonical.Asymptotic.StrongPotential.relative_helmholtz_free_energy_per_link (JArr.scalar number_of_links) (JArr.scalar link_length) potential_distance potential_stiffness temperature)
    (fun (nondimensional_potential_distance : JArr α) (nondimensional_potential_stiffness : JArr α) (temperature : JArr α) => Polymers.Julia.Fjc.Thermodynamics.ModifiedCanonical.Asymptotic.StrongPotential.nondimensional_helmholtz_free_energy (JArr.scalar number_of_links) (JArr.scalar link_length) (JArr.scalar hinge_mass) nondimensional_potential_distance nondimensional_potential_stiffness temperature)
    (fun (nondimensional_potential_distance : JArr α) (nondimensional_potential_stiffness : JArr α) (temperature : JArr α) => Polymers.Julia.Fjc.Thermodynamics.ModifiedCanonical.Asymptotic.StrongPotential.nondimensional_helmholtz_free_energy_per_link (JArr.scalar number_of_links) (JArr.scalar link_length) (JArr.scalar hinge_mass) nondimensional_potential_distance nondimensional_potential_stiffness temperature)
    (fun (nondimensional_potential_distance : JArr α) (nondimensional_potential_stiffness : JArr α) => Polymers.Julia.Fjc.Thermodynamics.ModifiedCanonical.Asymptotic.StrongPotential.nondimensional_relative_helmholtz_free_energy (JArr.scalar number_of_links) nondimensional_potential_distance nondimensional_potential_stiffness)
    (fun (nondimensional_potential_distance : JArr α) (nondimensional_potential_stiffness : JArr α) => Polymers.Julia.Fjc.Thermodynamics.ModifiedCanonical.Asymptotic.StrongPotential.nondimensional_relative_helmholtz_free_energy_per_link (JArr.scalar number_of_links) nondimensional_potential_distance nondimensional_potential_stiffness)

end Polymers.Julia.Fjc.Thermodynamics.ModifiedCanonical.Asymptotic.StrongPotential

namespace Polymers.Julia.Fjc.Thermodynamics.ModifiedCanonical.Asymptotic.WeakPotential

/-- `src/physics/single_chain/fjc/thermodynamics/modified_canonical/asymptotic/weak_potential/mod.jl` lines 92-125. -/
def end_to_end_length (number_of_links : JArr Nat) (link_length : JArr α) (potential_distance : JArr α) (potential_stiffness : JArr α) (temperature : JArr α) : Option (JArr α) :=
  JArr.ap (JArr.ap (JArr.ap (JArr.ap (JArr.map (fun (number_of_links_i : Nat) (link_length_i : α) (potential_distance_i : α) (potential_stiffness_i : α) (temperature_i : α) => Polymers.C.physics_single_chain_fjc_thermodynamics_modified_canonical_asymptotic_weak_potential_end_to_end_length number_of_links_i link_length_i potential_distance_i potential_stiffness_i temperature_i) number_of_links) link_length) potential_distance) potential_stiffness) temperature

/-- `src/physics/single_chain/fjc/thermodynamics/modified_canonical/asymptotic/weak_potential/mod.jl` lines 133-166. -/
def end_to_end_length_per_link (number_of_links : JArr Nat) (link_length : JArr α) (potential_distance : JArr α) (potential_stiffness : JArr α) (temperature : JArr α) : Option (JArr α) :=
  JArr.ap (JArr.ap (JArr.ap (JArr.ap (JArr.map (fun (number_of_links_i : Nat) (link_length_i : α) (potential_distance_i : α) (potential_stiffness_i : α) (temperature_i : α) => Polymers.C.physics_single_chain_fjc_thermodynamics_modified_canonical_asymptotic_weak_potential_end_to_end_length_per_link number_of_links_i link_length_i potential_distance_i potential_stiffness_i temperature_i) number_of_links) link_length) potential_distance) potential_stiffness) temperature

/-- `src/physics/single_chain/fjc/thermodynamics/modified_canonical/asymptotic/weak_potential/mod.jl` lines 174-199. -/
def nondimensional_end_to_end_length (number_of_links : JArr Nat) (nondimensional_potential_distance : JArr α) (nondimensional_potential_stiffness : JArr α) : Option (JArr α) :=
  JArr.ap (JArr.ap (JArr.map (fun (number_of_links_i : Nat) (nondimensional_potential_distance_i : α) (nondimensional_potential_stiffness_i : α) => Polymers.C.physics_single_chain_fjc_thermodynamics_modified_canonical_asymptotic_weak_potential_nondimensional_end_to_end_length number_of_links_i nondimensional_potential_distance_i nondimensional_potential_stiffness_i) number_of_links) nondimensional_potential_distance) nondimensional_potential_stiffness

/-- `src/physics/single_chain/fjc/thermodynamics/modified_canonical/asymptotic/weak_potential/mod.jl` lines 213-238. -/
def nondimensional_end_to_end_length_per_link (number_of_links : JArr Nat) (nondimensional_potential_distance : JArr α) (nondimensional_potential_stiffness : JArr α) : Option (JArr α) :=
  JArr.ap (JArr.ap (JArr.map (fun (number_of_links_i : Nat) (nondimensional_potential_distance_i : α) (nondimensional_potential_stiffness_i : α) => Polymers.C.physics_single_chain_fjc_thermodynamics_modified_canonical_asymptotic_weak_potential_nondimensional_end_to_end_length_per_link number_of_links_i nondimensional_potential_distance_i nondimensional_potential_stiffness_i) number_of_links) nondimensional_potential_distance) nondimensional_potential_stiffness

/-- `src/physics/single_chain/fjc/thermodynamics/modified_canonical/asymptotic/weak_potential/mod.jl` lines 245-263. -/
def force (potential_distance : JArr α) (potential_stiffness : JArr α) : Option (JArr α) :=
  JArr.ap (JArr.map (fun (potential_distance_i : α) (potential_stiffness_i : α) => Polymers.C.physics_single_chain_fjc_thermodynamics_modified_canonical_asymptotic_weak_potential_force potential_distance_i potential_stiffness_i) potential_distance) potential_stiffness

/-- `src/physics/single_chain/fjc/thermodynamics/modified_canonical/asymptotic/weak_potential/mod.jl` lines 270-295. -/
def nondimensional_force (number_of_links : JArr Nat) (nondimensional_potential_distance : JArr α) (nondimensional_potential_stiffness : JArr α) : Option (JArr α) :=
  JArr.ap (JArr.ap (JArr.map (fun (number_of_links_i : Nat) (nondimensional_potential_distance_i : α) (nondimensional_potential_stiffness_i : α) => Polymers.C.physics_single_chain_fjc_thermodynamics_modified_canonical_asymptotic_weak_potential_nondimensional_force number_of_links_i nondimensional_potential_distance_i nondimensional_potential_stiffness_i) number_of_links) nondimensional_potential_distance) nondimensional_potential_stiffness

/-- `src/physics/single_chain/fjc/thermodynamics/modified_canonical/asymptotic/weak_potential/mod.jl` lines 303-340. -/
def gibbs_free_energy (number_of_links : JArr Nat) (link_length : JArr α) (hinge_mass : JArr α) (potential_distance : JArr α) (potential_stiffness : JArr α) (temperature : JArr α) : Option (JArr α) :=
  JArr.ap (JArr.ap (JArr.ap (JArr.ap (JArr.ap (JArr.map (fun (number_of_links_i : Nat) (link_length_i : α) (hinge_mass_i : α) (potential_distance_i : α) (potential_stiffness_i : α) (temperature_i : α) => Polymers.C.physics_single_chain_fjc_thermodynamics_modified_canonical_asymptotic_weak_potential_gibbs_free_energy number_of_links_i link_length_i hinge_mass_i potential_distance_i potential_stiffness_i temperature_i) number_of_links) link_length) hinge_mass) potential_distance) potential_stiffness) temperature

/-- `src/physics/single_chain/fjc/thermodynamics/modified_canonical/asymptotic/weak_potential/mod.jl` lines 348-385. -/
def gibbs_free_energy_per_link (number_of_links : JArr Nat) (link_length : JArr α) (hinge_mass : JArr α) (potential_distance : JArr α) (potential_stiffness : JArr α) (temperature : JArr α) : Option (JArr α) :=
  JArr.ap (JArr.ap (JArr.ap (JArr.ap (JArr.ap (JArr.map (fun (number_of_links_i : Nat) (link_length_i : α) (hinge_mass_i : α) (potential_distance_i : α) (potential_stiffness_i : α) (temperature_i : α) => Polymers.C.physics_single_chain_fjc_thermodynamics_modified_canonical_asymptotic_weak_potential_gibbs_free_energy_per_link number_of_links_i link_length_i hinge_mass_i potential_distance_i potential_stiffness_i temperature_i) number_of_links) link_length) hinge_mass) potential_distance) potential_stiffness) temperature

/-- `src/physics/single_chain/fjc/thermodynamics/modified_canonical/asymptotic/weak_potential/mod.jl` lines 393-426. -/
def relative_gibbs_free_energy (number_of_links : JArr Nat) (link_length : JArr α) (potential_distance : JArr α) (potential_stiffness : JArr α) (temperature : JArr α) : Option (JArr α) :=
  JArr.ap (JArr.ap (JArr.ap (JArr.ap (JArr.map (fun (number_of_links_i : Nat) (link_length_i : α) (potential_distance_i : α) (potential_stiffness_i : α) (temperature_i : α) => Polymers.C.physics_single_chain_fjc_thermodynamics_modified_canonical_asymptotic_weak_potential_relative_gibbs_free_energy number_of_links_i link_length_i potential_distance_i potential_stiffness_i temperature_i) number_of_links) link_length) potential_distance) potential_stiffness) temperature

/-- `src/physics/single_chain/fjc/thermodynamics/modified_canonical/asymptotic/weak_potential/mod.jl` lines 434-467. -/
def relative_gibbs_free_energy_per_link (number_of_links : JArr Nat) (link_length : JArr α) (potential_distance : JArr α) (potential_stiffness : JArr α) (temperature : JArr α) : Option (JArr α) :=
  JArr.ap (JArr.ap (JArr.ap (JArr.ap (JArr.map (fun (number_of_links_i : Nat) (link_length_i : α) (potential_distance_i : α) (potential_stiffness_i : α) (temperature_i : α) => Polymers.C.physics_single_chain_fjc_thermodynamics_modified_canonical_asymptotic_weak_potential_relative_gibbs_free_energy_per_link number_of_links_i link_length_i potential_distance_i potential_stiffness_i temperature_i) number_of_links) link_length) potential_distance) potential_stiffness) temperature

/-- `src/physics/single_chain/fjc/thermodynamics/modified_canonical/asymptotic/weak_potential/mod.jl` lines 475-512. -/
def nondimensional_gibbs_free_energy (number_of_links : JArr Nat) (link_length : JArr α) (hinge_mass : JArr α) (nondimensional_potential_distance : JArr α) (nondimensional_potential_stiffness : JArr α) (temperature : JArr α) : Option (JArr α) :=
  JArr.ap (JArr.ap (JArr.ap (JArr.ap (JArr.ap (JArr.map (fun (number_of_links_i : Nat) (link_length_i : α) (hinge_mass_i : α) (nondimensional_potential_distance_i : α) (nondimensional_potential_stiffness_i : α) (temperature_i : α) => Polymers.C.physics_single_chain_fjc_thermodynamics_modified_canonical_asymptotic_weak_potential_nondimensional_gibbs_free_energy number_of_links_i link_length_i hinge_mass_i nondimensional_potential_distance_i nondimensional_potential_stiffness_i temperature_i) number_of_links) link_length) hinge_mass) nondimensional_potential_distance) nondimensional_potential_stiffness) temperature

/-- `src/physics/single_chain/fjc/thermodynamics/modified_canonical/asymptotic/weak_potential/mod.jl` lines 520-557. -/
def nondimensional_gibbs_free_energy_per_link (number_of_links : JArr Nat) (link_length : JArr α) (hinge_mass : JArr α) (nondimensional_potential_distance : JArr α) (nondimensional_potential_stiffness : JArr α) (temperature : JArr α) : Option (JArr α) :=
  JArr.ap (JArr.ap (JArr.ap (JArr.ap (JArr.ap (JArr.map (fun (number_of_links_i : Nat) (link_length_i : α) (hinge_mass_i : α) (nondimensional_potential_distance_i : α) (nondimensional_potential_stiffness_i : α) (temperature_i : α) => Polymers.C.physics_single_chain_fjc_thermodynamics_modified_canonical_asymptotic_weak_potential_nondimensional_gibbs_free_energy_per_link number_of_links_i link_length_i hinge_mass_i nondimensional_potential_distance_i nondimensional_potential_stiffness_i temperature_i) number_of_links) link_length) hinge_mass) nondimensional_potential_distance) nondimensional_potential_stiffness) temperature

/-- `src/physics/single_chain/fjc/thermodynamics/modified_canonical/asymptotic/weak_potential/mod.jl` lines 565-590. -/
def nondimensional_relative_gibbs_free_energy (number_of_links : JArr Nat) (nondimensional_potential_distance : JArr α) (nondimensional_potential_stiffness : JArr α) : Option (JArr α) :=
  JArr.ap (JArr.ap (JArr.map (fun (number_of_links_i : Nat) (nondimensional_potential_distance_i : α) (nondimensional_potential_stiffness_i : α) => Polymers.C.physics_single_chain_fjc_thermodynamics_modified_canonical_asymptotic_weak_potential_nondimensional_relative_gibbs_free_energy number_of_links_i nondimensional_potential_distance_i nondimensional_potential_stiffness_i) number_of_links) nondimensional_potential_distance) nondimensional_potential_stiffness

/-- `src/physics/single_chain/fjc/thermodynamics/modified_canonical/asymptotic/weak_potential/mod.jl` lines 598-623. -/
def nondimensional_relative_gibbs_free_energy_per_link (number_of_links : JArr Nat) (nondimensional_potential_distance : JArr α) (nondimensional_potential_stiffness : JArr α) : Option (JArr α) :=
  JArr.ap (JArr.ap (JArr.map (fun (number_of_links_i : Nat) (nondimensional_potential_distance_i : α) (nondimensional_potential_stiffness_i : α) => Polymers.C.physics_single_chain_fjc_thermodynamics_modified_canonical_asymptotic_weak_potential_nondimensional_relative_gibbs_free_energy_per_link number_of_links_i nondimensional_potential_distance_i nondimensional_potential_stiffness_i) number_of_links) nondimensional_potential_distance) nondimensional_potential_stiffness

/-- `src/physics/single_chain/fjc/thermodynamics/modified_canonical/asymptotic/weak_potential/mod.jl` lines 630-740. -/
def FJC.new (number_of_links : Nat) (link_length : α) (hinge_mass : α) : Polymers.Julia.Fjc.Thermodynamics.ModifiedCanonical.Asymptotic.WeakPotential.FJC α :=
  Polymers.Julia.Fjc.Thermodynamics.ModifiedCanonical.Asymptotic.WeakPotential.FJC.mk
    number_of_links
    link_length
    hinge_mass
    (fun (potential_distance : JArr α) (potential_stiffness : JArr α) (temperature : JArr α) => Polymers.Julia.Fjc.Thermodynamics.ModifiedCanonical.Asymptotic.WeakPotential.end_to_end_length (JArr.scalar number_of_links) (JArr.scalar link_length) potential_distance potential_stiffness temperature)
    (fun (potential_distance : JArr α) (potential_stiffness : JArr α) (temperature : JArr α) => Polymers.Julia.Fjc.Thermodynamics.ModifiedCanonical.Asymptotic.WeakPotential.end_to_end_length_per_link (JArr.scalar number_of_links) (JArr.scalar link_length) potential_distance potential_stiffness temperature)
    (fun (nondimensional_potential_distance : JArr α) (nondimensional_potential_stiffness : JArr α) => Polymers.Julia.Fjc.Thermodynamics.ModifiedCanonical.Asymptotic.WeakPotential.nondimensional_end_to_end_length (JArr.scalar number_of_links) nondimensional_potential_distance nondimensional_potential_stiffness)
    (fun (nondimensional_potential_distance : JArr α) (nondimensional_potential_stiffness : JArr α) => Polymers.Julia.Fjc.Thermodynamics.ModifiedCanonical.Asymptotic.WeakPotential.nondimensional_end_to_end_length_per_link (JArr.scalar number_of_links) nondimensional_potential_distance nondimensional_potential_stiffness)
    (fun (potential_distance : JArr α) (potential_stiffness : JArr α) => Polymers.Julia.Fjc.Thermodynamics.ModifiedCanonical.Asymptotic.WeakPotential.force potential_distance potential_stiffness)
    (fun (nondimensional_potential_distance : JArr α) (nondimensional_potential_stiffness : JArr α) => Polymers.Julia.Fjc.Thermodynamics.ModifiedCanonical.Asymptotic.WeakPotential.nondimensional_force (JArr.scalar number_of_links) nondimensional_potential_distance nondimensional_potential_stiffness)
    (fun (potential_distance : JArr α) (potential_stiffness : JArr α) (temperature : JArr α) => Polymers.Julia.Fjc.Thermodynamics.ModifiedCanonical.Asymptotic.WeakPotential.gibbs_free_energy (JArr.scalar number_of_links) (JArr.scalar link_length) (JArr.scalar hinge_mass) potential_distance potential_stiffness temperature)
    (fun (potential_distance : JArr α) (potential_stiffness : JArr α) (temperature : JArr α) => Polymers.Julia.Fjc.Thermodynamics.ModifiedCanonical.Asymptotic.WeakPotential.gibbs_free_energy_per_link (JArr.scalar number_of_links) (JArr.scalar link_length) (JArr.scalar hinge_mass) potential_distance potential_stiffness temperature)
    (fun (potential_distance : JArr α) (potential_stiffness : JArr α) (temperature : JArr α) => Polymers.Julia.Fjc.Thermodynamics.ModifiedCanonical.Asymptotic.WeakPotential.relative_gibbs_free_energy (JArr.scalar number_of_links) (JArr.scalar link_length) potential_distance potential_stiffness temperature)
    (fun (potential_distance : JArr α) (potential_stiffness : JArr α) (temperature : JArr α) => Polymers.Julia.Fjc.Thermodynamics.ModifiedCanonical.Asymptotic.WeakPotential.relative_gibbs_free_energy_per_link (JArr.scalar number_of_links) (JArr.scalar link_length) potential_distance potential_stiffness temperature)
    (fun (nondimensional_potential_distance : JArr α) (nondimensional_potential_stiffness : JArr α) (temperature : JArr α) => Polymers.Julia.Fjc.Thermodynamics.ModifiedCanonical.Asymptotic.WeakPotential.nondimensional_gibbs_free_energy (JArr.scalar number_of_links) (JArr.scalar link_length) (JArr.scalar hinge_mass) nondimensional_potential_distance nondimensional_potential_stiffness temperature)
    (fun (nondimensional_potential_distance : JArr α) (nondimensional_potential_stiffness : JArr α) (temperature : JArr α) => Polymers.Julia.Fjc.Thermodynamics.ModifiedCanonical.Asymptotic.WeakPotential.nondimensional_gibbs_free_energy_per_link (JArr.scalar number_of_links) (JArr.scalar link_length) (JArr.scalar hinge_mass) nondimensional_potential_distance nondimensional_potential_stiffness temperature)
    (fun (nondimensional_potential_distance : JArr α) (nondimensional_potential_stiffness : JArr α) => Polymers.Julia.Fjc.Thermodynamics.ModifiedCanonical.Asymptotic.WeakPotential.nondimensional_relative_gibbs_free_energy (JArr.scalar number_of_links) nondimensional_potential_distance nondimensional_potential_stiffness)
    (fun (nondimensional_potential_distance : JArr α) (nondimensional_potential_stiffness : JArr α) => Polymers.Julia.Fjc.Thermodynamics.ModifiedCanonical.Asymptotic.WeakPotential.nondimensional_relative_gibbs_free_energy_per_link (JArr.scalar number_of_links) nondimensional_potential_distance nondimensional_potential_stiffness)

end Polymers.Julia.Fjc.Thermodynamics.ModifiedCanonical.Asymptotic.WeakPotential

namespace Polymers.Julia.Fjc.Thermodynamics.ModifiedCanonical.Asymptotic

/-- `src/physics/single_chain/fjc/thermodynamics/modified_canonical/asymptotic/mod.jl` lines 45-53. -/
def FJC.new (number_of_links : Nat) (link_length : α) (hinge_mass : α) : Polymers.Julia.Fjc.Thermodynamics.ModifiedCanonical.Asymptotic.FJC α :=
  Polymers.Julia.Fjc.Thermodynamics.ModifiedCanonical.Asymptotic.FJC.mk
    number_of_links
    link_length
    hinge_mass
    (Polymers.Julia.Fjc.Thermodynamics.ModifiedCanonical.Asymptotic.StrongPotential.FJC.new number_of_links link_length hinge_mass)
    (Polymers.Julia.Fjc.Thermodynamics.ModifiedCanonical.Asymptotic.WeakPotential.FJC.new number_of_links link_length hinge_mass)

end Polymers.Julia.Fjc.Thermodynamics.ModifiedCanonical.Asymptotic

namespace Polymers.Julia.Fjc.Thermodynamics.ModifiedCanonical

/-- `src/physics/single_chain/fjc/thermodynamics/modified_canonical/mod.jl` lines 130-163. -/
def end_to_end_length (number_of_links : JArr Nat) (link_length : JArr α) (potential_distance : JArr α) (potential_stiffness : JArr α) (temperature : JArr α) : Option (JArr α) :=
  JArr.ap (JArr.ap (JArr.ap (JArr.ap (JArr.map (fun (number_of_links_i : Nat) (link_length_i : α) (potential_distance_i : α) (potential_stiffness_i : α) (temperature_i : α) => Polymers.C.physics_single_chain_fjc_thermodynamics_modified_canonical_end_to_end_length number_of_links_i link_length_i potential_distance_i potential_stiffness_i temperature_i) number_of_links) link_length) potential_distance) potential_stiffness) temperature

/-- `src/physics/single_chain/fjc/thermodynamics/modified_canonical/mod.jl` lines 171-204. -/
def end_to_end_length_per_link (number_of_links : JArr Nat) (link_length : JArr α) (potential_distance : JArr α) (potential_stiffness : JArr α) (temperature : JArr α) : Option (JArr α) :=
  JArr.ap (JArr.ap (JArr.ap (JArr.ap (JArr.map (fun (number_of_links_i : Nat) (link_length_i : α) (potential_distance_i : α) (potential_stiffness_i : α) (temperature_i : α) => Polymers.C.physics_single_chain_fjc_thermodynamics_modified_canonical_end_to_end_length_per_link number_of_links_i link_length_i potential_distance_i potential_stiffness_i temperature_i) number_of_links) link_length) potential_distance) potential_stiffness) temperature

/-- `src/physics/single_chain/fjc/thermodynamics/modified_canonical/mod.jl` lines 212-237. -/
def nondimensional_end_to_end_length (number_of_links : JArr Nat) (nondimensional_potential_distance : JArr α) (nondimensional_potential_stiffness : JArr α) : Option (JArr α) :=
  JArr.ap (JArr.ap (JArr.map (fun (number_of_links_i : Nat) (nondimensional_potential_distance_i : α) (nondimensional_potential_stiffness_i : α) => Polymers.C.physics_single_chain_fjc_thermodynamics_modified_canonical_nondimensional_end_to_end_length number_of_links_i nondimensional_potential_distance_i nondimensional_potential_stiffness_i) number_of_links) nondimensional_potential_distance) nondimensional_potential_stiffness

/-- `src/physics/single_chain/fjc/thermodynamics/modified_canonical/mod.jl` lines 245-270. -/
def nondimensional_end_to_end_length_per_link (number_of_links : JArr Nat) (nondimensional_potential_distance : JArr α) (nondimensional_potential_stiffness : JArr α) : Option (JArr α) :=
  JArr.ap (JArr.ap (JArr.map (fun (number_of_links_i : Nat) (nondimensional_potential_distance_i : α) (nondimensional_potential_stiffness_i : α) => Polymers.C.physics_single_chain_fjc_thermodynamics_modified_canonical_nondimensional_end_to_end_length_per_link number_of_links_i nondimensional_potential_distance_i nondimensional_potential_stiffness_i) number_of_links) nondimensional_potential_distance) nondimensional_potential_stiffness

/-- `src/physics/single_chain/fjc/thermodynamics/modified_canonical/mod.jl` lines 278-311. -/
def force (number_of_links : JArr Nat) (link_length : JArr α) (potential_distance : JArr α) (potential_stiffness : JArr α) (temperature : JArr α) : Option (JArr α) :=
  JArr.ap (JArr.ap (JArr.ap (JArr.ap (JArr.map (fun (number_of_links_i : Nat) (link_length_i : α) (potential_distance_i : α) (potential_stiffness_i : α) (temperature_i : α) => Polymers.C.physics_single_chain_fjc_thermodynamics_modified_canonical_force number_of_links_i link_length_i potential_distance_i potential_stiffness_i temperature_i) number_of_links) link_length) potential_distance) potential_stiffness) temperature

/-- `src/physics/single_chain/fjc/thermodynamics/modified_canonical/mod.jl` lines 319-344. -/
def nondimensional_force (number_of_links : JArr Nat) (nondimensional_potential_distance : JArr α) (nondimensional_potential_stiffness : JArr α) : Option (JArr α) :=
  JArr.ap (JArr.ap (JArr.map (fun (number_of_links_i : Nat) (nondimensional_potential_distance_i : α) (nondimensional_potential_stiffness_i : α) => Polymers.C.physics_single_chain_fjc_thermodynamics_modified_canonical_nondimensional_force number_of_links_i nondimensional_potential_distance_i nondimensional_potential_stiffness_i) number_of_links) nondimensional_potential_distance) nondimensional_potential_stiffness

/-- `src/physics/single_chain/fjc/thermodynamics/modified_canonical/mod.jl` lines 352-389. -/
def helmholtz_free_energy (number_of_links : JArr Nat) (link_length : JArr α) (hinge_mass : JArr α) (potential_distance : JArr α) (potential_stiffness : JArr α) (temperature : JArr α) : Option (JArr α) :=
  JArr.ap (JArr.ap (JArr.ap (JArr.ap (JArr.ap (JArr.map (fun (number_of_links_i : Nat) (link_length_i : α) (hinge_mass_i : α) (potential_distance_i : α) (potential_stiffness_i : α) (temperature_i : α) => Polymers.C.physics_single_chain_fjc_thermodynamics_modified_canonical_helmholtz_free_energy number_of_links_i link_length_i hinge_mass_i potential_distance_i potential_stiffness_i temperature_i) number_of_links) link_length) hinge_mass) potential_distance) potential_stiffness) temperature

/-- `src/physics/single_chain/fjc/thermodynamics/modified_canonical/mod.jl` lines 397-434. -/
def helmholtz_free_energy_per_link (number_of_links : JArr Nat) (link_length : JArr α) (hinge_mass : JArr α) (potential_distance : JArr α) (potential_stiffness : JArr α) (temperature : JArr α) : Option (JArr α) :=
  JArr.ap (JArr.ap (JArr.ap (JArr.ap (JArr.ap (JArr.map (fun (number_of_links_i : Nat) (link_length_i : α) (hinge_mass_i : α) (potential_distance_i : α) (potential_stiffness_i : α) (temperature_i : α) => Polymers.C.physics_single_chain_fjc_thermodynamics_modified_canonical_helmholtz_free_energy_per_link number_of_links_i link_length_i hinge_mass_i potential_distance_i potential_stiffness_i temperature_i) number_of_links) link_length) hinge_mass) potential_distance) potential_stiffness) temperature

/-- `src/physics/single_chain/fjc/thermodynamics/modified_canonical/mod.jl` lines 442-475. -/
def relative_helmholtz_free_energy (number_of_links : JArr Nat) (link_length : JArr α) (potential_distance : JArr α) (potential_stiffness : JArr α) (temperature : JArr α) : Option (JArr α) :=
  JArr.ap (JArr.ap (JArr.ap (JArr.ap (JArr.map (fun (number_of_links_i : Nat) (link_length_i : α) (potential_distance_i : α) (potential_stiffness_i : α) (temperature_i : α) => Polymers.C.physics_single_chain_fjc_thermodynamics_modified_canonical_relative_helmholtz_free_energy number_of_links_i link_length_i potential_distance_i potential_stiffness_i temperature_i) number_of_links) link_length) potential_distance) potential_stiffness) temperature

/-- `src/physics/single_chain/fjc/thermodynamics/modified_canonical/mod.jl` lines 483-516. -/
def relative_helmholtz_free_energy_per_link (number_of_links : JArr Nat) (link_length : JArr α) (potential_distance : JArr α) (potential_stiffness : JArr α) (temperature : JArr α) : Option (JArr α) :=
  JArr.ap (JArr.ap (JArr.ap (JArr.ap (JArr.map (fun (number_of_links_i : Nat) (link_length_i : α) (potential_distance_i : α) (potential_stiffness_i : α) (temperature_i : α) => Polymers.C.physics_single_chain_fjc_thermodynamics_modified_canonical_relative_helmholtz_free_energy_per_link number_of_links_i link_length_i potential_distance_i potential_stiffness_i temperature_i) number_of_links) link_length) potential_distance) potential_stiffness) temperature

/-- `src/physics/single_chain/fjc/thermodynamics/modified_canonical/mod.jl` lines 524-561. -/
def nondimensional_helmholtz_free_energy (number_of_links : JArr Nat) (link_length : JArr α) (hinge_mass : JArr α) (nondimensional_potential_distance : JArr α) (nondimensional_potential_stiffness : JArr α) (temperature : JArr α) : Option (JArr α) :=
  JArr.ap (JArr.ap (JArr.ap (JArr.ap (JArr.ap (JArr.map (fun (number_of_links_i : Nat) (link_length_i : α) (hinge_mass_i : α) (nondimensional_potential_distance_i : α) (nondimensional_potential_stiffness_i : α) (temperature_i : α) => Polymers.C.physics_single_chain_fjc_thermodynamics_modified_canonical_nondimensional_helmholtz_free_energy number_of_links_i link_length_i hinge_mass_i nondimensional_potential_distance_i nondimensional_potential_stiffness_i temperature_i) number_of_links) link_length) hinge_mass) nondimensional_potential_distance) nondimensional_potential_stiffness) temperature

/-- `src/physics/single_chain/fjc/thermodynamics/modified_canonical/mod.jl` lines 569-606. -/
def nondimensional_helmholtz_free_energy_per_link (number_of_links : JArr Nat) (link_length : JArr α) (hinge_mass : JArr α) (nondimensional_potential_distance : JArr α) (nondimensional_potential_stiffness : JArr α) (temperature : JArr α) : Option (JArr α) :=
  JArr.ap (JArr.ap (JArr.ap (JArr.ap (JArr.ap (JArr.map (fun (number_of_links_i : Nat) (link_length_i : α) (hinge_mass_i : α) (nondimensional_potential_distance_i : α) (nondimensional_potential_stiffness_i : α) (temperature_i : α) => Polymers.C.physics_single_chain_fjc_thermodynamics_modified_canonical_nondimensional_helmholtz_free_energy_per_link number_of_links_i link_length_i hinge_mass_i nondimensional_potential_distance_i nondimensional_potential_stiffness_i temperature_i) number_of_links) link_length) hinge_mass) nondimensional_potential_distance) nondimensional_potential_stiffness) temperature

/-- `src/physics/single_chain/fjc/thermodynamics/modified_canonical/mod.jl` lines 614-639. -/
def nondimensional_relative_helmholtz_free_energy (number_of_links : JArr Nat) (nondimensional_potential_distance : JArr α) (nondimensional_potential_stiffness : JArr α) : Option (JArr α) :=
  JArr.ap (JArr.ap (JArr.map (fun (number_of_links_i : Nat) (nondimensional_potential_distance_i : α) (nondimensional_potential_stiffness_i : α) => Polymers.C.physics_single_chain_fjc_thermodynamics_modified_canonical_nondimensional_relative_helmholtz_free_energy number_of_links_i nondimensional_potential_distance_i nondimensional_potential_stiffness_i) number_of_links) nondimensional_potential_distance) nondimensional_potential_stiffness

/-- `src/physics/single_chain/fjc/thermodynamics/modified_canonical/mod.jl` lines 647-672. -/
def nondimensional_relative_helmholtz_free_energy_per_link (number_of_links : JArr Nat) (nondimensional_potential_distance : JArr α) (nondimensional_potential_stiffness : JArr α) : Option (JArr α) :=
  JArr.ap (JArr.ap (JArr.map (fun (number_of_links_i : Nat) (nondimensional_potential_distance_i : α) (nondimensional_potential_stiffness_i : α) => Polymers.C.physics_single_chain_fjc_thermodynamics_modified_canonical_nondimensional_relative_helmholtz_free_energy_per_link number_of_links_i nondimensional_potential_distance_i nondimensional_potential_stiffness_i) number_of_links) nondimensional_potential_distance) nondimensional_potential_stiffness

/-- `src/physics/single_chain/fjc/thermodynamics/modified_canonical/mod.jl` lines 680-717. -/
def gibbs_free_energy (number_of_links : JArr Nat) (link_length : JArr α) (hinge_mass : JArr α) (potential_distance : JArr α) (potential_stiffness : JArr α) (temperature : JArr α) : Option (JArr α) :=
  JArr.ap (JArr.ap (JArr.ap (JArr.ap (JArr.ap (JArr.map (fun (number_of_links_i : Nat) (link_length_i : α) (hinge_mass_i : α) (potential_distance_i : α) (potential_stiffness_i : α) (temperature_i : α) => Polymers.C.physics_single_chain_fjc_thermodynamics_modified_canonical_gibbs_free_energy number_of_links_i link_length_i hinge_mass_i potential_distance_i potential_stiffness_i temperature_i) number_of_links) link_length) hinge_mass) potential_distance) potential_stiffness) temperature

/-- `src/physics/single_chain/fjc/thermodynamics/modified_canonical/mod.jl` lines 725-762. -/
def gibbs_free_energy_per_link (number_of_links : JArr Nat) (link_length : JArr α) (hinge_mass : JArr α) (potential_distance : JArr α) (potential_stiffness : JArr α) (temperature : JArr α) : Option (JArr α) :=
  JArr.ap (JArr.ap (JArr.ap (JArr.ap (JArr.ap (JArr.map (fun (number_of_links_i : Nat) (link_length_i : α) (hinge_mass_i : α) (potential_distance_i : α) (potential_stiffness_i : α) (temperature_i : α) => Polymers.C.physics_single_chain_fjc_thermodynamics_modified_canonical_gibbs_free_energy_per_link number_of_links_i link_length_i hinge_mass_i potential_distance_i potential_stiffness_i temperature_i) number_of_links) link_length) hinge_mass) potential_distance) potential_stiffness) temperature

/-- `src/physics/single_chain/fjc/thermodynamics/modified_canonical/mod.jl` lines 770-803. -/
def relative_gibbs_free_energy (number_of_links : JArr Nat) (link_length : JArr α) (potential_distance : JArr α) (potential_stiffness : JArr α) (temperature : JArr α) : Option (JArr α) :=
  JArr.ap (JArr.ap (JArr.ap (JArr.ap (JArr.map (fun (number_of_links_i : Nat) (link_length_i : α) (potential_distance_i : α) (potential_stiffness_i : α) (temperature_i : α) => Polymers.C.physics_single_chain_fjc_thermodynamics_modified_canonical_relative_gibbs_free_energy number_of_links_i link_length_i potential_distance_i potential_stiffness_i temperature_i) number_of_links) link_length) potential_distance) potential_stiffness) temperature

/-- `src/physics/single_chain/fjc/thermodynamics/modified_canonical/mod.jl` lines 811-844. -/
def relative_gibbs_free_energy_per_link (number_of_links : JArr Nat) (link_length : JArr α) (potential_distance : JArr α) (potential_stiffness : JArr α) (temperature : JArr α) : Option (JArr α) :=
  JArr.ap (JArr.ap (JArr.ap (JArr.ap (JArr.map (fun (number_of_links_i : Nat) (link_length_i : α) (potential_distance_i : α) (potential_stiffness_i : α) (temperature_i : α) => Polymers.C.physics_single_chain_fjc_thermodynamics_modified_canonical_relative_gibbs_free_energy_per_link number_of_links_i link_length_i potential_distance_i potential_stiffness_i temperature_i) number_of_links) link_length) potential_distance) potential_stiffness) temperature

/-- `src/physics/single_chain/fjc/thermodynamics/modified_canonical/mod.jl` lines 852-889. -/
def nondimensional_gibbs_free_energy (number_of_links : JArr Nat) (link_length : JArr α) (hinge_mass : JArr α) (nondimensional_potential_distance : JArr α) (nondimensional_potential_stiffness : JArr α) (temperature : JArr α) : Option (JArr α) :=
  JArr.ap (JArr.ap (JArr.ap (JArr.ap (JArr.ap (JArr.map (fun (number_of_links_i : Nat) (link_length_i : α) (hinge_mass_i : α) (nondimensional_potential_distance_i : α) (nondimensional_potential_stiffness_i : α) (temperature_i : α) => Polymers.C.physics_single_chain_fjc_thermodynamics_modified_canonical_nondimensional_gibbs_free_energy number_of_links_i link_length_i hinge_mass_i nondimensional_potential_distance_i nondimensional_potential_stiffness_i temperature_i) number_of_links) link_length) hinge_mass) nondimensional_potential_distance) nondimensional_potential_stiffness) temperature

/-- `src/physics/single_chain/fjc/thermodynamics/modified_canonical/mod.jl` lines 897-934. -/
def nondimensional_gibbs_free_energy_per_link (number_of_links : JArr Nat) (link_length : JArr α) (hinge_mass : JArr α) (nondimensional_potential_distance : JArr α) (nondimensional_potential_stiffness : JArr α) (temperature : JArr α) : Option (JArr α) :=
  JArr.ap (JArr.ap (JArr.ap (JArr.ap (JArr.ap (JArr.map (fun (number_of_links_i : Nat) (link_length_i : α) (hinge_mass_i : α) (nondimensional_potential_distance_i : α) (nondimensional_potential_stiffness_i : α) (temperature_i : α) => Polymers.C.physics_single_chain_fjc_thermodynamics_modified_canonical_nondimensional_gibbs_free_energy_per_link number_of_links_i link_length_i hinge_mass_i nondimensional_potential_distance_i nondimensional_potential_stiffness_i temperature_i) number_of_links) link_length) hinge_mass) nondimensional_potential_distance) nondimensional_potential_stiffness) temperature

/-- `src/physics/single_chain/fjc/thermodynamics/modified_canonical/mod.jl` lines 942-967. -/
def nondimensional_relative_gibbs_free_energy (number_of_links : JArr Nat) (nondimensional_potential_distance : JArr α) (nondimensional_potential_stiffness : JArr α) : Option (JArr α) :=
  JArr.ap (JArr.ap (JArr.map (fun (number_of_links_i : Nat) (nondimensional_potential_distance_i : α) (nondimensional_potential_stiffness_i : α) => Polymers.C.physics_single_chain_fjc_thermodynamics_modified_canonical_nondimensional_relative_gibbs_free_energy number_of_links_i nondimensional_potential_distance_i nondimensional_potential_stiffness_i) number_of_links) nondimensional_potential_distance) nondimensional_potential_stiffness

/-- `src/physics/single_chain/fjc/thermodynamics/modified_canonical/mod.jl` lines 975-1000. -/
def nondimensional_relative_gibbs_free_energy_per_link (number_of_links : JArr Nat) (nondimensional_potential_distance : JArr α) (nondimensional_potential_stiffness : JArr α) : Option (JArr α) :=
  JArr.ap (JArr.ap (JArr.map (fun (number_of_links_i : Nat) (nondimensional_potential_distance_i : α) (nondimensional_potential_stiffness_i : α) => Polymers.C.physics_single_chain_fjc_thermodynamics_modified_canonical_nondimensional_relative_gibbs_free_energy_per_link number_of_links_i nondimensional_potential_distance_i nondimensional_potential_stiffness_i) number_of_links) nondimensional_potential_distance) nondimensional_potential_stiffness

/-- `src/physics/single_chain/fjc/thermodynamics/modified_canonical/mod.jl` lines 1007-1192. -/
def FJC.new (number_of_links : Nat) (link_length : α) (hinge_mass : α) : Polymers.Julia.Fjc.Thermodynamics.ModifiedCanonical.FJC α :=
  Polymers.Julia.Fjc.Thermodynamics.ModifiedCanonical.FJC.mk
    number_of_links
    link_length
    hinge_mass
    (Polymers.Julia.Fjc.Thermodynamics.ModifiedCanonical.Asymptotic.FJC.new number_of_links link_length hinge_mass)
    (fun (potential_distance : JArr α) (potential_stiffness : JArr α) (temperature : JArr α) => Polymers.Julia.Fjc.Thermodynamics.ModifiedCanonical.end_to_end_length (JArr.scalar number_of_links) (JArr.scalar link_length) potential_distance potential_stiffness temperature)
    (fun (potential_distance : JArr α) (potential_stiffness : JArr α) (temperature : JArr α) => Polymers.Julia.Fjc.Thermodynamics.ModifiedCanonical.end_to_end_length_per_link (JArr.scalar number_of_links) (JArr.scalar link_length) potential_distance potential_stiffness temperature)
    (fun (nondimensional_potential_distance : JArr α) (nondimensional_potential_stiffness : JArr α) => Polymers.Julia.Fjc.Thermodynamics.ModifiedCanonical.nondimensional_end_to_end_length (JArr.scalar number_of_links) nondimensional_potential_distance nondimensional_potential_stiffness)
    (fun (nondimensional_potential_distance : JArr α) (nondimensional_potential_stiffness : JArr α) => Polymers.Julia.Fjc.Thermodynamics.ModifiedCanonical.nondimensional_end_to_end_length_per_link (JArr.scalar number_of_links) nondimensional_potential_distance nondimensional_potential_stiffness)
    (fun (potential_distance : JArr α) (potential_stiffness : JArr α) (temperature : JArr α) => Polymers.Julia.Fjc.Thermodynamics.ModifiedCanonical.force (JArr.scalar number_of_links) (JArr.scalar link_length) potential_distance potential_stiffness temperature)
    (fun (nondimensional_potential_distance : JArr α) (nondimensional_potential_stiffness : JArr α) => Polymers.Julia.Fjc.Thermodynamics.ModifiedCanonical.nondimensional_force (JArr.scalar number_of_links) nondimensional_potential_distance nondimensional_potential_stiffness)
    (fun (potential_distance : JArr α) (potential_stiffness : JArr α) (temperature : JArr α) => Polymers.Julia.Fjc.Thermodynamics.ModifiedCanonical.helmholtz_free_energy (JArr.scalar number_of_links) (JArr.scalar link_length) (JArr.scalar hinge_mass) potential_distance potential_stiffness temperature)
    (fun (potential_distance : JArr α) (potential_stiffness : JArr α) (temperature : JArr α) => Polymers.Julia.Fjc.Thermodynamics.ModifiedCanonical.helmholtz_free_energy_per_link (JArr.scalar number_of_links) (JArr.scalar link_length) (JArr.scalar hinge_mass) potential_distance potential_stiffness temperature)
    (fun (potential_distance : JArr α) (potential_stiffness : JArr α) (temperature : JArr α) => Polymers.Julia.Fjc.Thermodynamics.ModifiedCanonical.relative_helmholtz_free_energy (JArr.scalar number_of_links) (JArr.scalar link_length) potential_distance potential_stiffness temperature)
    (fun (potential_distance : JArr α) (potential_stiffness : JArr α) (temperature : JArr α) => Polymers.Julia.Fjc.Thermodynamics.ModifiedCanonical.relative_helmholtz_free_energy_per_link (JArr.scalar number_of_links) (JArr.scalar link_length) potential_distance potential_stiffness temperature)
    (fun (nondimensional_potential_distance : JArr α) (nondimensional_potential_stiffness : JArr α) (temperature : JArr α) => Polymers.Julia.Fjc.Thermodynamics.ModifiedCanonical.nondimensional_helmholtz_free_energy (JArr.scalar number_of_links) (JArr.scalar link_length) (JArr.scalar hinge_mass) nondimensional_potential_distance nondimensional_potential_stiffness temperature)
    (fun (nondimensional_potential_distance : JArr α) (nondimensional_potential_stiffness : JArr α) (temperature : JArr α) => Polymers.Julia.Fjc.Thermodynamics.ModifiedCanonical.nondimensional_helmholtz_free_energy_per_link (JArr.scalar number_of_links) (JArr.scalar link_length) (JArr.scalar hinge_mass) nondimensional_potential_distance nondimensional_potential_stiffness temperature)
    (fun (nondimensional_potential_distance : JArr α) (nondimensional_potential_stiffness : JArr α) => Polymers.Julia.Fjc.Thermodynamics.ModifiedCanonical.nondimensional_relative_helmholtz_free_energy (JArr.scalar number_of_links) nondimensional_potential_distance nondimensional_potential_stiffness)
    (fun (nondimensional_potential_distance : JArr α) (nondimensional_potential_stiffness : JArr α) => Polymers.Julia.Fjc.Thermodynamics.ModifiedCanonical.nondimensional_relative_helmholtz_free_energy_per_link (JArr.scalar number_of_links) nondimensional_potential_distance nondimensional_potential_stiffness)
    (fun (potential_distance : JArr α) (potential_stiffness : JArr α) (temperature : JArr α) => Polymers.Julia.Fjc.Thermodynamics.ModifiedCanonical.gibbs_free_energy (JArr.scalar number_of_links) (JArr.scalar link_length) (JArr.scalar hinge_mass) potential_distance potential_stiffness temperature)
    (fun (potential_distance : JArr α) (potential_stiffness : JArr α) (temperature : JArr α) => Polymers.Julia.Fjc.Thermodynamics.ModifiedCanonical.gibbs_free_energy_per_link (JArr.scalar number_of_links) (JArr.scalar link_length) (JArr.scalar hinge_mass) potential_distance potential_stiffness temperature)
    (fun (potential_distance : JArr α) (potential_stiffness : JArr α) (temperature : JArr α) => Polymers.Julia.Fjc.Thermodynamics.ModifiedCanonical.relative_gibbs_free_energy (JArr.scalar number_of_links) (JArr.scalar link_length) potential_distance potential_stiffness temperature)
    (fun (potential_distance : JArr α) (potential_stiffness : JArr α) (temperature : JArr α) => Polymers.Julia.Fjc.Thermodynamics.ModifiedCanonical.relative_gibbs_free_energy_per_link (JArr.scalar number_of_links) (JArr.scalar link_length) potential_distance potential_stiffness temperature)
    (fun (nondimensional_potential_distance : JArr α) (nondimensional_potential_stiffness : JArr α) (temperature : JArr α) => Polymers.Julia.Fjc.Thermodynamics.ModifiedCanonical.nondimensional_gibbs_free_energy (JArr.scalar number_of_links) (JArr.scalar link_length) (JArr.scalar hinge_mass) nondimensional_potential_distance nondimensional_potential_stiffness temperature)
    (fun (nondimensional_potential_distance : JArr α) (nondimensional_potential_stiffness : JArr α) (temperature : JArr α) => Polymers.Julia.Fjc.Thermodynamics.ModifiedCanonical.nondimensional_gibbs_free_energy_per_link (JArr.scalar number_of_links) (JArr.scalar link_length) (JArr.scalar hinge_mass) nondimensional_potential_distance nondimensional_potential_stiffness temperature)
    (fun (nondimensional_potential_distance : JArr α) (nondimensional_potential_stiffness : JArr α) => Polymers.Julia.Fjc.Thermodynamics.ModifiedCanonical.nondimensional_relative_gibbs_free_energy (JArr.scalar number_of_links) nondimensional_potential_distance nondimensional_potential_stiffness)
    (fun (nondimensional_potential_distance : JArr α) (nondimensional_potential_stiffness : JArr α) => Polymers.Julia.Fjc.Thermodynamics.ModifiedCanonical.nondimensional_relative_gibbs_free_energy_per_link (JArr.scalar number_of_links) nondimensional_potential_distance nondimensional_potential_stiffness)

end Polymers.Julia.Fjc.Thermodynamics.ModifiedCanonical

namespace Polymers.Julia.Fjc.Thermodynamics

/-- `src/physics/single_chain/fjc/thermodynamics/mod.jl` lines 49-58. -/
def FJC.new (number_of_links : Nat) (link_length : α) (hinge_mass : α) : Polymers.Julia.Fjc.Thermodynamics.FJC α :=
  Polymers.Julia.Fjc.Thermodynamics.FJC.mk
    number_of_links
    link_length
    hinge_mass
    (Polymers.Julia.Fjc.Thermodynamics.Isometric.FJC.new number_of_links link_length hinge_mass)
    (Polymers.Julia.Fjc.Thermodynamics.Isotensional.FJC.new number_of_links link_length hinge_mass)
    (Polymers.Julia.Fjc.Thermodynamics.ModifiedCanonical.FJC.new number_of_links link_length hinge_mass)

end Polymers.Julia.Fjc.Thermodynamics

namespace Polymers.Julia.Fjc

/-- `src/physics/single_chain/fjc/mod.jl` lines 39-46. -/
def FJC.new (number_of_links : Nat) (link_length : α) (hinge_mass : α) : Polymers.Julia.Fjc.FJC α :=
  Polymers.Julia.Fjc.FJC.mk
    number_of_links
    link_length
    hinge_mass
    (Polymers.Julia.Fjc.Thermodynamics.FJC.new number_of_links link_length hinge_mass)

end Polymers.Julia.Fjc
