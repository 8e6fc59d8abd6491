/- Generated by tools/jl2lean.py from the mod.jl files of /repo/src/physics/single_chain/ufjc/lennard_jones ; do not edit by hand. -/
import Verif.Model.CLennardJones
import Verif.Model.JuliaBase

set_option linter.unusedVariables false

open Polymers Polymers.Julia

variable {α : Type} [Add α] [Sub α] [Mul α] [Div α] [Neg α] [OfScientific α] [NatCast α] [Elem α]

namespace Polymers.Julia.Ufjc.LennardJones.Thermodynamics.Isometric.Asymptotic.Reduced.Legendre

/-- `src/physics/single_chain/ufjc/lennard_jones/thermodynamics/isometric/asymptotic/reduced/legendre/mod.jl` lines 16-73: struct `LENNARDJONESFJC`. -/
structure LENNARDJONESFJC (α : Type) where
  /-- field `number_of_links::UInt8` -/
  number_of_links : Nat
  /-- field `link_length::Float64` -/
  link_length : α
  /-- field `hinge_mass::Float64` -/
  hinge_mass : α
  /-- field `link_stiffness::Float64` -/
  link_stiffness : α
  /-- field `force::Function` -/
  force : JArr α → JArr α → Option (JArr α)
  /-- field `nondimensional_force::Function` -/
  nondimensional_force : JArr α → JArr α → Option (JArr α)
  /-- field `helmholtz_free_energy::Function` -/
  helmholtz_free_energy : JArr α → JArr α → Option (JArr α)
  /-- field `helmholtz_free_energy_per_link::Function` -/
  helmholtz_free_energy_per_link : JArr α → JArr α → Option (JArr α)
  /-- field `relative_helmholtz_free_energy::Function` -/
  relative_helmholtz_free_energy : JArr α → JArr α → Option (JArr α)
  /-- field `relative_helmholtz_free_energy_per_link::Function` -/
  relative_helmholtz_free_energy_per_link : JArr α → JArr α → Option (JArr α)
  /-- field `nondimensional_helmholtz_free_energy::Function` -/
  nondimensional_helmholtz_free_energy : JArr α → JArr α → Option (JArr α)
  /-- field `nondimensional_helmholtz_free_energy_per_link::Function` -/
  nondimensional_helmholtz_free_energy_per_link : JArr α → JArr α → Option (JArr α)
  /-- field `nondimensional_relative_helmholtz_free_energy::Function` -/
  nondimensional_relative_helmholtz_free_energy : JArr α → JArr α → Option (JArr α)
  /-- field `nondimensional_relative_helmholtz_free_energy_per_link::Function` -/
  nondimensional_relative_helmholtz_free_energy_per_link : JArr α → JArr α → Option (JArr α)

end Polymers.Julia.Ufjc.LennardJones.Thermodynamics.Isometric.Asymptotic.Reduced.Legendre

namespace Polymers.Julia.Ufjc.LennardJones.Thermodynamics.Isometric.Asymptotic.Reduced

/-- `src/physics/single_chain/ufjc/lennard_jones/thermodynamics/isometric/asymptotic/reduced/mod.jl` lines 16-37: struct `LENNARDJONESFJC`. -/
structure LENNARDJONESFJC (α : Type) where
  /-- field `number_of_links::UInt8` -/
  number_of_links : Nat
  /-- field `link_length::Float64` -/
  link_length : α
  /-- field `hinge_mass::Float64` -/
  hinge_mass : α
  /-- field `link_stiffness::Float64` -/
  link_stiffness : α
  /-- field `legendre::Any` -/
  legendre : Polymers.Julia.Ufjc.LennardJones.Thermodynamics.Isometric.Asymptotic.Reduced.Legendre.LENNARDJONESFJC α

end Polymers.Julia.Ufjc.LennardJones.Thermodynamics.Isometric.Asymptotic.Reduced

namespace Polymers.Julia.Ufjc.LennardJones.Thermodynamics.Isometric.Asymptotic.Legendre

/-- `src/physics/single_chain/ufjc/lennard_jones/thermodynamics/isometric/asymptotic/legendre/mod.jl` lines 16-73: struct `LENNARDJONESFJC`. -/
structure LENNARDJONESFJC (α : Type) where
  /-- field `number_of_links::UInt8` -/
  number_of_links : Nat
  /-- field `link_length::Float64` -/
  link_length : α
  /-- field `hinge_mass::Float64` -/
  hinge_mass : α
  /-- field `link_stiffness::Float64` -/
  link_stiffness : α
  /-- field `force::Function` -/
  force : JArr α → JArr α → Option (JArr α)
  /-- field `nondimensional_force::Function` -/
  nondimensional_force : JArr α → JArr α → Option (JArr α)
  /-- field `helmholtz_free_energy::Function` -/
  helmholtz_free_energy : JArr α → JArr α → Option (JArr α)
  /-- field `helmholtz_free_energy_per_link::Function` -/
  helmholtz_free_energy_per_link : JArr α → JArr α → Option (JArr α)
  /-- field `relative_helmholtz_free_energy::Function` -/
  relative_helmholtz_free_energy : JArr α → JArr α → Option (JArr α)
  /-- field `relative_helmholtz_free_energy_per_link::Function` -/
  relative_helmholtz_free_energy_per_link : JArr α → JArr α → Option (JArr α)
  /-- field `nondimensional_helmholtz_free_energy::Function` -/
  nondimensional_helmholtz_free_energy : JArr α → JArr α → Option (JArr α)
  /-- field `nondimensional_helmholtz_free_energy_per_link::Function` -/
  nondimensional_helmholtz_free_energy_per_link : JArr α → JArr α → Option (JArr α)
  /-- field `nondimensional_relative_helmholtz_free_energy::Function` -/
  nondimensional_relative_helmholtz_free_energy : JArr α → JArr α → Option (JArr α)
  /-- field `nondimensional_relative_helmholtz_free_energy_per_link::Function` -/
  nondimensional_relative_helmholtz_free_energy_per_link : JArr α → JArr α → Option (JArr α)

end Polymers.Julia.Ufjc.LennardJones.Thermodynamics.Isometric.Asymptotic.Legendre

namespace Polymers.Julia.Ufjc.LennardJones.Thermodynamics.Isometric.Asymptotic

/-- `src/physics/single_chain/ufjc/lennard_jones/thermodynamics/isometric/asymptotic/mod.jl` lines 17-42: struct `LENNARDJONESFJC`. -/
structure LENNARDJONESFJC (α : Type) where
  /-- field `number_of_links::UInt8` -/
  number_of_links : Nat
  /-- field `link_length::Float64` -/
  link_length : α
  /-- field `hinge_mass::Float64` -/
  hinge_mass : α
  /-- field `link_stiffness::Float64` -/
  link_stiffness : α
  /-- field `reduced::Any` -/
  reduced : Polymers.Julia.Ufjc.LennardJones.Thermodynamics.Isometric.Asymptotic.Reduced.LENNARDJONESFJC α
  /-- field `legendre::Any` -/
  legendre : Polymers.Julia.Ufjc.LennardJones.Thermodynamics.Isometric.Asymptotic.Legendre.LENNARDJONESFJC α

end Polymers.Julia.Ufjc.LennardJones.Thermodynamics.Isometric.Asymptotic

namespace Polymers.Julia.Ufjc.LennardJones.Thermodynamics.Isometric

/-- `src/physics/single_chain/ufjc/lennard_jones/thermodynamics/isometric/mod.jl` lines 16-37: struct `LENNARDJONESFJC`. -/
structure LENNARDJONESFJC (α : Type) where
  /-- field `number_of_links::UInt8` -/
  number_of_links : Nat
  /-- field `link_length::Float64` -/
  link_length : α
  /-- field `hinge_mass::Float64` -/
  hinge_mass : α
  /-- field `link_stiffness::Float64` -/
  link_stiffness : α
  /-- field `asymptotic::Any` -/
  asymptotic : Polymers.Julia.Ufjc.LennardJones.Thermodynamics.Isometric.Asymptotic.LENNARDJONESFJC α

end Polymers.Julia.Ufjc.LennardJones.Thermodynamics.Isometric

namespace Polymers.Julia.Ufjc.LennardJones.Thermodynamics.Isotensional.Asymptotic.Reduced.Legendre

/-- `src/physics/single_chain/ufjc/lennard_jones/thermodynamics/isotensional/asymptotic/reduced/legendre/mod.jl` lines 16-65: struct `LENNARDJONESFJC`. -/
structure LENNARDJONESFJC (α : Type) where
  /-- field `number_of_links::UInt8` -/
  number_of_links : Nat
  /-- field `link_length::Float64` -/
  link_length : α
  /-- field `hinge_mass::Float64` -/
  hinge_mass : α
  /-- field `link_stiffness::Float64` -/
  link_stiffness : α
  /-- field `helmholtz_free_energy::Function` -/
  helmholtz_free_energy : JArr α → JArr α → Option (JArr α)
  /-- field `helmholtz_free_energy_per_link::Function` -/
  helmholtz_free_energy_per_link : JArr α → JArr α → Option (JArr α)
  /-- field `relative_helmholtz_free_energy::Function` -/
  relative_helmholtz_free_energy : JArr α → JArr α → Option (JArr α)
  /-- field `relative_helmholtz_free_energy_per_link::Function` -/
  relative_helmholtz_free_energy_per_link : JArr α → JArr α → Option (JArr α)
  /-- field `nondimensional_helmholtz_free_energy::Function` -/
  nondimensional_helmholtz_free_energy : JArr α → JArr α → Option (JArr α)
  /-- field `nondimensional_helmholtz_free_energy_per_link::Function` -/
  nondimensional_helmholtz_free_energy_per_link : JArr α → JArr α → Option (JArr α)
  /-- field `nondimensional_relative_helmholtz_free_energy::Function` -/
  nondimensional_relative_helmholtz_free_energy : JArr α → JArr α → Option (JArr α)
  /-- field `nondimensional_relative_helmholtz_free_energy_per_link::Function` -/
  nondimensional_relative_helmholtz_free_energy_per_link : JArr α → JArr α → Option (JArr α)

end Polymers.Julia.Ufjc.LennardJones.Thermodynamics.Isotensional.Asymptotic.Reduced.Legendre

namespace Polymers.Julia.Ufjc.LennardJones.Thermodynamics.Isotensional.Asymptotic.Reduced

/-- `src/physics/single_chain/ufjc/lennard_jones/thermodynamics/isotensional/asymptotic/reduced/mod.jl` lines 19-88: struct `LENNARDJONESFJC`. -/
structure LENNARDJONESFJC (α : Type) where
  /-- field `number_of_links::UInt8` -/
  number_of_links : Nat
  /-- field `link_length::Float64` -/
  link_length : α
  /-- field `hinge_mass::Float64` -/
  hinge_mass : α
  /-- field `link_stiffness::Float64` -/
  link_stiffness : α
  /-- field `legendre::Any` -/
  legendre : Polymers.Julia.Ufjc.LennardJones.Thermodynamics.Isotensional.Asymptotic.Reduced.Legendre.LENNARDJONESFJC α
  /-- field `end_to_end_length::Function` -/
  end_to_end_length : JArr α → JArr α → Option (JArr α)
  /-- field `end_to_end_length_per_link::Function` -/
  end_to_end_length_per_link : JArr α → JArr α → Option (JArr α)
  /-- field `nondimensional_end_to_end_length::Function` -/
  nondimensional_end_to_end_length : JArr α → JArr α → Option (JArr α)
  /-- field `nondimensional_end_to_end_length_per_link::Function` -/
  nondimensional_end_to_end_length_per_link : JArr α → JArr α → Option (JArr α)
  /-- field `gibbs_free_energy::Function` -/
  gibbs_free_energy : JArr α → JArr α → Option (JArr α)
  /-- field `gibbs_free_energy_per_link::Function` -/
  gibbs_free_energy_per_link : JArr α → JArr α → Option (JArr α)
  /-- field `relative_gibbs_free_energy::Function` -/
  relative_gibbs_free_energy : JArr α → JArr α → Option (JArr α)
  /-- field `relative_gibbs_free_energy_per_link::Function` -/
  relative_gibbs_free_energy_per_link : JArr α → JArr α → Option (JArr α)
  /-- field `nondimensional_gibbs_free_energy::Function` -/
  nondimensional_gibbs_free_energy : JArr α → JArr α → Option (JArr α)
  /-- field `nondimensional_gibbs_free_energy_per_link::Function` -/
  nondimensional_gibbs_free_energy_per_link : JArr α → JArr α → Option (JArr α)
  /-- field `nondimensional_relative_gibbs_free_energy::Function` -/
  nondimensional_relative_gibbs_free_energy : JArr α → JArr α → Option (JArr α)
  /-- field `nondimensional_relative_gibbs_free_energy_per_link::Function` -/
  nondimensional_relative_gibbs_free_energy_per_link : JArr α → JArr α → Option (JArr α)

end Polymers.Julia.Ufjc.LennardJones.Thermodynamics.Isotensional.Asymptotic.Reduced

namespace Polymers.Julia.Ufjc.LennardJones.Thermodynamics.Isotensional.Asymptotic.Legendre

/-- `src/physics/single_chain/ufjc/lennard_jones/thermodynamics/isotensional/asymptotic/legendre/mod.jl` lines 16-65: struct `LENNARDJONESFJC`. -/
structure LENNARDJONESFJC (α : Type) where
  /-- field `number_of_links::UInt8` -/
  number_of_links : Nat
  /-- field `link_length::Float64` -/
  link_length : α
  /-- field `hinge_mass::Float64` -/
  hinge_mass : α
  /-- field `link_stiffness::Float64` -/
  link_stiffness : α
  /-- field `helmholtz_free_energy::Function` -/
  helmholtz_free_energy : JArr α → JArr α → Option (JArr α)
  /-- field `helmholtz_free_energy_per_link::Function` -/
  helmholtz_free_energy_per_link : JArr α → JArr α → Option (JArr α)
  /-- field `relative_helmholtz_free_energy::Function` -/
  relative_helmholtz_free_energy : JArr α → JArr α → Option (JArr α)
  /-- field `relative_helmholtz_free_energy_per_link::Function` -/
  relative_helmholtz_free_energy_per_link : JArr α → JArr α → Option (JArr α)
  /-- field `nondimensional_helmholtz_free_energy::Function` -/
  nondimensional_helmholtz_free_energy : JArr α → JArr α → Option (JArr α)
  /-- field `nondimensional_helmholtz_free_energy_per_link::Function` -/
  nondimensional_helmholtz_free_energy_per_link : JArr α → JArr α → Option (JArr α)
  /-- field `nondimensional_relative_helmholtz_free_energy::Function` -/
  nondimensional_relative_helmholtz_free_energy : JArr α → JArr α → Option (JArr α)
  /-- field `nondimensional_relative_helmholtz_free_energy_per_link::Function` -/
  nondimensional_relative_helmholtz_free_energy_per_link : JArr α → JArr α → Option (JArr α)

end Polymers.Julia.Ufjc.LennardJones.Thermodynamics.Isotensional.Asymptotic.Legendre

namespace Polymers.Julia.Ufjc.LennardJones.Thermodynamics.Isotensional.Asymptotic

/-- `src/physics/single_chain/ufjc/lennard_jones/thermodynamics/isotensional/asymptotic/mod.jl` lines 20-93: struct `LENNARDJONESFJC`. -/
structure LENNARDJONESFJC (α : Type) where
  /-- field `number_of_links::UInt8` -/
  number_of_links : Nat
  /-- field `link_length::Float64` -/
  link_length : α
  /-- field `hinge_mass::Float64` -/
  hinge_mass : α
  /-- field `link_stiffness::Float64` -/
  link_stiffness : α
  /-- field `reduced::Any` -/
  reduced : Polymers.Julia.Ufjc.LennardJones.Thermodynamics.Isotensional.Asymptotic.Reduced.LENNARDJONESFJC α
  /-- field `legendre::Any` -/
  legendre : Polymers.Julia.Ufjc.LennardJones.Thermodynamics.Isotensional.Asymptotic.Legendre.LENNARDJONESFJC α
  /-- field `end_to_end_length::Function` -/
  end_to_end_length : JArr α → JArr α → Option (JArr α)
  /-- field `end_to_end_length_per_link::Function` -/
  end_to_end_length_per_link : JArr α → JArr α → Option (JArr α)
  /-- field `nondimensional_end_to_end_length::Function` -/
  nondimensional_end_to_end_length : JArr α → JArr α → Option (JArr α)
  /-- field `nondimensional_end_to_end_length_per_link::Function` -/
  nondimensional_end_to_end_length_per_link : JArr α → JArr α → Option (JArr α)
  /-- field `gibbs_free_energy::Function` -/
  gibbs_free_energy : JArr α → JArr α → Option (JArr α)
  /-- field `gibbs_free_energy_per_link::Function` -/
  gibbs_free_energy_per_link : JArr α → JArr α → Option (JArr α)
  /-- field `relative_gibbs_free_energy::Function` -/
  relative_gibbs_free_energy : JArr α → JArr α → Option (JArr α)
  /-- field `relative_gibbs_free_energy_per_link::Function` -/
  relative_gibbs_free_energy_per_link : JArr α → JArr α → Option (JArr α)
  /-- field `nondimensional_gibbs_free_energy::Function` -/
  nondimensional_gibbs_free_energy : JArr α → JArr α → Option (JArr α)
  /-- field `nondimensional_gibbs_free_energy_per_link::Function` -/
  nondimensional_gibbs_free_energy_per_link : JArr α → JArr α → Option (JArr α)
  /-- field `nondimensional_relative_gibbs_free_energy::Function` -/
  nondimensional_relative_gibbs_free_energy : JArr α → JArr α → Option (JArr α)
  /-- field `nondimensional_relative_gibbs_free_energy_per_link::Function` -/
  nondimensional_relative_gibbs_free_energy_per_link : JArr α → JArr α → Option (JArr α)

end Polymers.Julia.Ufjc.LennardJones.Thermodynamics.Isotensional.Asymptotic

namespace Polymers.Julia.Ufjc.LennardJones.Thermodynamics.Isotensional.Legendre

/-- `src/physics/single_chain/ufjc/lennard_jones/thermodynamics/isotensional/legendre/mod.jl` lines 17-66: struct `LENNARDJONESFJC`. -/
structure LENNARDJONESFJC (α : Type) where
  /-- field `number_of_links::UInt8` -/
  number_of_links : Nat
  /-- field `link_length::Float64` -/
  link_length : α
  /-- field `hinge_mass::Float64` -/
  hinge_mass : α
  /-- field `link_stiffness::Float64` -/
  link_stiffness : α
  /-- field `helmholtz_free_energy::Function` -/
  helmholtz_free_energy : JArr α → JArr α → Option (JArr α)
  /-- field `helmholtz_free_energy_per_link::Function` -/
  helmholtz_free_energy_per_link : JArr α → JArr α → Option (JArr α)
  /-- field `relative_helmholtz_free_energy::Function` -/
  relative_helmholtz_free_energy : JArr α → JArr α → Option (JArr α)
  /-- field `relative_helmholtz_free_energy_per_link::Function` -/
  relative_helmholtz_free_energy_per_link : JArr α → JArr α → Option (JArr α)
  /-- field `nondimensional_helmholtz_free_energy::Function` -/
  nondimensional_helmholtz_free_energy : JArr α → JArr α → Option (JArr α)
  /-- field `nondimensional_helmholtz_free_energy_per_link::Function` -/
  nondimensional_helmholtz_free_energy_per_link : JArr α → JArr α → Option (JArr α)
  /-- field `nondimensional_relative_helmholtz_free_energy::Function` -/
  nondimensional_relative_helmholtz_free_energy : JArr α → JArr α → Option (JArr α)
  /-- field `nondimensional_relative_helmholtz_free_energy_per_link::Function` -/
  nondimensional_relative_helmholtz_free_energy_per_link : JArr α → JArr α → Option (JArr α)

end Polymers.Julia.Ufjc.LennardJones.Thermodynamics.Isotensional.Legendre

namespace Polymers.Julia.Ufjc.LennardJones.Thermodynamics.Isotensional

/-- `src/physics/single_chain/ufjc/lennard_jones/thermodynamics/isotensional/mod.jl` lines 20-93: struct `LENNARDJONESFJC`. -/
structure LENNARDJONESFJC (α : Type) where
  /-- field `number_of_links::UInt8` -/
  number_of_links : Nat
  /-- field `link_length::Float64` -/
  link_length : α
  /-- field `hinge_mass::Float64` -/
  hinge_mass : α
  /-- field `link_stiffness::Float64` -/
  link_stiffness : α
  /-- field `asymptotic::Any` -/
  asymptotic : Polymers.Julia.Ufjc.LennardJones.Thermodynamics.Isotensional.Asymptotic.LENNARDJONESFJC α
  /-- field `legendre::Any` -/
  legendre : Polymers.Julia.Ufjc.LennardJones.Thermodynamics.Isotensional.Legendre.LENNARDJONESFJC α
  /-- field `end_to_end_length::Function` -/
  end_to_end_length : JArr α → JArr α → Option (JArr α)
  /-- field `end_to_end_length_per_link::Function` -/
  end_to_end_length_per_link : JArr α → JArr α → Option (JArr α)
  /-- field `nondimensional_end_to_end_length::Function` -/
  nondimensional_end_to_end_length : JArr α → JArr α → Option (JArr α)
  /-- field `nondimensional_end_to_end_length_per_link::Function` -/
  nondimensional_end_to_end_length_per_link : JArr α → JArr α → Option (JArr α)
  /-- field `gibbs_free_energy::Function` -/
  gibbs_free_energy : JArr α → JArr α → Option (JArr α)
  /-- field `gibbs_free_energy_per_link::Function` -/
  gibbs_free_energy_per_link : JArr α → JArr α → Option (JArr α)
  /-- field `relative_gibbs_free_energy::Function` -/
  relative_gibbs_free_energy : JArr α → JArr α → Option (JArr α)
  /-- field `relative_gibbs_free_energy_per_link::Function` -/
  relative_gibbs_free_energy_per_link : JArr α → JArr α → Option (JArr α)
  /-- field `nondimensional_gibbs_free_energy::Function` -/
  nondimensional_gibbs_free_energy : JArr α → JArr α → Option (JArr α)
  /-- field `nondimensional_gibbs_free_energy_per_link::Function` -/
  nondimensional_gibbs_free_energy_per_link : JArr α → JArr α → Option (JArr α)
  /-- field `nondimensional_relative_gibbs_free_energy::Function` -/
  nondimensional_relative_gibbs_free_energy : JArr α → JArr α → Option (JArr α)
  /-- field `nondimensional_relative_gibbs_free_energy_per_link::Function` -/
  nondimensional_relative_gibbs_free_energy_per_link : JArr α → JArr α → Option (JArr α)

end Polymers.Julia.Ufjc.LennardJones.Thermodynamics.Isotensional

namespace Polymers.Julia.Ufjc.LennardJones.Thermodynamics

/-- `src/physics/single_chain/ufjc/lennard_jones/thermodynamics/mod.jl` lines 16-41: struct `LENNARDJONESFJC`. -/
structure LENNARDJONESFJC (α : Type) where
  /-- field `number_of_links::UInt8` -/
  number_of_links : Nat
  /-- field `link_length::Float64` -/
  link_length : α
  /-- field `hinge_mass::Float64` -/
  hinge_mass : α
  /-- field `link_stiffness::Float64` -/
  link_stiffness : α
  /-- field `isometric::Any` -/
  isometric : Polymers.Julia.Ufjc.LennardJones.Thermodynamics.Isometric.LENNARDJONESFJC α
  /-- field `isotensional::Any` -/
  isotensional : Polymers.Julia.Ufjc.LennardJones.Thermodynamics.Isotensional.LENNARDJONESFJC α

end Polymers.Julia.Ufjc.LennardJones.Thermodynamics

namespace Polymers.Julia.Ufjc.LennardJones

/-- `src/physics/single_chain/ufjc/lennard_jones/mod.jl` lines 15-36: struct `LENNARDJONESFJC`. -/
structure LENNARDJONESFJC (α : Type) where
  /-- field `number_of_links::UInt8` -/
  number_of_links : Nat
  /-- field `link_length::Float64` -/
  link_length : α
  /-- field `hinge_mass::Float64` -/
  hinge_mass : α
  /-- field `link_stiffness::Float64` -/
  link_stiffness : α
  /-- field `thermodynamics::Any` -/
  thermodynamics : Polymers.Julia.Ufjc.LennardJones.Thermodynamics.LENNARDJONESFJC α

end Polymers.Julia.Ufjc.LennardJones

namespace Polymers.Julia.Ufjc.LennardJones.Thermodynamics.Isometric.Asymptotic.Reduced.Legendre

/-- `src/physics/single_chain/ufjc/lennard_jones/thermodynamics/isometric/asymptotic/reduced/legendre/mod.jl` lines 81-114. -/
def force (number_of_links : JArr Nat) (link_length : JArr α) (link_stiffness : JArr α) (end_to_end_length : JArr α) (temperature : JArr α) : Option (JArr α) :=
  JArr.ap (JArr.ap (JArr.ap (JArr.ap (JArr.map (fun (number_of_links_i : Nat) (link_length_i : α) (link_stiffness_i : α) (end_to_end_length_i : α) (temperature_i : α) => Polymers.C.physics_single_chain_ufjc_lennard_jones_thermodynamics_isometric_asymptotic_reduced_legendre_force number_of_links_i link_length_i link_stiffness_i end_to_end_length_i temperature_i) number_of_links) link_length) link_stiffness) end_to_end_length) temperature

/-- `src/physics/single_chain/ufjc/lennard_jones/thermodynamics/isometric/asymptotic/reduced/legendre/mod.jl` lines 122-141. -/
def nondimensional_force (nondimensional_link_stiffness : JArr α) (nondimensional_end_to_end_length_per_link : JArr α) : Option (JArr α) :=
  JArr.ap (JArr.map (fun (nondimensional_link_stiffness_i : α) (nondimensional_end_to_end_length_per_link_i : α) => Polymers.C.physics_single_chain_ufjc_lennard_jones_thermodynamics_isometric_asymptotic_reduced_legendre_nondimensional_force nondimensional_link_stiffness_i nondimensional_end_to_end_length_per_link_i) nondimensional_link_stiffness) nondimensional_end_to_end_length_per_link

/-- `src/physics/single_chain/ufjc/lennard_jones/thermodynamics/isometric/asymptotic/reduced/legendre/mod.jl` lines 155-192. -/
def helmholtz_free_energy (number_of_links : JArr Nat) (link_length : JArr α) (hinge_mass : JArr α) (link_stiffness : JArr α) (end_to_end_length : JArr α) (temperature : JArr α) : Option (JArr α) :=
  JArr.ap (JArr.ap (JArr.ap (JArr.ap (JArr.ap (JArr.map (fun (number_of_links_i : Nat) (link_length_i : α) (hinge_mass_i : α) (link_stiffness_i : α) (end_to_end_length_i : α) (temperature_i : α) => Polymers.C.physics_single_chain_ufjc_lennard_jones_thermodynamics_isometric_asymptotic_reduced_legendre_helmholtz_free_energy number_of_links_i link_length_i hinge_mass_i link_stiffness_i end_to_end_length_i temperature_i) number_of_links) link_length) hinge_mass) link_stiffness) end_to_end_length) temperature

/-- `src/physics/single_chain/ufjc/lennard_jones/thermodynamics/isometric/asymptotic/reduced/legendre/mod.jl` lines 200-237. -/
def helmholtz_free_energy_per_link (number_of_links : JArr Nat) (link_length : JArr α) (hinge_mass : JArr α) (link_stiffness : JArr α) (end_to_end_length : JArr α) (temperature : JArr α) : Option (JArr α) :=
  JArr.ap (JArr.ap (JArr.ap (JArr.ap (JArr.ap (JArr.map (fun (number_of_links_i : Nat) (link_length_i : α) (hinge_mass_i : α) (link_stiffness_i : α) (end_to_end_length_i : α) (temperature_i : α) => Polymers.C.physics_single_chain_ufjc_lennard_jones_thermodynamics_isometric_asymptotic_reduced_legendre_helmholtz_free_energy_per_link number_of_links_i link_length_i hinge_mass_i link_stiffness_i end_to_end_length_i temperature_i) number_of_links) link_length) hinge_mass) link_stiffness) end_to_end_length) temperature

/-- `src/physics/single_chain/ufjc/lennard_jones/thermodynamics/isometric/asymptotic/reduced/legendre/mod.jl` lines 245-278. -/
def relative_helmholtz_free_energy (number_of_links : JArr Nat) (link_length : JArr α) (link_stiffness : JArr α) (end_to_end_length : JArr α) (temperature : JArr α) : Option (JArr α) :=
  JArr.ap (JArr.ap (JArr.ap (JArr.ap (JArr.map (fun (number_of_links_i : Nat) (link_length_i : α) (link_stiffness_i : α) (end_to_end_length_i : α) (temperature_i : α) => Polymers.C.physics_single_chain_ufjc_lennard_jones_thermodynamics_isometric_asymptotic_reduced_legendre_relative_helmholtz_free_energy number_of_links_i link_length_i link_stiffness_i end_to_end_length_i temperature_i) number_of_links) link_length) link_stiffness) end_to_end_length) temperature

/-- `src/physics/single_chain/ufjc/lennard_jones/thermodynamics/isometric/asymptotic/reduced/legendre/mod.jl` lines 286-319. -/
def relative_helmholtz_free_energy_per_link (number_of_links : JArr Nat) (link_length : JArr α) (link_stiffness : JArr α) (end_to_end_length : JArr α) (temperature : JArr α) : Option (JArr α) :=
  JArr.ap (JArr.ap (JArr.ap (JArr.ap (JArr.map (fun (number_of_links_i : Nat) (link_length_i : α) (link_stiffness_i : α) (end_to_end_length_i : α) (temperature_i : α) => Polymers.C.physics_single_chain_ufjc_lennard_jones_thermodynamics_isometric_asymptotic_reduced_legendre_relative_helmholtz_free_energy_per_link number_of_links_i link_length_i link_stiffness_i end_to_end_length_i temperature_i) number_of_links) link_length) link_stiffness) end_to_end_length) temperature

/-- `src/physics/single_chain/ufjc/lennard_jones/thermodynamics/isometric/asymptotic/reduced/legendre/mod.jl` lines 327-364. -/
def nondimensional_helmholtz_free_energy (number_of_links : JArr Nat) (link_length : JArr α) (hinge_mass : JArr α) (nondimensional_link_stiffness : JArr α) (nondimensional_end_to_end_length_per_link : JArr α) (temperature : JArr α) : Option (JArr α) :=
  JArr.ap (JArr.ap (JArr.ap (JArr.ap (JArr.ap (JArr.map (fun (number_of_links_i : Nat) (link_length_i : α) (hinge_mass_i : α) (nondimensional_link_stiffness_i : α) (nondimensional_end_to_end_length_per_link_i : α) (temperature_i : α) => Polymers.C.physics_single_chain_ufjc_lennard_jones_thermodynamics_isometric_asymptotic_reduced_legendre_nondimensional_helmholtz_free_energy number_of_links_i link_length_i hinge_mass_i nondimensional_link_stiffness_i nondimensional_end_to_end_length_per_link_i temperature_i) number_of_links) link_length) hinge_mass) nondimensional_link_stiffness) nondimensional_end_to_end_length_per_link) temperature

/-- `src/physics/single_chain/ufjc/lennard_jones/thermodynamics/isometric/asymptotic/reduced/legendre/mod.jl` lines 372-409. -/
def nondimensional_helmholtz_free_energy_per_link (number_of_links : JArr Nat) (link_length : JArr α) (hinge_mass : JArr α) (nondimensional_link_stiffness : JArr α) (nondimensional_end_to_end_length_per_link : JArr α) (temperature : JArr α) : Option (JArr α) :=
  JArr.ap (JArr.ap (JArr.ap (JArr.ap (JArr.ap (JArr.map (fun (number_of_links_i : Nat) (link_length_i : α) (hinge_mass_i : α) (nondimensional_link_stiffness_i : α) (nondimensional_end_to_end_length_per_link_i : α) (temperature_i : α) => Polymers.C.physics_single_chain_ufjc_lennard_jones_thermodynamics_isometric_asymptotic_reduced_legendre_nondimensional_helmholtz_free_energy_per_link number_of_links_i link_length_i hinge_mass_i nondimensional_link_stiffness_i nondimensional_end_to_end_length_per_link_i temperature_i) number_of_links) link_length) hinge_mass) nondimensional_link_stiffness) nondimensional_end_to_end_length_per_link) temperature

/-- `src/physics/single_chain/ufjc/lennard_jones/thermodynamics/isometric/asymptotic/reduced/legendre/mod.jl` lines 417-442. -/
def nondimensional_relative_helmholtz_free_energy (number_of_links : JArr Nat) (nondimensional_link_stiffness : JArr α) (nondimensional_end_to_end_length_per_link : JArr α) : Option (JArr α) :=
  JArr.ap (JArr.ap (JArr.map (fun (number_of_links_i : Nat) (nondimensional_link_stiffness_i : α) (nondimensional_end_to_end_length_per_link_i : α) => Polymers.C.physics_single_chain_ufjc_lennard_jones_thermodynamics_isometric_asymptotic_reduced_legendre_nondimensional_relative_helmholtz_free_energy number_of_links_i nondimensional_link_stiffness_i nondimensional_end_to_end_length_per_link_i) number_of_links) nondimensional_link_stiffness) nondimensional_end_to_end_length_per_link

/-- `src/physics/single_chain/ufjc/lennard_jones/thermodynamics/isometric/asymptotic/reduced/legendre/mod.jl` lines 450-469. -/
def nondimensional_relative_helmholtz_free_energy_per_link (nondimensional_link_stiffness : JArr α) (nondimensional_end_to_end_length_per_link : JArr α) : Option (JArr α) :=
  JArr.ap (JArr.map (fun (nondimensional_link_stiffness_i : α) (nondimensional_end_to_end_length_per_link_i : α) => Polymers.C.physics_single_chain_ufjc_lennard_jones_thermodynamics_isometric_asymptotic_reduced_legendre_nondimensional_relative_helmholtz_free_energy_per_link nondimensional_link_stiffness_i nondimensional_end_to_end_length_per_link_i) nondimensional_link_stiffness) nondimensional_end_to_end_length_per_link

/-- `src/physics/single_chain/ufjc/lennard_jones/thermodynamics/isometric/asymptotic/reduced/legendre/mod.jl` lines 476-559. -/
def LENNARDJONESFJC.new (other : α → JArr α → Option (JArr α)) (number_of_links : Nat) (link_length : α) (hinge_mass : α) (link_stiffness : α) : Polymers.Julia.Ufjc.LennardJones.Thermodynamics.Isometric.Asymptotic.Reduced.Legendre.LENNARDJONESFJC α :=
  let BOLTZMANN_CONSTANT : α := 8.314462618
  Polymers.Julia.Ufjc.LennardJones.Thermodynamics.Isometric.Asymptotic.Reduced.Legendre.LENNARDJONESFJC.mk
    number_of_links
    link_length
    hinge_mass
    link_stiffness
    (fun (end_to_end_length : JArr α) (temperature : JArr α) => Polymers.Julia.Ufjc.LennardJones.Thermodynamics.Isometric.Asymptotic.Reduced.Legendre.force (JArr.scalar number_of_links) (JArr.scalar link_length) (JArr.scalar link_stiffness) end_to_end_length temperature)
    (fun (nondimensional_end_to_end_length_per_link : JArr α) (temperature : JArr α) => (JArr.quotient other (link_stiffness * Elem.powi link_length 2 / BOLTZMANN_CONSTANT) temperature).bind fun q0 => Polymers.Julia.Ufjc.LennardJones.Thermodynamics.Isometric.Asymptotic.Reduced.Legendre.nondimensional_force q0 nondimensional_end_to_end_length_per_link)
    (fun (end_to_end_length : JArr α) (temperature : JArr α) => Polymers.Julia.Ufjc.LennardJones.Thermodynamics.Isometric.Asymptotic.Reduced.Legendre.helmholtz_free_energy (JArr.scalar number_of_links) (JArr.scalar link_length) (JArr.scalar hinge_mass) (JArr.scalar link_stiffness) end_to_end_length temperature)
    (fun (end_to_end_length : JArr α) (temperature : JArr α) => Polymers.Julia.Ufjc.LennardJones.Thermodynamics.Isometric.Asymptotic.Reduced.Legendre.helmholtz_free_energy_per_link (JArr.scalar number_of_links) (JArr.scalar link_length) (JArr.scalar hinge_mass) (JArr.scalar link_stiffness) end_to_end_length temperature)
    (fun (end_to_end_length : JArr α) (temperature : JArr α) => Polymers.Julia.Ufjc.LennardJones.Thermodynamics.Isometric.Asymptotic.Reduced.Legendre.relative_helmholtz_free_energy (JArr.scalar number_of_links) (JArr.scalar link_length) (JArr.scalar link_stiffness) end_to_end_length temperature)
    (fun (end_to_end_length : JArr α) (temperature : JArr α) => Polymers.Julia.Ufjc.LennardJones.Thermodynamics.Isometric.Asymptotic.Reduced.Legendre.relative_helmholtz_free_energy_per_link (JArr.scalar number_of_links) (JArr.scalar link_length) (JArr.scalar link_stiffness) end_to_end_length temperature)
    (fun (nondimensional_end_to_end_length_per_link : JArr α) (temperature : JArr α) => (JArr.quotient other (link_stiffness * Elem.powi link_length 2 / BOLTZMANN_CONSTANT) temperature).bind fun q3 => Polymers.Julia.Ufjc.LennardJones.Thermodynamics.Isometric.Asymptotic.Reduced.Legendre.nondimensional_helmholtz_free_energy (JArr.scalar number_of_links) (JArr.scalar link_length) (JArr.scalar hinge_mass) q3 nondimensional_end_to_end_length_per_link temperature)
    (fun (nondimensional_end_to_end_length_per_link : JArr α) (temperature : JArr α) => (JArr.quotient other (link_stiffness * Elem.powi link_length 2 / BOLTZMANN_CONSTANT) temperature).bind fun q3 => Polymers.Julia.Ufjc.LennardJones.Thermodynamics.Isometric.Asymptotic.Reduced.Legendre.nondimensional_helmholtz_free_energy_per_link (JArr.scalar number_of_links) (JArr.scalar link_length) (JArr.scalar hinge_mass) q3 nondimensional_end_to_end_length_per_link temperature)
    (fun (nondimensional_end_to_end_length_per_link : JArr α) (temperature : JArr α) => (JArr.quotient other (link_stiffness * Elem.powi link_length 2 / BOLTZMANN_CONSTANT) temperature).bind fun q1 => Polymers.Julia.Ufjc.LennardJones.Thermodynamics.Isometric.Asymptotic.Reduced.Legendre.nondimensional_relative_helmholtz_free_energy (JArr.scalar number_of_links) q1 nondimensional_end_to_end_length_per_link)
    (fun (nondimensional_end_to_end_length_per_link : JArr α) (temperature : JArr α) => (JArr.quotient other (link_stiffness * Elem.powi link_length 2 / BOLTZMANN_CONSTANT) temperature).bind fun q0 => Polymers.Julia.Ufjc.LennardJones.Thermodynamics.Isometric.Asymptotic.Reduced.Legendre.nondimensional_relative_helmholtz_free_energy_per_link q0 nondimensional_end_to_end_length_per_link)

end Polymers.Julia.Ufjc.LennardJones.Thermodynamics.Isometric.Asymptotic.Reduced.Legendre

namespace Polymers.Julia.Ufjc.LennardJones.Thermodynamics.Isometric.Asymptotic.Reduced

/-- `src/physics/single_chain/ufjc/lennard_jones/thermodynamics/isometric/asymptotic/reduced/mod.jl` lines 44-57. -/
def LENNARDJONESFJC.new (other : α → JArr α → Option (JArr α)) (number_of_links : Nat) (link_length : α) (hinge_mass : α) (link_stiffness : α) : Polymers.Julia.Ufjc.LennardJones.Thermodynamics.Isometric.Asymptotic.Reduced.LENNARDJONESFJC α :=
  Polymers.Julia.Ufjc.LennardJones.Thermodynamics.Isometric.Asymptotic.Reduced.LENNARDJONESFJC.mk
    number_of_links
    link_length
    hinge_mass
    link_stiffness
    (Polymers.Julia.Ufjc.LennardJones.Thermodynamics.Isometric.Asymptotic.Reduced.Legendre.LENNARDJONESFJC.new other number_of_links link_length hinge_mass link_stiffness)

end Polymers.Julia.Ufjc.LennardJones.Thermodynamics.Isometric.Asymptotic.Reduced

namespace Polymers.Julia.Ufjc.LennardJones.Thermodynamics.Isometric.Asymptotic.Legendre

/-- `src/physics/single_chain/ufjc/lennard_jones/thermodynamics/isometric/asymptotic/legendre/mod.jl` lines 81-114. -/
def force (number_of_links : JArr Nat) (link_length : JArr α) (link_stiffness : JArr α) (end_to_end_length : JArr α) (temperature : JArr α) : Option (JArr α) :=
  JArr.ap (JArr.ap (JArr.ap (JArr.ap (JArr.map (fun (number_of_links_i : Nat) (link_length_i : α) (link_stiffness_i : α) (end_to_end_length_i : α) (temperature_i : α) => Polymers.C.physics_single_chain_ufjc_lennard_jones_thermodynamics_isometric_asymptotic_legendre_force number_of_links_i link_length_i link_stiffness_i end_to_end_length_i temperature_i) number_of_links) link_length) link_stiffness) end_to_end_length) temperature

/-- `src/physics/single_chain/ufjc/lennard_jones/thermodynamics/isometric/asymptotic/legendre/mod.jl` lines 122-141. -/
def nondimensional_force (nondimensional_link_stiffness : JArr α) (nondimensional_end_to_end_length_per_link : JArr α) : Option (JArr α) :=
  JArr.ap (JArr.map (fun (nondimensional_link_stiffness_i : α) (nondimensional_end_to_end_length_per_link_i : α) => Polymers.C.physics_single_chain_ufjc_lennard_jones_thermodynamics_isometric_asymptotic_legendre_nondimensional_force nondimensional_link_stiffness_i nondimensional_end_to_end_length_per_link_i) nondimensional_link_stiffness) nondimensional_end_to_end_length_per_link

/-- `src/physics/single_chain/ufjc/lennard_jones/thermodynamics/isometric/asymptotic/legendre/mod.jl` lines 155-192. -/
def helmholtz_free_energy (number_of_links : JArr Nat) (link_length : JArr α) (hinge_mass : JArr α) (link_stiffness : JArr α) (end_to_end_length : JArr α) (temperature : JArr α) : Option (JArr α) :=
  JArr.ap (JArr.ap (JArr.ap (JArr.ap (JArr.ap (JArr.map (fun (number_of_links_i : Nat) (link_length_i : α) (hinge_mass_i : α) (link_stiffness_i : α) (end_to_end_length_i : α) (temperature_i : α) => Polymers.C.physics_single_chain_ufjc_lennard_jones_thermodynamics_isometric_asymptotic_legendre_helmholtz_free_energy number_of_links_i link_length_i hinge_mass_i link_stiffness_i end_to_end_length_i temperature_i) number_of_links) link_length) hinge_mass) link_stiffness) end_to_end_length) temperature

/-- `src/physics/single_chain/ufjc/lennard_jones/thermodynamics/isometric/asymptotic/legendre/mod.jl` lines 200-237. -/
def helmholtz_free_energy_per_link (number_of_links : JArr Nat) (link_length : JArr α) (hinge_mass : JArr α) (link_stiffness : JArr α) (end_to_end_length : JArr α) (temperature : JArr α) : Option (JArr α) :=
  JArr.ap (JArr.ap (JArr.ap (JArr.ap (JArr.ap (JArr.map (fun (number_of_links_i : Nat) (link_length_i : α) (hinge_mass_i : α) (link_stiffness_i : α) (end_to_end_length_i : α) (temperature_i : α) => Polymers.C.physics_single_chain_ufjc_lennard_jones_thermodynamics_isometric_asymptotic_legendre_helmholtz_free_energy_per_link number_of_links_i link_length_i hinge_mass_i link_stiffness_i end_to_end_length_i temperature_i) number_of_links) link_length) hinge_mass) link_stiffness) end_to_end_length) temperature

/-- `src/physics/single_chain/ufjc/lennard_jones/thermodynamics/isometric/asymptotic/legendre/mod.jl` lines 245-278. -/
def relative_helmholtz_free_energy (number_of_links : JArr Nat) (link_length : JArr α) (link_stiffness : JArr α) (end_to_end_length : JArr α) (temperature : JArr α) : Option (JArr α) :=
  JArr.ap (JArr.ap (JArr.ap (JArr.ap (JArr.map (fun (number_of_links_i : Nat) (link_length_i : α) (link_stiffness_i : α) (end_to_end_length_i : α) (temperature_i : α) => Polymers.C.physics_single_chain_ufjc_lennard_jones_thermodynamics_isometric_asymptotic_legendre_relative_helmholtz_free_energy number_of_links_i link_length_i link_stiffness_i end_to_end_length_i temperature_i) number_of_links) link_length) link_stiffness) end_to_end_length) temperature

/-- `src/physics/single_chain/ufjc/lennard_jones/thermodynamics/isometric/asymptotic/legendre/mod.jl` lines 286-319. -/
def relative_helmholtz_free_energy_per_link (number_of_links : JArr Nat) (link_length : JArr α) (link_stiffness : JArr α) (end_to_end_length : JArr α) (temperature : JArr α) : Option (JArr α) :=
  JArr.ap (JArr.ap (JArr.ap (JArr.ap (JArr.map (fun (number_of_links_i : Nat) (link_length_i : α) (link_stiffness_i : α) (end_to_end_length_i : α) (temperature_i : α) => Polymers.C.physics_single_chain_ufjc_lennard_jones_thermodynamics_isometric_asymptotic_legendre_relative_helmholtz_free_energy_per_link number_of_links_i link_length_i link_stiffness_i end_to_end_length_i temperature_i) number_of_links) link_length) link_stiffness) end_to_end_length) temperature

/-- `src/physics/single_chain/ufjc/lennard_jones/thermodynamics/isometric/asymptotic/legendre/mod.jl` lines 327-364. -/
def nondimensional_helmholtz_free_energy (number_of_links : JArr Nat) (link_length : JArr α) (hinge_mass : JArr α) (nondimensional_link_stiffness : JArr α) (nondimensional_end_to_end_length_per_link : JArr α) (temperature : JArr α) : Option (JArr α) :=
  JArr.ap (JArr.ap (JArr.ap (JArr.ap (JArr.ap (JArr.map (fun (number_of_links_i : Nat) (link_length_i : α) (hinge_mass_i : α) (nondimensional_link_stiffness_i : α) (nondimensional_end_to_end_length_per_link_i : α) (temperature_i : α) => Polymers.C.physics_single_chain_ufjc_lennard_jones_thermodynamics_isometric_asymptotic_legendre_nondimensional_helmholtz_free_energy number_of_links_i link_length_i hinge_mass_i nondimensional_link_stiffness_i nondimensional_end_to_end_length_per_link_i temperature_i) number_of_links) link_length) hinge_mass) nondimensional_link_stiffness) nondimensional_end_to_end_length_per_link) temperature

/-- `src/physics/single_chain/ufjc/lennard_jones/thermodynamics/isometric/asymptotic/legendre/mod.jl` lines 372-409. -/
def nondimensional_helmholtz_free_energy_per_link (number_of_links : JArr Nat) (link_length : JArr α) (hinge_mass : JArr α) (nondimensional_link_stiffness : JArr α) (nondimensional_end_to_end_length_per_link : JArr α) (temperature : JArr α) : Option (JArr α) :=
  JArr.ap (JArr.ap (JArr.ap (JArr.ap (JArr.ap (JArr.map (fun (number_of_links_i : Nat) (link_length_i : α) (hinge_mass_i : α) (nondimensional_link_stiffness_i : α) (nondimensional_end_to_end_length_per_link_i : α) (temperature_i : α) => Polymers.C.physics_single_chain_ufjc_lennard_jones_thermodynamics_isometric_asymptotic_legendre_nondimensional_helmholtz_free_energy_per_link number_of_links_i link_length_i hinge_mass_i nondimensional_link_stiffness_i nondimensional_end_to_end_length_per_link_i temperature_i) number_of_links) link_length) hinge_mass) nondimensional_link_stiffness) nondimensional_end_to_end_length_per_link) temperature

/-- `src/physics/single_chain/ufjc/lennard_jones/thermodynamics/isometric/asymptotic/legendre/mod.jl` lines 417-442. -/
def nondimensional_relative_helmholtz_free_energy (number_of_links : JArr Nat) (nondimensional_link_stiffness : JArr α) (nondimensional_end_to_end_length_per_link : JArr α) : Option (JArr α) :=
  JArr.ap (JArr.ap (JArr.map (fun (number_of_links_i : Nat) (nondimensional_link_stiffness_i : α) (nondimensional_end_to_end_length_per_link_i : α) => Polymers.C.physics_single_chain_ufjc_lennard_jones_thermodynamics_isometric_asymptotic_legendre_nondimensional_relative_helmholtz_free_energy number_of_links_i nondimensional_link_stiffness_i nondimensional_end_to_end_length_per_link_i) number_of_links) nondimensional_link_stiffness) nondimensional_end_to_end_length_per_link

/-- `src/physics/single_chain/ufjc/lennard_jones/thermodynamics/isometric/asymptotic/legendre/mod.jl` lines 450-469. -/
def nondimensional_relative_helmholtz_free_energy_per_link (nondimensional_link_stiffness : JArr α) (nondimensional_end_to_end_length_per_link : JArr α) : Option (JArr α) :=
  JArr.ap (JArr.map (fun (nondimensional_link_stiffness_i : α) (nondimensional_end_to_end_length_per_link_i : α) => Polymers.C.physics_single_chain_ufjc_lennard_jones_thermodynamics_isometric_asymptotic_legendre_nondimensional_relative_helmholtz_free_energy_per_link nondimensional_link_stiffness_i nondimensional_end_to_end_length_per_link_i) nondimensional_link_stiffness) nondimensional_end_to_end_length_per_link

/-- `src/physics/single_chain/ufjc/lennard_jones/thermodynamics/isometric/asymptotic/legendre/mod.jl` lines 476-559. -/
def LENNARDJONESFJC.new (other : α → JArr α → Option (JArr α)) (number_of_links : Nat) (link_length : α) (hinge_mass : α) (link_stiffness : α) : Polymers.Julia.Ufjc.LennardJones.Thermodynamics.Isometric.Asymptotic.Legendre.LENNARDJONESFJC α :=
  let BOLTZMANN_CONSTANT : α := 8.314462618
  Polymers.Julia.Ufjc.LennardJones.Thermodynamics.Isometric.Asymptotic.Legendre.LENNARDJONESFJC.mk
    number_of_links
    link_length
    hinge_mass
    link_stiffness
    (fun (end_to_end_length : JArr α) (temperature : JArr α) => Polymers.Julia.Ufjc.LennardJones.Thermodynamics.Isometric.Asymptotic.Legendre.force (JArr.scalar number_of_links) (JArr.scalar link_length) (JArr.scalar link_stiffness) end_to_end_length temperature)
    (fun (nondimensional_end_to_end_length_per_link : JArr α) (temperature : JArr α) => (JArr.quotient other (link_stiffness * Elem.powi link_length 2 / BOLTZMANN_CONSTANT) temperature).bind fun q0 => Polymers.Julia.Ufjc.LennardJones.Thermodynamics.Isometric.Asymptotic.Legendre.nondimensional_force q0 nondimensional_end_to_end_length_per_link)
    (fun (end_to_end_length : JArr α) (temperature : JArr α) => Polymers.Julia.Ufjc.LennardJones.Thermodynamics.Isometric.Asymptotic.Legendre.helmholtz_free_energy (JArr.scalar number_of_links) (JArr.scalar link_length) (JArr.scalar hinge_mass) (JArr.scalar link_stiffness) end_to_end_length temperature)
    (fun (end_to_end_length : JArr α) (temperature : JArr α) => Polymers.Julia.Ufjc.LennardJones.Thermodynamics.Isometric.Asymptotic.Legendre.helmholtz_free_energy_per_link (JArr.scalar number_of_links) (JArr.scalar link_length) (JArr.scalar hinge_mass) (JArr.scalar link_stiffness) end_to_end_length temperature)
    (fun (end_to_end_length : JArr α) (temperature : JArr α) => Polymers.Julia.Ufjc.LennardJones.Thermodynamics.Isometric.Asymptotic.Legendre.relative_helmholtz_free_energy (JArr.scalar number_of_links) (JArr.scalar link_length) (JArr.scalar link_stiffness) end_to_end_length temperature)
    (fun (end_to_end_length : JArr α) (temperature : JArr α) => Polymers.Julia.Ufjc.LennardJones.Thermodynamics.Isometric.Asymptotic.Legendre.relative_helmholtz_free_energy_per_link (JArr.scalar number_of_links) (JArr.scalar link_length) (JArr.scalar link_stiffness) end_to_end_length temperature)
    (fun (nondimensional_end_to_end_length_per_link : JArr α) (temperature : JArr α) => (JArr.quotient other (link_stiffness * Elem.powi link_length 2 / BOLTZMANN_CONSTANT) temperature).bind fun q3 => Polymers.Julia.Ufjc.LennardJones.Thermodynamics.Isometric.Asymptotic.Legendre.nondimensional_helmholtz_free_energy (JArr.scalar number_of_links) (JArr.scalar link_length) (JArr.scalar hinge_mass) q3 nondimensional_end_to_end_length_per_link temperature)
    (fun (nondimensional_end_to_end_length_per_link : JArr α) (temperature : JArr α) => (JArr.quotient other (link_stiffness * Elem.powi link_length 2 / BOLTZMANN_CONSTANT) temperature).bind fun q3 => Polymers.Julia.Ufjc.LennardJones.Thermodynamics.Isometric.Asymptotic.Legendre.nondimensional_helmholtz_free_energy_per_link (JArr.scalar number_of_links) (JArr.scalar link_length) (JArr.scalar hinge_mass) q3 nondimensional_end_to_end_length_per_link temperature)
    (fun (nondimensional_end_to_end_length_per_link : JArr α) (temperature : JArr α) => (JArr.quotient other (link_stiffness * Elem.powi link_length 2 / BOLTZMANN_CONSTANT) temperature).bind fun q1 => Polymers.Julia.Ufjc.LennardJones.Thermodynamics.Isometric.Asymptotic.Legendre.nondimensional_relative_helmholtz_free_energy (JArr.scalar number_of_links) q1 nondimensional_end_to_end_length_per_link)
    (fun (nondimensional_end_to_end_length_per_link : JArr α) (temperature : JArr α) => (JArr.quotient other (link_stiffness * Elem.powi link_length 2 / BOLTZMANN_CONSTANT) temperature).bind fun q0 => Polymers.Julia.Ufjc.LennardJones.Thermodynamics.Isometric.Asymptotic.Legendre.nondimensional_relative_helmholtz_free_energy_per_link q0 nondimensional_end_to_end_length_per_link)

end Polymers.Julia.Ufjc.LennardJones.Thermodynamics.Isometric.Asymptotic.Legendre

namespace Polymers.Julia.Ufjc.LennardJones.Thermodynamics.Isometric.Asymptotic

/-- `src/physics/single_chain/ufjc/lennard_jones/thermodynamics/isometric/asymptotic/mod.jl` lines 49-63. -/
def LENNARDJONESFJC.new (other : α → JArr α → Option (JArr α)) (number_of_links : Nat) (link_length : α) (hinge_mass : α) (link_stiffness : α) : Polymers.Julia.Ufjc.LennardJones.Thermodynamics.Isometric.Asymptotic.LENNARDJONESFJC α :=
  Polymers.Julia.Ufjc.LennardJones.Thermodynamics.Isometric.Asymptotic.LENNARDJONESFJC.mk
    number_of_links
    link_length
    hinge_mass
    link_stiffness
    (Polymers.Julia.Ufjc.LennardJones.Thermodynamics.Isometric.Asymptotic.Reduced.LENNARDJONESFJC.new other number_of_links link_length hinge_mass link_stiffness)
    (Polymers.Julia.Ufjc.LennardJones.Thermodynamics.Isometric.Asymptotic.Legendre.LENNARDJONESFJC.new other number_of_links link_length hinge_mass link_stiffness)

end Polymers.Julia.Ufjc.LennardJones.Thermodynamics.Isometric.Asymptotic

namespace Polymers.Julia.Ufjc.LennardJones.Thermodynamics.Isometric

/-- `src/physics/single_chain/ufjc/lennard_jones/thermodynamics/isometric/mod.jl` lines 44-62. -/
def LENNARDJONESFJC.new (other : α → JArr α → Option (JArr α)) (number_of_links : Nat) (link_length : α) (hinge_mass : α) (link_stiffness : α) : Polymers.Julia.Ufjc.LennardJones.Thermodynamics.Isometric.LENNARDJONESFJC α :=
  Polymers.Julia.Ufjc.LennardJones.Thermodynamics.Isometric.LENNARDJONESFJC.mk
    number_of_links
    link_length
    hinge_mass
    link_stiffness
    (Polymers.Julia.Ufjc.LennardJones.Thermodynamics.Isometric.Asymptotic.LENNARDJONESFJC.new other number_of_links link_length hinge_mass link_stiffness)

end Polymers.Julia.Ufjc.LennardJones.Thermodynamics.Isometric

namespace Polymers.Julia.Ufjc.LennardJones.Thermodynamics.Isotensional.Asymptotic.Reduced.Legendre

/-- `src/physics/single_chain/ufjc/lennard_jones/thermodynamics/isotensional/asymptotic/reduced/legendre/mod.jl` lines 77-114. -/
def helmholtz_free_energy (number_of_links : JArr Nat) (link_length : JArr α) (hinge_mass : JArr α) (link_stiffness : JArr α) (force : JArr α) (temperature : JArr α) : Option (JArr α) :=
  JArr.ap (JArr.ap (JArr.ap (JArr.ap (JArr.ap (JArr.map (fun (number_of_links_i : Nat) (link_length_i : α) (hinge_mass_i : α) (link_stiffness_i : α) (force_i : α) (temperature_i : α) => Polymers.C.physics_single_chain_ufjc_lennard_jones_thermodynamics_isotensional_asymptotic_reduced_legendre_helmholtz_free_energy number_of_links_i link_length_i hinge_mass_i link_stiffness_i force_i temperature_i) number_of_links) link_length) hinge_mass) link_stiffness) force) temperature

/-- `src/physics/single_chain/ufjc/lennard_jones/thermodynamics/isotensional/asymptotic/reduced/legendre/mod.jl` lines 122-149. -/
def helmholtz_free_energy_per_link (link_length : JArr α) (hinge_mass : JArr α) (link_stiffness : JArr α) (force : JArr α) (temperature : JArr α) : Option (JArr α) :=
  JArr.ap (JArr.ap (JArr.ap (JArr.ap (JArr.map (fun (link_length_i : α) (hinge_mass_i : α) (link_stiffness_i : α) (force_i : α) (temperature_i : α) => Polymers.C.physics_single_chain_ufjc_lennard_jones_thermodynamics_isotensional_asymptotic_reduced_legendre_helmholtz_free_energy_per_link link_length_i hinge_mass_i link_stiffness_i force_i temperature_i) link_length) hinge_mass) link_stiffness) force) temperature

/-- `src/physics/single_chain/ufjc/lennard_jones/thermodynamics/isotensional/asymptotic/reduced/legendre/mod.jl` lines 157-185. -/
def relative_helmholtz_free_energy (number_of_links : JArr Nat) (link_length : JArr α) (link_stiffness : JArr α) (force : JArr α) (temperature : JArr α) : Option (JArr α) :=
  JArr.ap (JArr.ap (JArr.ap (JArr.ap (JArr.map (fun (number_of_links_i : Nat) (link_length_i : α) (link_stiffness_i : α) (force_i : α) (temperature_i : α) => Polymers.C.physics_single_chain_ufjc_lennard_jones_thermodynamics_isotensional_asymptotic_reduced_legendre_relative_helmholtz_free_energy number_of_links_i link_length_i link_stiffness_i force_i temperature_i) number_of_links) link_length) link_stiffness) force) temperature

/-- `src/physics/single_chain/ufjc/lennard_jones/thermodynamics/isotensional/asymptotic/reduced/legendre/mod.jl` lines 193-217. -/
def relative_helmholtz_free_energy_per_link (link_length : JArr α) (link_stiffness : JArr α) (force : JArr α) (temperature : JArr α) : Option (JArr α) :=
  JArr.ap (JArr.ap (JArr.ap (JArr.map (fun (link_length_i : α) (link_stiffness_i : α) (force_i : α) (temperature_i : α) => Polymers.C.physics_single_chain_ufjc_lennard_jones_thermodynamics_isotensional_asymptotic_reduced_legendre_relative_helmholtz_free_energy_per_link link_length_i link_stiffness_i force_i temperature_i) link_length) link_stiffness) force) temperature

/-- `src/physics/single_chain/ufjc/lennard_jones/thermodynamics/isotensional/asymptotic/reduced/legendre/mod.jl` lines 225-262. -/
def nondimensional_helmholtz_free_energy (number_of_links : JArr Nat) (link_length : JArr α) (hinge_mass : JArr α) (nondimensional_link_stiffness : JArr α) (nondimensional_force : JArr α) (temperature : JArr α) : Option (JArr α) :=
  JArr.ap (JArr.ap (JArr.ap (JArr.ap (JArr.ap (JArr.map (fun (number_of_links_i : Nat) (link_length_i : α) (hinge_mass_i : α) (nondimensional_link_stiffness_i : α) (nondimensional_force_i : α) (temperature_i : α) => Polymers.C.physics_single_chain_ufjc_lennard_jones_thermodynamics_isotensional_asymptotic_reduced_legendre_nondimensional_helmholtz_free_energy number_of_links_i link_length_i hinge_mass_i nondimensional_link_stiffness_i nondimensional_force_i temperature_i) number_of_links) link_length) hinge_mass) nondimensional_link_stiffness) nondimensional_force) temperature

/-- `src/physics/single_chain/ufjc/lennard_jones/thermodynamics/isotensional/asymptotic/reduced/legendre/mod.jl` lines 270-303. -/
def nondimensional_helmholtz_free_energy_per_link (link_length : JArr α) (hinge_mass : JArr α) (nondimensional_link_stiffness : JArr α) (nondimensional_force : JArr α) (temperature : JArr α) : Option (JArr α) :=
  JArr.ap (JArr.ap (JArr.ap (JArr.ap (JArr.map (fun (link_length_i : α) (hinge_mass_i : α) (link_stiffness_i : α) (nondimensional_force_i : α) (temperature_i : α) => Polymers.C.physics_single_chain_ufjc_lennard_jones_thermodynamics_isotensional_asymptotic_reduced_legendre_nondimensional_helmholtz_free_energy_per_link link_length_i hinge_mass_i link_stiffness_i nondimensional_force_i temperature_i) link_length) hinge_mass) nondimensional_link_stiffness) nondimensional_force) temperature

/-- `src/physics/single_chain/ufjc/lennard_jones/thermodynamics/isotensional/asymptotic/reduced/legendre/mod.jl` lines 311-333. -/
def nondimensional_relative_helmholtz_free_energy (number_of_links : JArr Nat) (nondimensional_link_stiffness : JArr α) (nondimensional_force : JArr α) : Option (JArr α) :=
  JArr.ap (JArr.ap (JArr.map (fun (number_of_links_i : Nat) (nondimensional_link_stiffness_i : α) (nondimensional_force_i : α) => Polymers.C.physics_single_chain_ufjc_lennard_jones_thermodynamics_isotensional_asymptotic_reduced_legendre_nondimensional_relative_helmholtz_free_energy number_of_links_i nondimensional_link_stiffness_i nondimensional_force_i) number_of_links) nondimensional_link_stiffness) nondimensional_force

/-- `src/physics/single_chain/ufjc/lennard_jones/thermodynamics/isotensional/asymptotic/reduced/legendre/mod.jl` lines 341-359. -/
def nondimensional_relative_helmholtz_free_energy_per_link (nondimensional_link_stiffness : JArr α) (nondimensional_force : JArr α) : Option (JArr α) :=
  JArr.ap (JArr.map (fun (nondimensional_link_stiffness_i : α) (nondimensional_force_i : α) => Polymers.C.physics_single_chain_ufjc_lennard_jones_thermodynamics_isotensional_asymptotic_reduced_legendre_nondimensional_relative_helmholtz_free_energy_per_link nondimensional_link_stiffness_i nondimensional_force_i) nondimensional_link_stiffness) nondimensional_force

/-- `src/physics/single_chain/ufjc/lennard_jones/thermodynamics/isotensional/asymptotic/reduced/legendre/mod.jl` lines 366-434. -/
def LENNARDJONESFJC.new (other : α → JArr α → Option (JArr α)) (number_of_links : Nat) (link_length : α) (hinge_mass : α) (link_stiffness : α) : Polymers.Julia.Ufjc.LennardJones.Thermodynamics.Isotensional.Asymptotic.Reduced.Legendre.LENNARDJONESFJC α :=
  let BOLTZMANN_CONSTANT : α := 8.314462618
  Polymers.Julia.Ufjc.LennardJones.Thermodynamics.Isotensional.Asymptotic.Reduced.Legendre.LENNARDJONESFJC.mk
    number_of_links
    link_length
    hinge_mass
    link_stiffness
    (fun (force : JArr α) (temperature : JArr α) => Polymers.Julia.Ufjc.LennardJones.Thermodynamics.Isotensional.Asymptotic.Reduced.Legendre.helmholtz_free_energy (JArr.scalar number_of_links) (JArr.scalar link_length) (JArr.scalar hinge_mass) (JArr.scalar link_stiffness) force temperature)
    (fun (force : JArr α) (temperature : JArr α) => Polymers.Julia.Ufjc.LennardJones.Thermodynamics.Isotensional.Asymptotic.Reduced.Legendre.helmholtz_free_energy_per_link (JArr.scalar link_length) (JArr.scalar hinge_mass) (JArr.scalar link_stiffness) force temperature)
    (fun (force : JArr α) (temperature : JArr α) => Polymers.Julia.Ufjc.LennardJones.Thermodynamics.Isotensional.Asymptotic.Reduced.Legendre.relative_helmholtz_free_energy (JArr.scalar number_of_links) (JArr.scalar link_length) (JArr.scalar link_stiffness) force temperature)
    (fun (force : JArr α) (temperature : JArr α) => Polymers.Julia.Ufjc.LennardJones.Thermodynamics.Isotensional.Asymptotic.Reduced.Legendre.relative_helmholtz_free_energy_per_link (JArr.scalar link_length) (JArr.scalar link_stiffness) force temperature)
    (fun (nondimensional_force : JArr α) (temperature : JArr α) => (JArr.quotient other (link_stiffness * Elem.powi link_length 2 / BOLTZMANN_CONSTANT) temperature).bind fun q3 => Polymers.Julia.Ufjc.LennardJones.Thermodynamics.Isotensional.Asymptotic.Reduced.Legendre.nondimensional_helmholtz_free_energy (JArr.scalar number_of_links) (JArr.scalar link_length) (JArr.scalar hinge_mass) q3 nondimensional_force temperature)
    (fun (nondimensional_force : JArr α) (temperature : JArr α) => (JArr.quotient other (link_stiffness * Elem.powi link_length 2 / BOLTZMANN_CONSTANT) temperature).bind fun q2 => Polymers.Julia.Ufjc.LennardJones.Thermodynamics.Isotensional.Asymptotic.Reduced.Legendre.nondimensional_helmholtz_free_energy_per_link (JArr.scalar link_length) (JArr.scalar hinge_mass) q2 nondimensional_force temperature)
    (fun (nondimensional_force : JArr α) (temperature : JArr α) => (JArr.quotient other (link_stiffness * Elem.powi link_length 2 / BOLTZMANN_CONSTANT) temperature).bind fun q1 => Polymers.Julia.Ufjc.LennardJones.Thermodynamics.Isotensional.Asymptotic.Reduced.Legendre.nondimensional_relative_helmholtz_free_energy (JArr.scalar number_of_links) q1 nondimensional_force)
    (fun (nondimensional_force : JArr α) (temperature : JArr α) => (JArr.quotient other (link_stiffness * Elem.powi link_length 2 / BOLTZMANN_CONSTANT) temperature).bind fun q0 => Polymers.Julia.Ufjc.LennardJones.Thermodynamics.Isotensional.Asymptotic.Reduced.Legendre.nondimensional_relative_helmholtz_free_energy_per_link q0 nondimensional_force)

end Polymers.Julia.Ufjc.LennardJones.Thermodynamics.Isotensional.Asymptotic.Reduced.Legendre

namespace Polymers.Julia.Ufjc.LennardJones.Thermodynamics.Isotensional.Asymptotic.Reduced

/-- `src/physics/single_chain/ufjc/lennard_jones/thermodynamics/isotensional/asymptotic/reduced/mod.jl` lines 100-128. -/
def end_to_end_length (number_of_links : JArr Nat) (link_length : JArr α) (link_stiffness : JArr α) (force : JArr α) (temperature : JArr α) : Option (JArr α) :=
  JArr.ap (JArr.ap (JArr.ap (JArr.ap (JArr.map (fun (number_of_links_i : Nat) (link_length_i : α) (link_stiffness_i : α) (force_i : α) (temperature_i : α) => Polymers.C.physics_single_chain_ufjc_lennard_jones_thermodynamics_isotensional_asymptotic_reduced_end_to_end_length number_of_links_i link_length_i link_stiffness_i force_i temperature_i) number_of_links) link_length) link_stiffness) force) temperature

/-- `src/physics/single_chain/ufjc/lennard_jones/thermodynamics/isotensional/asymptotic/reduced/mod.jl` lines 136-160. -/
def end_to_end_length_per_link (link_length : JArr α) (link_stiffness : JArr α) (force : JArr α) (temperature : JArr α) : Option (JArr α) :=
  JArr.ap (JArr.ap (JArr.ap (JArr.map (fun (link_length_i : α) (link_stiffness_i : α) (force_i : α) (temperature_i : α) => Polymers.C.physics_single_chain_ufjc_lennard_jones_thermodynamics_isotensional_asymptotic_reduced_end_to_end_length_per_link link_length_i link_stiffness_i force_i temperature_i) link_length) link_stiffness) force) temperature

/-- `src/physics/single_chain/ufjc/lennard_jones/thermodynamics/isotensional/asymptotic/reduced/mod.jl` lines 168-190. -/
def nondimensional_end_to_end_length (number_of_links : JArr Nat) (nondimensional_link_stiffness : JArr α) (nondimensional_force : JArr α) : Option (JArr α) :=
  JArr.ap (JArr.ap (JArr.map (fun (number_of_links_i : Nat) (nondimensional_link_stiffness_i : α) (nondimensional_force_i : α) => Polymers.C.physics_single_chain_ufjc_lennard_jones_thermodynamics_isotensional_asymptotic_reduced_nondimensional_end_to_end_length number_of_links_i nondimensional_link_stiffness_i nondimensional_force_i) number_of_links) nondimensional_link_stiffness) nondimensional_force

/-- `src/physics/single_chain/ufjc/lennard_jones/thermodynamics/isotensional/asymptotic/reduced/mod.jl` lines 209-227. -/
def nondimensional_end_to_end_length_per_link (nondimensional_link_stiffness : JArr α) (nondimensional_force : JArr α) : Option (JArr α) :=
  JArr.ap (JArr.map (fun (nondimensional_link_stiffness_i : α) (nondimensional_force_i : α) => Polymers.C.physics_single_chain_ufjc_lennard_jones_thermodynamics_isotensional_asymptotic_reduced_nondimensional_end_to_end_length_per_link nondimensional_link_stiffness_i nondimensional_force_i) nondimensional_link_stiffness) nondimensional_force

/-- `src/physics/single_chain/ufjc/lennard_jones/thermodynamics/isotensional/asymptotic/reduced/mod.jl` lines 239-276. -/
def gibbs_free_energy (number_of_links : JArr Nat) (link_length : JArr α) (hinge_mass : JArr α) (link_stiffness : JArr α) (force : JArr α) (temperature : JArr α) : Option (JArr α) :=
  JArr.ap (JArr.ap (JArr.ap (JArr.ap (JArr.ap (JArr.map (fun (number_of_links_i : Nat) (link_length_i : α) (hinge_mass_i : α) (link_stiffness_i : α) (force_i : α) (temperature_i : α) => Polymers.C.physics_single_chain_ufjc_lennard_jones_thermodynamics_isotensional_asymptotic_reduced_gibbs_free_energy number_of_links_i link_length_i hinge_mass_i link_stiffness_i force_i temperature_i) number_of_links) link_length) hinge_mass) link_stiffness) force) temperature

/-- `src/physics/single_chain/ufjc/lennard_jones/thermodynamics/isotensional/asymptotic/reduced/mod.jl` lines 284-311. -/
def gibbs_free_energy_per_link (link_length : JArr α) (hinge_mass : JArr α) (link_stiffness : JArr α) (force : JArr α) (temperature : JArr α) : Option (JArr α) :=
  JArr.ap (JArr.ap (JArr.ap (JArr.ap (JArr.map (fun (link_length_i : α) (hinge_mass_i : α) (link_stiffness_i : α) (force_i : α) (temperature_i : α) => Polymers.C.physics_single_chain_ufjc_lennard_jones_thermodynamics_isotensional_asymptotic_reduced_gibbs_free_energy_per_link link_length_i hinge_mass_i link_stiffness_i force_i temperature_i) link_length) hinge_mass) link_stiffness) force) temperature

/-- `src/physics/single_chain/ufjc/lennard_jones/thermodynamics/isotensional/asymptotic/reduced/mod.jl` lines 319-347. -/
def relative_gibbs_free_energy (number_of_links : JArr Nat) (link_length : JArr α) (link_stiffness : JArr α) (force : JArr α) (temperature : JArr α) : Option (JArr α) :=
  JArr.ap (JArr.ap (JArr.ap (JArr.ap (JArr.map (fun (number_of_links_i : Nat) (link_length_i : α) (link_stiffness_i : α) (force_i : α) (temperature_i : α) => Polymers.C.physics_single_chain_ufjc_lennard_jones_thermodynamics_isotensional_asymptotic_reduced_relative_gibbs_free_energy number_of_links_i link_length_i link_stiffness_i force_i temperature_i) number_of_links) link_length) link_stiffness) force) temperature

/-- `src/physics/single_chain/ufjc/lennard_jones/thermodynamics/isotensional/asymptotic/reduced/mod.jl` lines 355-379. -/
def relative_gibbs_free_energy_per_link (link_length : JArr α) (link_stiffness : JArr α) (force : JArr α) (temperature : JArr α) : Option (JArr α) :=
  JArr.ap (JArr.ap (JArr.ap (JArr.map (fun (link_length_i : α) (link_stiffness_i : α) (force_i : α) (temperature_i : α) => Polymers.C.physics_single_chain_ufjc_lennard_jones_thermodynamics_isotensional_asymptotic_reduced_relative_gibbs_free_energy_per_link link_length_i link_stiffness_i force_i temperature_i) link_length) link_stiffness) force) temperature

/-- `src/physics/single_chain/ufjc/lennard_jones/thermodynamics/isotensional/asymptotic/reduced/mod.jl` lines 387-424. -/
def nondimensional_gibbs_free_energy (number_of_links : JArr Nat) (link_length : JArr α) (hinge_mass : JArr α) (nondimensional_link_stiffness : JArr α) (nondimensional_force : JArr α) (temperature : JArr α) : Option (JArr α) :=
  JArr.ap (JArr.ap (JArr.ap (JArr.ap (JArr.ap (JArr.map (fun (number_of_links_i : Nat) (link_length_i : α) (hinge_mass_i : α) (nondimensional_link_stiffness_i : α) (nondimensional_force_i : α) (temperature_i : α) => Polymers.C.physics_single_chain_ufjc_lennard_jones_thermodynamics_isotensional_asymptotic_reduced_nondimensional_gibbs_free_energy number_of_links_i link_length_i hinge_mass_i nondimensional_link_stiffness_i nondimensional_force_i temperature_i) number_of_links) link_length) hinge_mass) nondimensional_link_stiffness) nondimensional_force) temperature

/-- `src/physics/single_chain/ufjc/lennard_jones/thermodynamics/isotensional/asymptotic/reduced/mod.jl` lines 432-465. -/
def nondimensional_gibbs_free_energy_per_link (link_length : JArr α) (hinge_mass : JArr α) (nondimensional_link_stiffness : JArr α) (nondimensional_force : JArr α) (temperature : JArr α) : Option (JArr α) :=
  JArr.ap (JArr.ap (JArr.ap (JArr.ap (JArr.map (fun (link_length_i : α) (hinge_mass_i : α) (nondimensional_link_stiffness_i : α) (nondimensional_force_i : α) (temperature_i : α) => Polymers.C.physics_single_chain_ufjc_lennard_jones_thermodynamics_isotensional_asymptotic_reduced_nondimensional_gibbs_free_energy_per_link link_length_i hinge_mass_i nondimensional_link_stiffness_i nondimensional_force_i temperature_i) link_length) hinge_mass) nondimensional_link_stiffness) nondimensional_force) temperature

/-- `src/physics/single_chain/ufjc/lennard_jones/thermodynamics/isotensional/asymptotic/reduced/mod.jl` lines 473-495. -/
def nondimensional_relative_gibbs_free_energy (number_of_links : JArr Nat) (nondimensional_link_stiffness : JArr α) (nondimensional_force : JArr α) : Option (JArr α) :=
  JArr.ap (JArr.ap (JArr.map (fun (number_of_links_i : Nat) (nondimensional_link_stiffness_i : α) (nondimensional_force_i : α) => Polymers.C.physics_single_chain_ufjc_lennard_jones_thermodynamics_isotensional_asymptotic_reduced_nondimensional_relative_gibbs_free_energy number_of_links_i nondimensional_link_stiffness_i nondimensional_force_i) number_of_links) nondimensional_link_stiffness) nondimensional_force

/-- `src/physics/single_chain/ufjc/lennard_jones/thermodynamics/isotensional/asymptotic/reduced/mod.jl` lines 516-534. -/
def nondimensional_relative_gibbs_free_energy_per_link (nondimensional_link_stiffness : JArr α) (nondimensional_force : JArr α) : Option (JArr α) :=
  JArr.ap (JArr.map (fun (nondimensional_link_stiffness_i : α) (nondimensional_force_i : α) => Polymers.C.physics_single_chain_ufjc_lennard_jones_thermodynamics_isotensional_asymptotic_reduced_nondimensional_relative_gibbs_free_energy_per_link nondimensional_link_stiffness_i nondimensional_force_i) nondimensional_link_stiffness) nondimensional_force

/-- `src/physics/single_chain/ufjc/lennard_jones/thermodynamics/isotensional/asymptotic/reduced/mod.jl` lines 541-626. -/
def LENNARDJONESFJC.new (other : α → JArr α → Option (JArr α)) (number_of_links : Nat) (link_length : α) (hinge_mass : α) (link_stiffness : α) : Polymers.Julia.Ufjc.LennardJones.Thermodynamics.Isotensional.Asymptotic.Reduced.LENNARDJONESFJC α :=
  let BOLTZMANN_CONSTANT : α := 8.314462618
  Polymers.Julia.Ufjc.LennardJones.Thermodynamics.Isotensional.Asymptotic.Reduced.LENNARDJONESFJC.mk
    number_of_links
    link_length
    hinge_mass
    link_stiffness
    (Polymers.Julia.Ufjc.LennardJones.Thermodynamics.Isotensional.Asymptotic.Reduced.Legendre.LENNARDJONESFJC.new other number_of_links link_length hinge_mass link_stiffness)
    (fun (force : JArr α) (temperature : JArr α) => Polymers.Julia.Ufjc.LennardJones.Thermodynamics.Isotensional.Asymptotic.Reduced.end_to_end_length (JArr.scalar number_of_links) (JArr.scalar link_length) (JArr.scalar link_stiffness) force temperature)
    (fun (force : JArr α) (temperature : JArr α) => Polymers.Julia.Ufjc.LennardJones.Thermodynamics.Isotensional.Asymptotic.Reduced.end_to_end_length_per_link (JArr.scalar link_length) (JArr.scalar link_stiffness) force temperature)
    (fun (nondimensional_force : JArr α) (temperature : JArr α) => (JArr.quotient other (link_stiffness * Elem.powi link_length 2 / BOLTZMANN_CONSTANT) temperature).bind fun q1 => Polymers.Julia.Ufjc.LennardJones.Thermodynamics.Isotensional.Asymptotic.Reduced.nondimensional_end_to_end_length (JArr.scalar number_of_links) q1 nondimensional_force)
    (fun (nondimensional_force : JArr α) (temperature : JArr α) => (JArr.quotient other (link_stiffness * Elem.powi link_length 2 / BOLTZMANN_CONSTANT) temperature).bind fun q0 => Polymers.Julia.Ufjc.LennardJones.Thermodynamics.Isotensional.Asymptotic.Reduced.nondimensional_end_to_end_length_per_link q0 nondimensional_force)
    (fun (force : JArr α) (temperature : JArr α) => Polymers.Julia.Ufjc.LennardJones.Thermodynamics.Isotensional.Asymptotic.Reduced.gibbs_free_energy (JArr.scalar number_of_links) (JArr.scalar link_length) (JArr.scalar hinge_mass) (JArr.scalar link_stiffness) force temperature)
    (fun (force : JArr α) (temperature : JArr α) => Polymers.Julia.Ufjc.LennardJones.Thermodynamics.Isotensional.Asymptotic.Reduced.gibbs_free_energy_per_link (JArr.scalar link_length) (JArr.scalar hinge_mass) (JArr.scalar link_stiffness) force temperature)
    (fun (force : JArr α) (temperature : JArr α) => Polymers.Julia.Ufjc.LennardJones.Thermodynamics.Isotensional.Asymptotic.Reduced.relative_gibbs_free_energy (JArr.scalar number_of_links) (JArr.scalar link_length) (JArr.scalar link_stiffness) force temperature)
    (fun (force : JArr α) (temperature : JArr α) => Polymers.Julia.Ufjc.LennardJones.Thermodynamics.Isotensional.Asymptotic.Reduced.relative_gibbs_free_energy_per_link (JArr.scalar link_length) (JArr.scalar link_stiffness) force temperature)
    (fun (nondimensional_force : JArr α) (temperature : JArr α) => (JArr.quotient other (link_stiffness * Elem.powi link_length 2 / BOLTZMANN_CONSTANT) temperature).bind fun q3 => Polymers.Julia.Ufjc.LennardJones.Thermodynamics.Isotensional.Asymptotic.Reduced.nondimensional_gibbs_free_energy (JArr.scalar number_of_links) (JArr.scalar link_length) (JArr.scalar hinge_mass) q3 nondimensional_force temperature)
    (fun (nondimensional_force : JArr α) (temperature : JArr α) => (JArr.quotient other (link_stiffness * Elem.powi link_length 2 / BOLTZMANN_CONSTANT) temperature).bind fun q2 => Polymers.Julia.Ufjc.LennardJones.Thermodynamics.Isotensional.Asymptotic.Reduced.nondimensional_gibbs_free_energy_per_link (JArr.scalar link_length) (JArr.scalar hinge_mass) q2 nondimensional_force temperature)
    (fun (nondimensional_force : JArr α) (temperature : JArr α) => (JArr.quotient other (link_stiffness * Elem.powi link_length 2 / BOLTZMANN_CONSTANT) temperature).bind fun q1 => Polymers.Julia.Ufjc.LennardJones.Thermodynamics.Isotensional.Asymptotic.Reduced.nondimensional_relative_gibbs_free_energy (JArr.scalar number_of_links) q1 nondimensional_force)
    (fun (nondimensional_force : JArr α) (temperature : JArr α) => (JArr.quotient other (link_stiffness * Elem.powi link_length 2 / BOLTZMANN_CONSTANT) temperature).bind fun q0 => Polymers.Julia.Ufjc.LennardJones.Thermodynamics.Isotensional.Asymptotic.Reduced.nondimensional_relative_gibbs_free_energy_per_link q0 nondimensional_force)

end Polymers.Julia.Ufjc.LennardJones.Thermodynamics.Isotensional.Asymptotic.Reduced

namespace Polymers.Julia.Ufjc.LennardJones.Thermodynamics.Isotensional.Asymptotic.Legendre

/-- `src/physics/single_chain/ufjc/lennard_jones/thermodynamics/isotensional/asymptotic/legendre/mod.jl` lines 77-114. -/
def helmholtz_free_energy (number_of_links : JArr Nat) (link_length : JArr α) (hinge_mass : JArr α) (link_stiffness : JArr α) (force : JArr α) (temperature : JArr α) : Option (JArr α) :=
  JArr.ap (JArr.ap (JArr.ap (JArr.ap (JArr.ap (JArr.map (fun (number_of_links_i : Nat) (link_length_i : α) (hinge_mass_i : α) (link_stiffness_i : α) (force_i : α) (temperature_i : α) => Polymers.C.physics_single_chain_ufjc_lennard_jones_thermodynamics_isotensional_asymptotic_legendre_helmholtz_free_energy number_of_links_i link_length_i hinge_mass_i link_stiffness_i force_i temperature_i) number_of_links) link_length) hinge_mass) link_stiffness) force) temperature

/-- `src/physics/single_chain/ufjc/lennard_jones/thermodynamics/isotensional/asymptotic/legendre/mod.jl` lines 122-149. -/
def helmholtz_free_energy_per_link (link_length : JArr α) (hinge_mass : JArr α) (link_stiffness : JArr α) (force : JArr α) (temperature : JArr α) : Option (JArr α) :=
  JArr.ap (JArr.ap (JArr.ap (JArr.ap (JArr.map (fun (link_length_i : α) (hinge_mass_i : α) (link_stiffness_i : α) (force_i : α) (temperature_i : α) => Polymers.C.physics_single_chain_ufjc_lennard_jones_thermodynamics_isotensional_asymptotic_legendre_helmholtz_free_energy_per_link link_length_i hinge_mass_i link_stiffness_i force_i temperature_i) link_length) hinge_mass) link_stiffness) force) temperature

/-- `src/physics/single_chain/ufjc/lennard_jones/thermodynamics/isotensional/asymptotic/legendre/mod.jl` lines 157-185. -/
def relative_helmholtz_free_energy (number_of_links : JArr Nat) (link_length : JArr α) (link_stiffness : JArr α) (force : JArr α) (temperature : JArr α) : Option (JArr α) :=
  JArr.ap (JArr.ap (JArr.ap (JArr.ap (JArr.map (fun (number_of_links_i : Nat) (link_length_i : α) (link_stiffness_i : α) (force_i : α) (temperature_i : α) => Polymers.C.physics_single_chain_ufjc_lennard_jones_thermodynamics_isotensional_asymptotic_legendre_relative_helmholtz_free_energy number_of_links_i link_length_i link_stiffness_i force_i temperature_i) number_of_links) link_length) link_stiffness) force) temperature

/-- `src/physics/single_chain/ufjc/lennard_jones/thermodynamics/isotensional/asymptotic/legendre/mod.jl` lines 193-217. -/
def relative_helmholtz_free_energy_per_link (link_length : JArr α) (link_stiffness : JArr α) (force : JArr α) (temperature : JArr α) : Option (JArr α) :=
  JArr.ap (JArr.ap (JArr.ap (JArr.map (fun (link_length_i : α) (link_stiffness_i : α) (force_i : α) (temperature_i : α) => Polymers.C.physics_single_chain_ufjc_lennard_jones_thermodynamics_isotensional_asymptotic_legendre_relative_helmholtz_free_energy_per_link link_length_i link_stiffness_i force_i temperature_i) link_length) link_stiffness) force) temperature

/-- `src/physics/single_chain/ufjc/lennard_jones/thermodynamics/isotensional/asymptotic/legendre/mod.jl` lines 225-262. -/
def nondimensional_helmholtz_free_energy (number_of_links : JArr Nat) (link_length : JArr α) (hinge_mass : JArr α) (nondimensional_link_stiffness : JArr α) (nondimensional_force : JArr α) (temperature : JArr α) : Option (JArr α) :=
  JArr.ap (JArr.ap (JArr.ap (JArr.ap (JArr.ap (JArr.map (fun (number_of_links_i : Nat) (link_length_i : α) (hinge_mass_i : α) (nondimensional_link_stiffness_i : α) (nondimensional_force_i : α) (temperature_i : α) => Polymers.C.physics_single_chain_ufjc_lennard_jones_thermodynamics_isotensional_asymptotic_legendre_nondimensional_helmholtz_free_energy number_of_links_i link_length_i hinge_mass_i nondimensional_link_stiffness_i nondimensional_force_i temperature_i) number_of_links) link_length) hinge_mass) nondimensional_link_stiffness) nondimensional_force) temperature

/-- `src/physics/single_chain/ufjc/lennard_jones/thermodynamics/isotensional/asymptotic/legendre/mod.jl` lines 270-303. -/
def nondimensional_helmholtz_free_energy_per_link (link_length : JArr α) (hinge_mass : JArr α) (nondimensional_link_stiffness : JArr α) (nondimensional_force : JArr α) (temperature : JArr α) : Option (JArr α) :=
  JArr.ap (JArr.ap (JArr.ap (JArr.ap (JArr.map (fun (link_length_i : α) (hinge_mass_i : α) (link_stiffness_i : α) (nondimensional_force_i : α) (temperature_i : α) => Polymers.C.physics_single_chain_ufjc_lennard_jones_thermodynamics_isotensional_asymptotic_legendre_nondimensional_helmholtz_free_energy_per_link link_length_i hinge_mass_i link_stiffness_i nondimensional_force_i temperature_i) link_length) hinge_mass) nondimensional_link_stiffness) nondimensional_force) temperature

/-- `src/physics/single_chain/ufjc/lennard_jones/thermodynamics/isotensional/asymptotic/legendre/mod.jl` lines 311-333. -/
def nondimensional_relative_helmholtz_free_energy (number_of_links : JArr Nat) (nondimensional_link_stiffness : JArr α) (nondimensional_force : JArr α) : Option (JArr α) :=
  JArr.ap (JArr.ap (JArr.map (fun (number_of_links_i : Nat) (nondimensional_link_stiffness_i : α) (nondimensional_force_i : α) => Polymers.C.physics_single_chain_ufjc_lennard_jones_thermodynamics_isotensional_asymptotic_legendre_nondimensional_relative_helmholtz_free_energy number_of_links_i nondimensional_link_stiffness_i nondimensional_force_i) number_of_links) nondimensional_link_stiffness) nondimensional_force

/-- `src/physics/single_chain/ufjc/lennard_jones/thermodynamics/isotensional/asymptotic/legendre/mod.jl` lines 341-359. -/
def nondimensional_relative_helmholtz_free_energy_per_link (nondimensional_link_stiffness : JArr α) (nondimensional_force : JArr α) : Option (JArr α) :=
  JArr.ap (JArr.map (fun (nondimensional_link_stiffness_i : α) (nondimensional_force_i : α) => Polymers.C.physics_single_chain_ufjc_lennard_jones_thermodynamics_isotensional_asymptotic_legendre_nondimensional_relative_helmholtz_free_energy_per_link nondimensional_link_stiffness_i nondimensional_force_i) nondimensional_link_stiffness) nondimensional_force

/-- `src/physics/single_chain/ufjc/lennard_jones/thermodynamics/isotensional/asymptotic/legendre/mod.jl` lines 366-434. -/
def LENNARDJONESFJC.new (other : α → JArr α → Option (JArr α)) (number_of_links : Nat) (link_length : α) (hinge_mass : α) (link_stiffness : α) : Polymers.Julia.Ufjc.LennardJones.Thermodynamics.Isotensional.Asymptotic.Legendre.LENNARDJONESFJC α :=
  let BOLTZMANN_CONSTANT : α := 8.314462618
  Polymers.Julia.Ufjc.LennardJones.Thermodynamics.Isotensional.Asymptotic.Legendre.LENNARDJONESFJC.mk
    number_of_links
    link_length
    hinge_mass
    link_stiffness
    (fun (force : JArr α) (temperature : JArr α) => Polymers.Julia.Ufjc.LennardJones.Thermodynamics.Isotensional.Asymptotic.Legendre.helmholtz_free_energy (JArr.scalar number_of_links) (JArr.scalar link_length) (JArr.scalar hinge_mass) (JArr.scalar link_stiffness) force temperature)
    (fun (force : JArr α) (temperature : JArr α) => Polymers.Julia.Ufjc.LennardJones.Thermodynamics.Isotensional.Asymptotic.Legendre.helmholtz_free_energy_per_link (JArr.scalar link_length) (JArr.scalar hinge_mass) (JArr.scalar link_stiffness) force temperature)
    (fun (force : JArr α) (temperature : JArr α) => Polymers.Julia.Ufjc.LennardJones.Thermodynamics.Isotensional.Asymptotic.Legendre.relative_helmholtz_free_energy (JArr.scalar number_of_links) (JArr.scalar link_length) (JArr.scalar link_stiffness) force temperature)
    (fun (force : JArr α) (temperature : JArr α) => Polymers.Julia.Ufjc.LennardJones.Thermodynamics.Isotensional.Asymptotic.Legendre.relative_helmholtz_free_energy_per_link (JArr.scalar link_length) (JArr.scalar link_stiffness) force temperature)
    (fun (nondimensional_force : JArr α) (temperature : JArr α) => (JArr.quotient other (link_stiffness * Elem.powi link_length 2 / BOLTZMANN_CONSTANT) temperature).bind fun q3 => Polymers.Julia.Ufjc.LennardJones.Thermodynamics.Isotensional.Asymptotic.Legendre.nondimensional_helmholtz_free_energy (JArr.scalar number_of_links) (JArr.scalar link_length) (JArr.scalar hinge_mass) q3 nondimensional_force temperature)
    (fun (nondimensional_force : JArr α) (temperature : JArr α) => (JArr.quotient other (link_stiffness * Elem.powi link_length 2 / BOLTZMANN_CONSTANT) temperature).bind fun q2 => Polymers.Julia.Ufjc.LennardJones.Thermodynamics.Isotensional.Asymptotic.Legendre.nondimensional_helmholtz_free_energy_per_link (JArr.scalar link_length) (JArr.scalar hinge_mass) q2 nondimensional_force temperature)
    (fun (nondimensional_force : JArr α) (temperature : JArr α) => (JArr.quotient other (link_stiffness * Elem.powi link_length 2 / BOLTZMANN_CONSTANT) temperature).bind fun q1 => Polymers.Julia.Ufjc.LennardJones.Thermodynamics.Isotensional.Asymptotic.Legendre.nondimensional_relative_helmholtz_free_energy (JArr.scalar number_of_links) q1 nondimensional_force)
    (fun (nondimensional_force : JArr α) (temperature : JArr α) => (JArr.quotient other (link_stiffness * Elem.powi link_length 2 / BOLTZMANN_CONSTANT) temperature).bind fun q0 => Polymers.Julia.Ufjc.LennardJones.Thermodynamics.Isotensional.Asymptotic.Legendre.nondimensional_relative_helmholtz_free_energy_per_link q0 nondimensional_force)

end Polymers.Julia.Ufjc.LennardJones.Thermodynamics.Isotensional.Asymptotic.Legendre

namespace Polymers.Julia.Ufjc.LennardJones.Thermodynamics.Isotensional.Asymptotic

/-- `src/physics/single_chain/ufjc/lennard_jones/thermodynamics/isotensional/asymptotic/mod.jl` lines 105-133. -/
def end_to_end_length (number_of_links : JArr Nat) (link_length : JArr α) (link_stiffness : JArr α) (force : JArr α) (temperature : JArr α) : Option (JArr α) :=
  JArr.ap (JArr.ap (JArr.ap (JArr.ap (JArr.map (fun (number_of_links_i : Nat) (link_length_i : α) (link_stiffness_i : α) (force_i : α) (temperature_i : α) => Polymers.C.physics_single_chain_ufjc_lennard_jones_thermodynamics_isotensional_asymptotic_end_to_end_length number_of_links_i link_length_i link_stiffness_i force_i temperature_i) number_of_links) link_length) link_stiffness) force) temperature

/-- `src/physics/single_chain/ufjc/lennard_jones/thermodynamics/isotensional/asymptotic/mod.jl` lines 141-165. -/
def end_to_end_length_per_link (link_length : JArr α) (link_stiffness : JArr α) (force : JArr α) (temperature : JArr α) : Option (JArr α) :=
  JArr.ap (JArr.ap (JArr.ap (JArr.map (fun (link_length_i : α) (link_stiffness_i : α) (force_i : α) (temperature_i : α) => Polymers.C.physics_single_chain_ufjc_lennard_jones_thermodynamics_isotensional_asymptotic_end_to_end_length_per_link link_length_i link_stiffness_i force_i temperature_i) link_length) link_stiffness) force) temperature

/-- `src/physics/single_chain/ufjc/lennard_jones/thermodynamics/isotensional/asymptotic/mod.jl` lines 173-195. -/
def nondimensional_end_to_end_length (number_of_links : JArr Nat) (nondimensional_link_stiffness : JArr α) (nondimensional_force : JArr α) : Option (JArr α) :=
  JArr.ap (JArr.ap (JArr.map (fun (number_of_links_i : Nat) (nondimensional_link_stiffness_i : α) (nondimensional_force_i : α) => Polymers.C.physics_single_chain_ufjc_lennard_jones_thermodynamics_isotensional_asymptotic_nondimensional_end_to_end_length number_of_links_i nondimensional_link_stiffness_i nondimensional_force_i) number_of_links) nondimensional_link_stiffness) nondimensional_force

/-- `src/physics/single_chain/ufjc/lennard_jones/thermodynamics/isotensional/asymptotic/mod.jl` lines 214-232. -/
def nondimensional_end_to_end_length_per_link (nondimensional_link_stiffness_i : JArr α) (nondimensional_force : JArr α) : Option (JArr α) :=
  JArr.ap (JArr.map (fun (nondimensional_link_stiffness_i : α) (nondimensional_force_i : α) => Polymers.C.physics_single_chain_ufjc_lennard_jones_thermodynamics_isotensional_asymptotic_nondimensional_end_to_end_length_per_link nondimensional_link_stiffness_i nondimensional_force_i) nondimensional_link_stiffness_i) nondimensional_force

/-- `src/physics/single_chain/ufjc/lennard_jones/thermodynamics/isotensional/asymptotic/mod.jl` lines 244-281. -/
def gibbs_free_energy (number_of_links : JArr Nat) (link_length : JArr α) (hinge_mass : JArr α) (link_stiffness : JArr α) (force : JArr α) (temperature : JArr α) : Option (JArr α) :=
  JArr.ap (JArr.ap (JArr.ap (JArr.ap (JArr.ap (JArr.map (fun (number_of_links_i : Nat) (link_length_i : α) (hinge_mass_i : α) (link_stiffness_i : α) (force_i : α) (temperature_i : α) => Polymers.C.physics_single_chain_ufjc_lennard_jones_thermodynamics_isotensional_asymptotic_gibbs_free_energy number_of_links_i link_length_i hinge_mass_i link_stiffness_i force_i temperature_i) number_of_links) link_length) hinge_mass) link_stiffness) force) temperature

/-- `src/physics/single_chain/ufjc/lennard_jones/thermodynamics/isotensional/asymptotic/mod.jl` lines 289-316. -/
def gibbs_free_energy_per_link (link_length : JArr α) (hinge_mass : JArr α) (link_stiffness : JArr α) (force : JArr α) (temperature : JArr α) : Option (JArr α) :=
  JArr.ap (JArr.ap (JArr.ap (JArr.ap (JArr.map (fun (link_length_i : α) (hinge_mass_i : α) (link_stiffness_i : α) (force_i : α) (temperature_i : α) => Polymers.C.physics_single_chain_ufjc_lennard_jones_thermodynamics_isotensional_asymptotic_gibbs_free_energy_per_link link_length_i hinge_mass_i link_stiffness_i force_i temperature_i) link_length) hinge_mass) link_stiffness) force) temperature

/-- `src/physics/single_chain/ufjc/lennard_jones/thermodynamics/isotensional/asymptotic/mod.jl` lines 324-352. -/
def relative_gibbs_free_energy (number_of_links : JArr Nat) (link_length : JArr α) (link_stiffness : JArr α) (force : JArr α) (temperature : JArr α) : Option (JArr α) :=
  JArr.ap (JArr.ap (JArr.ap (JArr.ap (JArr.map (fun (number_of_links_i : Nat) (link_length_i : α) (link_stiffness_i : α) (force_i : α) (temperature_i : α) => Polymers.C.physics_single_chain_ufjc_lennard_jones_thermodynamics_isotensional_asymptotic_relative_gibbs_free_energy number_of_links_i link_length_i link_stiffness_i force_i temperature_i) number_of_links) link_length) link_stiffness) force) temperature

/-- `src/physics/single_chain/ufjc/lennard_jones/thermodynamics/isotensional/asymptotic/mod.jl` lines 360-384. -/
def relative_gibbs_free_energy_per_link (link_length : JArr α) (link_stiffness : JArr α) (force : JArr α) (temperature : JArr α) : Option (JArr α) :=
  JArr.ap (JArr.ap (JArr.ap (JArr.map (fun (link_length_i : α) (link_stiffness_i : α) (force_i : α) (temperature_i : α) => Polymers.C.physics_single_chain_ufjc_lennard_jones_thermodynamics_isotensional_asymptotic_relative_gibbs_free_energy_per_link link_length_i link_stiffness_i force_i temperature_i) link_length) link_stiffness) force) temperature

/-- `src/physics/single_chain/ufjc/lennard_jones/thermodynamics/isotensional/asymptotic/mod.jl` lines 392-429. -/
def nondimensional_gibbs_free_energy (number_of_links : JArr Nat) (link_length : JArr α) (hinge_mass : JArr α) (nondimensional_link_stiffness : JArr α) (nondimensional_force : JArr α) (temperature : JArr α) : Option (JArr α) :=
  JArr.ap (JArr.ap (JArr.ap (JArr.ap (JArr.ap (JArr.map (fun (number_of_links_i : Nat) (link_length_i : α) (hinge_mass_i : α) (nondimensional_link_stiffness_i : α) (nondimensional_force_i : α) (temperature_i : α) => Polymers.C.physics_single_chain_ufjc_lennard_jones_thermodynamics_isotensional_asymptotic_nondimensional_gibbs_free_energy number_of_links_i link_length_i hinge_mass_i nondimensional_link_stiffness_i nondimensional_force_i temperature_i) number_of_links) link_length) hinge_mass) nondimensional_link_stiffness) nondimensional_force) temperature

/-- `src/physics/single_chain/ufjc/lennard_jones/thermodynamics/isotensional/asymptotic/mod.jl` lines 437-470. -/
def nondimensional_gibbs_free_energy_per_link (link_length : JArr α) (hinge_mass : JArr α) (nondimensional_link_stiffness : JArr α) (nondimensional_force : JArr α) (temperature : JArr α) : Option (JArr α) :=
  JArr.ap (JArr.ap (JArr.ap (JArr.ap (JArr.map (fun (link_length_i : α) (hinge_mass_i : α) (nondimensional_link_stiffness_i : α) (nondimensional_force_i : α) (temperature_i : α) => Polymers.C.physics_single_chain_ufjc_lennard_jones_thermodynamics_isotensional_asymptotic_nondimensional_gibbs_free_energy_per_link link_length_i hinge_mass_i nondimensional_link_stiffness_i nondimensional_force_i temperature_i) link_length) hinge_mass) nondimensional_link_stiffness) nondimensional_force) temperature

/-- `src/physics/single_chain/ufjc/lennard_jones/thermodynamics/isotensional/asymptotic/mod.jl` lines 478-500. -/
def nondimensional_relative_gibbs_free_energy (number_of_links : JArr Nat) (nondimensional_link_stiffness : JArr α) (nondimensional_force : JArr α) : Option (JArr α) :=
  JArr.ap (JArr.ap (JArr.map (fun (number_of_links_i : Nat) (nondimensional_link_stiffness_i : α) (nondimensional_force_i : α) => Polymers.C.physics_single_chain_ufjc_lennard_jones_thermodynamics_isotensional_asymptotic_nondimensional_relative_gibbs_free_energy number_of_links_i nondimensional_link_stiffness_i nondimensional_force_i) number_of_links) nondimensional_link_stiffness) nondimensional_force

/-- `src/physics/single_chain/ufjc/lennard_jones/thermodynamics/isotensional/asymptotic/mod.jl` lines 521-539. -/
def nondimensional_relative_gibbs_free_energy_per_link (nondimensional_link_stiffness : JArr α) (nondimensional_force : JArr α) : Option (JArr α) :=
  JArr.ap (JArr.map (fun (nondimensional_link_stiffness_i : α) (nondimensional_force_i : α) => Polymers.C.physics_single_chain_ufjc_lennard_jones_thermodynamics_isotensional_asymptotic_nondimensional_relative_gibbs_free_energy_per_link nondimensional_link_stiffness_i nondimensional_force_i) nondimensional_link_stiffness) nondimensional_force

/-- `src/physics/single_chain/ufjc/lennard_jones/thermodynamics/isotensional/asymptotic/mod.jl` lines 546-632. -/
def LENNARDJONESFJC.new (other : α → JArr α → Option (JArr α)) (number_of_links : Nat) (link_length : α) (hinge_mass : α) (link_stiffness : α) : Polymers.Julia.Ufjc.LennardJones.Thermodynamics.Isotensional.Asymptotic.LENNARDJONESFJC α :=
  let BOLTZMANN_CONSTANT : α := 8.314462618
  Polymers.Julia.Ufjc.LennardJones.Thermodynamics.Isotensional.Asymptotic.LENNARDJONESFJC.mk
    number_of_links
    link_length
    hinge_mass
    link_stiffness
    (Polymers.Julia.Ufjc.LennardJones.Thermodynamics.Isotensional.Asymptotic.Reduced.LENNARDJONESFJC.new other number_of_links link_length hinge_mass link_stiffness)
    (Polymers.Julia.Ufjc.LennardJones.Thermodynamics.Isotensional.Asymptotic.Legendre.LENNARDJONESFJC.new other number_of_links link_length hinge_mass link_stiffness)
    (fun (force : JArr α) (temperature : JArr α) => Polymers.Julia.Ufjc.LennardJones.Thermodynamics.Isotensional.Asymptotic.end_to_end_length (JArr.scalar number_of_links) (JArr.scalar link_length) (JArr.scalar link_stiffness) force temperature)
    (fun (force : JArr α) (temperature : JArr α) => Polymers.Julia.Ufjc.LennardJones.Thermodynamics.Isotensional.Asymptotic.end_to_end_length_per_link (JArr.scalar link_length) (JArr.scalar link_stiffness) force temperature)
    (fun (nondimensional_force : JArr α) (temperature : JArr α) => (JArr.quotient other (link_stiffness * Elem.powi link_length 2 / BOLTZMANN_CONSTANT) temperature).bind fun q1 => Polymers.Julia.Ufjc.LennardJones.Thermodynamics.Isotensional.Asymptotic.nondimensional_end_to_end_length (JArr.scalar number_of_links) q1 nondimensional_force)
    (fun (nondimensional_force : JArr α) (temperature : JArr α) => (JArr.quotient other (link_stiffness * Elem.powi link_length 2 / BOLTZMANN_CONSTANT) temperature).bind fun q0 => Polymers.Julia.Ufjc.LennardJones.Thermodynamics.Isotensional.Asymptotic.nondimensional_end_to_end_length_per_link q0 nondimensional_force)
    (fun (force : JArr α) (temperature : JArr α) => Polymers.Julia.Ufjc.LennardJones.Thermodynamics.Isotensional.Asymptotic.gibbs_free_energy (JArr.scalar number_of_links) (JArr.scalar link_length) (JArr.scalar hinge_mass) (JArr.scalar link_stiffness) force temperature)
    (fun (force : JArr α) (temperature : JArr α) => Polymers.Julia.Ufjc.LennardJones.Thermodynamics.Isotensional.Asymptotic.gibbs_free_energy_per_link (JArr.scalar link_length) (JArr.scalar hinge_mass) (JArr.scalar link_stiffness) force temperature)
    (fun (force : JArr α) (temperature : JArr α) => Polymers.Julia.Ufjc.LennardJones.Thermodynamics.Isotensional.Asymptotic.relative_gibbs_free_energy (JArr.scalar number_of_links) (JArr.scalar link_length) (JArr.scalar link_stiffness) force temperature)
    (fun (force : JArr α) (temperature : JArr α) => Polymers.Julia.Ufjc.LennardJones.Thermodynamics.Isotensional.Asymptotic.relative_gibbs_free_energy_per_link (JArr.scalar link_length) (JArr.scalar link_stiffness) force temperature)
    (fun (nondimensional_force : JArr α) (temperature : JArr α) => (JArr.quotient other (link_stiffness * Elem.powi link_length 2 / BOLTZMANN_CONSTANT) temperature).bind fun q3 => Polymers.Julia.Ufjc.LennardJones.Thermodynamics.Isotensional.Asymptotic.nondimensional_gibbs_free_energy (JArr.scalar number_of_links) (JArr.scalar link_length) (JArr.scalar hinge_mass) q3 nondimensional_force temperature)
    (fun (nondimensional_force : JArr α) (temperature : JArr α) => (JArr.quotient other (link_stiffness * Elem.powi link_length 2 / BOLTZMANN_CONSTANT) temperature).bind fun q2 => Polymers.Julia.Ufjc.LennardJones.Thermodynamics.Isotensional.Asymptotic.nondimensional_gibbs_free_energy_per_link (JArr.scalar link_length) (JArr.scalar hinge_mass) q2 nondimensional_force temperature)
    (fun (nondimensional_force : JArr α) (temperature : JArr α) => (JArr.quotient other (link_stiffness * Elem.powi link_length 2 / BOLTZMANN_CONSTANT) temperature).bind fun q1 => Polymers.Julia.Ufjc.LennardJones.Thermodynamics.Isotensional.Asymptotic.nondimensional_relative_gibbs_free_energy (JArr.scalar number_of_links) q1 nondimensional_force)
    (fun (nondimensional_force : JArr α) (temperature : JArr α) => (JArr.quotient other (link_stiffness * Elem.powi link_length 2 / BOLTZMANN_CONSTANT) temperature).bind fun q0 => Polymers.Julia.Ufjc.LennardJones.Thermodynamics.Isotensional.Asymptotic.nondimensional_relative_gibbs_free_energy_per_link q0 nondimensional_force)

end Polymers.Julia.Ufjc.LennardJones.Thermodynamics.Isotensional.Asymptotic

namespace Polymers.Julia.Ufjc.LennardJones.Thermodynamics.Isotensional.Legendre

/-- `src/physics/single_chain/ufjc/lennard_jones/thermodynamics/isotensional/legendre/mod.jl` lines 78-115. -/
def helmholtz_free_energy (number_of_links : JArr Nat) (link_length : JArr α) (hinge_mass : JArr α) (link_stiffness : JArr α) (force : JArr α) (temperature : JArr α) : Option (JArr α) :=
  JArr.ap (JArr.ap (JArr.ap (JArr.ap (JArr.ap (JArr.map (fun (number_of_links_i : Nat) (link_length_i : α) (hinge_mass_i : α) (link_stiffness_i : α) (force_i : α) (temperature_i : α) => Polymers.C.physics_single_chain_ufjc_lennard_jones_thermodynamics_isotensional_legendre_helmholtz_free_energy number_of_links_i link_length_i hinge_mass_i link_stiffness_i force_i temperature_i) number_of_links) link_length) hinge_mass) link_stiffness) force) temperature

/-- `src/physics/single_chain/ufjc/lennard_jones/thermodynamics/isotensional/legendre/mod.jl` lines 123-150. -/
def helmholtz_free_energy_per_link (link_length : JArr α) (hinge_mass : JArr α) (link_stiffness : JArr α) (force : JArr α) (temperature : JArr α) : Option (JArr α) :=
  JArr.ap (JArr.ap (JArr.ap (JArr.ap (JArr.map (fun (link_length_i : α) (hinge_mass_i : α) (link_stiffness_i : α) (force_i : α) (temperature_i : α) => Polymers.C.physics_single_chain_ufjc_lennard_jones_thermodynamics_isotensional_legendre_helmholtz_free_energy_per_link link_length_i hinge_mass_i link_stiffness_i force_i temperature_i) link_length) hinge_mass) link_stiffness) force) temperature

/-- `src/physics/single_chain/ufjc/lennard_jones/thermodynamics/isotensional/legendre/mod.jl` lines 158-186. -/
def relative_helmholtz_free_energy (number_of_links : JArr Nat) (link_length : JArr α) (link_stiffness : JArr α) (force : JArr α) (temperature : JArr α) : Option (JArr α) :=
  JArr.ap (JArr.ap (JArr.ap (JArr.ap (JArr.map (fun (number_of_links_i : Nat) (link_length_i : α) (link_stiffness_i : α) (force_i : α) (temperature_i : α) => Polymers.C.physics_single_chain_ufjc_lennard_jones_thermodynamics_isotensional_legendre_relative_helmholtz_free_energy number_of_links_i link_length_i link_stiffness_i force_i temperature_i) number_of_links) link_length) link_stiffness) force) temperature

/-- `src/physics/single_chain/ufjc/lennard_jones/thermodynamics/isotensional/legendre/mod.jl` lines 194-218. -/
def relative_helmholtz_free_energy_per_link (link_length : JArr α) (link_stiffness : JArr α) (force : JArr α) (temperature : JArr α) : Option (JArr α) :=
  JArr.ap (JArr.ap (JArr.ap (JArr.map (fun (link_length_i : α) (link_stiffness_i : α) (force_i : α) (temperature_i : α) => Polymers.C.physics_single_chain_ufjc_lennard_jones_thermodynamics_isotensional_legendre_relative_helmholtz_free_energy_per_link link_length_i link_stiffness_i force_i temperature_i) link_length) link_stiffness) force) temperature

/-- `src/physics/single_chain/ufjc/lennard_jones/thermodynamics/isotensional/legendre/mod.jl` lines 226-263. -/
def nondimensional_helmholtz_free_energy (number_of_links : JArr Nat) (link_length : JArr α) (hinge_mass : JArr α) (nondimensional_link_stiffness : JArr α) (nondimensional_force : JArr α) (temperature : JArr α) : Option (JArr α) :=
  JArr.ap (JArr.ap (JArr.ap (JArr.ap (JArr.ap (JArr.map (fun (number_of_links_i : Nat) (link_length_i : α) (hinge_mass_i : α) (nondimensional_link_stiffness_i : α) (nondimensional_force_i : α) (temperature_i : α) => Polymers.C.physics_single_chain_ufjc_lennard_jones_thermodynamics_isotensional_legendre_nondimensional_helmholtz_free_energy number_of_links_i link_length_i hinge_mass_i nondimensional_link_stiffness_i nondimensional_force_i temperature_i) number_of_links) link_length) hinge_mass) nondimensional_link_stiffness) nondimensional_force) temperature

/-- `src/physics/single_chain/ufjc/lennard_jones/thermodynamics/isotensional/legendre/mod.jl` lines 271-304. -/
def nondimensional_helmholtz_free_energy_per_link (link_length : JArr α) (hinge_mass : JArr α) (nondimensional_link_stiffness : JArr α) (nondimensional_force : JArr α) (temperature : JArr α) : Option (JArr α) :=
  JArr.ap (JArr.ap (JArr.ap (JArr.ap (JArr.map (fun (link_length_i : α) (hinge_mass_i : α) (link_stiffness_i : α) (nondimensional_force_i : α) (temperature_i : α) => Polymers.C.physics_single_chain_ufjc_lennard_jones_thermodynamics_isotensional_legendre_nondimensional_helmholtz_free_energy_per_link link_length_i hinge_mass_i link_stiffness_i nondimensional_force_i temperature_i) link_length) hinge_mass) nondimensional_link_stiffness) nondimensional_force) temperature

/-- `src/physics/single_chain/ufjc/lennard_jones/thermodynamics/isotensional/legendre/mod.jl` lines 312-334. -/
def nondimensional_relative_helmholtz_free_energy (number_of_links : JArr Nat) (nondimensional_link_stiffness : JArr α) (nondimensional_force : JArr α) : Option (JArr α) :=
  JArr.ap (JArr.ap (JArr.map (fun (number_of_links_i : Nat) (nondimensional_link_stiffness_i : α) (nondimensional_force_i : α) => Polymers.C.physics_single_chain_ufjc_lennard_jones_thermodynamics_isotensional_legendre_nondimensional_relative_helmholtz_free_energy number_of_links_i nondimensional_link_stiffness_i nondimensional_force_i) number_of_links) nondimensional_link_stiffness) nondimensional_force

/-- `src/physics/single_chain/ufjc/lennard_jones/thermodynamics/isotensional/legendre/mod.jl` lines 342-360. -/
def nondimensional_relative_helmholtz_free_energy_per_link (nondimensional_link_stiffness : JArr α) (nondimensional_force : JArr α) : Option (JArr α) :=
  JArr.ap (JArr.map (fun (nondimensional_link_stiffness_i : α) (nondimensional_force_i : α) => Polymers.C.physics_single_chain_ufjc_lennard_jones_thermodynamics_isotensional_legendre_nondimensional_relative_helmholtz_free_energy_per_link nondimensional_link_stiffness_i nondimensional_force_i) nondimensional_link_stiffness) nondimensional_force

/-- `src/physics/single_chain/ufjc/lennard_jones/thermodynamics/isotensional/legendre/mod.jl` lines 367-435. -/
def LENNARDJONESFJC.new (other : α → JArr α → Option (JArr α)) (number_of_links : Nat) (link_length : α) (hinge_mass : α) (link_stiffness : α) : Polymers.Julia.Ufjc.LennardJones.Thermodynamics.Isotensional.Legendre.LENNARDJONESFJC α :=
  let BOLTZMANN_CONSTANT : α := 8.314462618
  Polymers.Julia.Ufjc.LennardJones.Thermodynamics.Isotensional.Legendre.LENNARDJONESFJC.mk
    number_of_links
    link_length
    hinge_mass
    link_stiffness
    (fun (force : JArr α) (temperature : JArr α) => Polymers.Julia.Ufjc.LennardJones.Thermodynamics.Isotensional.Legendre.helmholtz_free_energy (JArr.scalar number_of_links) (JArr.scalar link_length) (JArr.scalar hinge_mass) (JArr.scalar link_stiffness) force temperature)
    (fun (force : JArr α) (temperature : JArr α) => Polymers.Julia.Ufjc.LennardJones.Thermodynamics.Isotensional.Legendre.helmholtz_free_energy_per_link (JArr.scalar link_length) (JArr.scalar hinge_mass) (JArr.scalar link_stiffness) force temperature)
    (fun (force : JArr α) (temperature : JArr α) => Polymers.Julia.Ufjc.LennardJones.Thermodynamics.Isotensional.Legendre.relative_helmholtz_free_energy (JArr.scalar number_of_links) (JArr.scalar link_length) (JArr.scalar link_stiffness) force temperature)
    (fun (force : JArr α) (temperature : JArr α) => Polymers.Julia.Ufjc.LennardJones.Thermodynamics.Isotensional.Legendre.relative_helmholtz_free_energy_per_link (JArr.scalar link_length) (JArr.scalar link_stiffness) force temperature)
    (fun (nondimensional_force : JArr α) (temperature : JArr α) => (JArr.quotient other (link_stiffness * Elem.powi link_length 2 / BOLTZMANN_CONSTANT) temperature).bind fun q3 => Polymers.Julia.Ufjc.LennardJones.Thermodynamics.Isotensional.Legendre.nondimensional_helmholtz_free_energy (JArr.scalar number_of_links) (JArr.scalar link_length) (JArr.scalar hinge_mass) q3 nondimensional_force temperature)
    (fun (nondimensional_force : JArr α) (temperature : JArr α) => (JArr.quotient other (link_stiffness * Elem.powi link_length 2 / BOLTZMANN_CONSTANT) temperature).bind fun q2 => Polymers.Julia.Ufjc.LennardJones.Thermodynamics.Isotensional.Legendre.nondimensional_helmholtz_free_energy_per_link (JArr.scalar link_length) (JArr.scalar hinge_mass) q2 nondimensional_force temperature)
    (fun (nondimensional_force : JArr α) (temperature : JArr α) => (JArr.quotient other (link_stiffness * Elem.powi link_length 2 / BOLTZMANN_CONSTANT) temperature).bind fun q1 => Polymers.Julia.Ufjc.LennardJones.Thermodynamics.Isotensional.Legendre.nondimensional_relative_helmholtz_free_energy (JArr.scalar number_of_links) q1 nondimensional_force)
    (fun (nondimensional_force : JArr α) (temperature : JArr α) => (JArr.quotient other (link_stiffness * Elem.powi link_length 2 / BOLTZMANN_CONSTANT) temperature).bind fun q0 => Polymers.Julia.Ufjc.LennardJones.Thermodynamics.Isotensional.Legendre.nondimensional_relative_helmholtz_free_energy_per_link q0 nondimensional_force)

end Polymers.Julia.Ufjc.LennardJones.Thermodynamics.Isotensional.Legendre

namespace Polymers.Julia.Ufjc.LennardJones.Thermodynamics.Isotensional

/-- `src/physics/single_chain/ufjc/lennard_jones/thermodynamics/isotensional/mod.jl` lines 105-133. -/
def end_to_end_length (number_of_links : JArr Nat) (link_length : JArr α) (link_stiffness : JArr α) (force : JArr α) (temperature : JArr α) : Option (JArr α) :=
  JArr.ap (JArr.ap (JArr.ap (JArr.ap (JArr.map (fun (number_of_links_i : Nat) (link_length_i : α) (link_stiffness_i : α) (force_i : α) (temperature_i : α) => Polymers.C.physics_single_chain_ufjc_lennard_jones_thermodynamics_isotensional_end_to_end_length number_of_links_i link_length_i link_stiffness_i force_i temperature_i) number_of_links) link_length) link_stiffness) force) temperature

/-- `src/physics/single_chain/ufjc/lennard_jones/thermodynamics/isotensional/mod.jl` lines 141-165. -/
def end_to_end_length_per_link (link_length : JArr α) (link_stiffness : JArr α) (force : JArr α) (temperature : JArr α) : Option (JArr α) :=
  JArr.ap (JArr.ap (JArr.ap (JArr.map (fun (link_length_i : α) (link_stiffness_i : α) (force_i : α) (temperature_i : α) => Polymers.C.physics_single_chain_ufjc_lennard_jones_thermodynamics_isotensional_end_to_end_length_per_link link_length_i link_stiffness_i force_i temperature_i) link_length) link_stiffness) force) temperature

/-- `src/physics/single_chain/ufjc/lennard_jones/thermodynamics/isotensional/mod.jl` lines 173-195. -/
def nondimensional_end_to_end_length (number_of_links : JArr Nat) (nondimensional_link_stiffness : JArr α) (nondimensional_force : JArr α) : Option (JArr α) :=
  JArr.ap (JArr.ap (JArr.map (fun (number_of_links_i : Nat) (nondimensional_link_stiffness_i : α) (nondimensional_force_i : α) => Polymers.C.physics_single_chain_ufjc_lennard_jones_thermodynamics_isotensional_nondimensional_end_to_end_length number_of_links_i nondimensional_link_stiffness_i nondimensional_force_i) number_of_links) nondimensional_link_stiffness) nondimensional_force

/-- `src/physics/single_chain/ufjc/lennard_jones/thermodynamics/isotensional/mod.jl` lines 208-226. -/
def nondimensional_end_to_end_length_per_link (nondimensional_link_stiffness : JArr α) (nondimensional_force : JArr α) : Option (JArr α) :=
  JArr.ap (JArr.map (fun (nondimensional_link_stiffness_i : α) (nondimensional_force_i : α) => Polymers.C.physics_single_chain_ufjc_lennard_jones_thermodynamics_isotensional_nondimensional_end_to_end_length_per_link nondimensional_link_stiffness_i nondimensional_force_i) nondimensional_link_stiffness) nondimensional_force

/-- `src/physics/single_chain/ufjc/lennard_jones/thermodynamics/isotensional/mod.jl` lines 238-275. -/
def gibbs_free_energy (number_of_links : JArr Nat) (link_length : JArr α) (hinge_mass : JArr α) (link_stiffness : JArr α) (force : JArr α) (temperature : JArr α) : Option (JArr α) :=
  JArr.ap (JArr.ap (JArr.ap (JArr.ap (JArr.ap (JArr.map (fun (number_of_links_i : Nat) (link_length_i : α) (hinge_mass_i : α) (link_stiffness_i : α) (force_i : α) (temperature_i : α) => Polymers.C.physics_single_chain_ufjc_lennard_jones_thermodynamics_isotensional_gibbs_free_energy number_of_links_i link_length_i hinge_mass_i link_stiffness_i force_i temperature_i) number_of_links) link_length) hinge_mass) link_stiffness) force) temperature

/-- `src/physics/single_chain/ufjc/lennard_jones/thermodynamics/isotensional/mod.jl` lines 283-310. -/
def gibbs_free_energy_per_link (link_length : JArr α) (hinge_mass : JArr α) (link_stiffness : JArr α) (force : JArr α) (temperature : JArr α) : Option (JArr α) :=
  JArr.ap (JArr.ap (JArr.ap (JArr.ap (JArr.map (fun (link_length_i : α) (hinge_mass_i : α) (link_stiffness_i : α) (force_i : α) (temperature_i : α) => Polymers.C.physics_single_chain_ufjc_lennard_jones_thermodynamics_isotensional_gibbs_free_energy_per_link link_length_i hinge_mass_i link_stiffness_i force_i temperature_i) link_length) hinge_mass) link_stiffness) force) temperature

/-- `src/physics/single_chain/ufjc/lennard_jones/thermodynamics/isotensional/mod.jl` lines 318-346. -/
def relative_gibbs_free_energy (number_of_links : JArr Nat) (link_length : JArr α) (link_stiffness : JArr α) (force : JArr α) (temperature : JArr α) : Option (JArr α) :=
  JArr.ap (JArr.ap (JArr.ap (JArr.ap (JArr.map (fun (number_of_links_i : Nat) (link_length_i : α) (link_stiffness_i : α) (force_i : α) (temperature_i : α) => Polymers.C.physics_single_chain_ufjc_lennard_jones_thermodynamics_isotensional_relative_gibbs_free_energy number_of_links_i link_length_i link_stiffness_i force_i temperature_i) number_of_links) link_length) link_stiffness) force) temperature

/-- `src/physics/single_chain/ufjc/lennard_jones/thermodynamics/isotensional/mod.jl` lines 354-378. -/
def relative_gibbs_free_energy_per_link (link_length : JArr α) (link_stiffness : JArr α) (force : JArr α) (temperature : JArr α) : Option (JArr α) :=
  JArr.ap (JArr.ap (JArr.ap (JArr.map (fun (link_length_i : α) (link_stiffness_i : α) (force_i : α) (temperature_i : α) => Polymers.C.physics_single_chain_ufjc_lennard_jones_thermodynamics_isotensional_relative_gibbs_free_energy_per_link link_length_i link_stiffness_i force_i temperature_i) link_length) link_stiffness) force) temperature

/-- `src/physics/single_chain/ufjc/lennard_jones/thermodynamics/isotensional/mod.jl` lines 386-423. -/
def nondimensional_gibbs_free_energy (number_of_links : JArr Nat) (link_length : JArr α) (hinge_mass : JArr α) (nondimensional_link_stiffness : JArr α) (nondimensional_force : JArr α) (temperature : JArr α) : Option (JArr α) :=
  JArr.ap (JArr.ap (JArr.ap (JArr.ap (JArr.ap (JArr.map (fun (number_of_links_i : Nat) (link_length_i : α) (hinge_mass_i : α) (nondimensional_link_stiffness_i : α) (nondimensional_force_i : α) (temperature_i : α) => Polymers.C.physics_single_chain_ufjc_lennard_jones_thermodynamics_isotensional_nondimensional_gibbs_free_energy number_of_links_i link_length_i hinge_mass_i nondimensional_link_stiffness_i nondimensional_force_i temperature_i) number_of_links) link_length) hinge_mass) nondimensional_link_stiffness) nondimensional_force) temperature

/-- `src/physics/single_chain/ufjc/lennard_jones/thermodynamics/isotensional/mod.jl` lines 431-464. -/
def nondimensional_gibbs_free_energy_per_link (link_length : JArr α) (hinge_mass : JArr α) (nondimensional_link_stiffness : JArr α) (nondimensional_force : JArr α) (temperature : JArr α) : Option (JArr α) :=
  JArr.ap (JArr.ap (JArr.ap (JArr.ap (JArr.map (fun (link_length_i : α) (hinge_mass_i : α) (nondimensional_link_stiffness_i : α) (nondimensional_force_i : α) (temperature_i : α) => Polymers.C.physics_single_chain_ufjc_lennard_jones_thermodynamics_isotensional_nondimensional_gibbs_free_energy_per_link link_length_i hinge_mass_i nondimensional_link_stiffness_i nondimensional_force_i temperature_i) link_length) hinge_mass) nondimensional_link_stiffness) nondimensional_force) temperature

/-- `src/physics/single_chain/ufjc/lennard_jones/thermodynamics/isotensional/mod.jl` lines 472-494. -/
def nondimensional_relative_gibbs_free_energy (number_of_links : JArr Nat) (nondimensional_link_stiffness : JArr α) (nondimensional_force : JArr α) : Option (JArr α) :=
  JArr.ap (JArr.ap (JArr.map (fun (number_of_links_i : Nat) (nondimensional_link_stiffness_i : α) (nondimensional_force_i : α) => Polymers.C.physics_single_chain_ufjc_lennard_jones_thermodynamics_isotensional_nondimensional_relative_gibbs_free_energy number_of_links_i nondimensional_link_stiffness_i nondimensional_force_i) number_of_links) nondimensional_link_stiffness) nondimensional_force

/-- `src/physics/single_chain/ufjc/lennard_jones/thermodynamics/isotensional/mod.jl` lines 515-533. -/
def nondimensional_relative_gibbs_free_energy_per_link (nondimensional_link_stiffness : JArr α) (nondimensional_force : JArr α) : Option (JArr α) :=
  JArr.ap (JArr.map (fun (nondimensional_link_stiffness_i : α) (nondimensional_force_i : α) => Polymers.C.physics_single_chain_ufjc_lennard_jones_thermodynamics_isotensional_nondimensional_relative_gibbs_free_energy_per_link nondimensional_link_stiffness_i nondimensional_force_i) nondimensional_link_stiffness) nondimensional_force

/-- `src/physics/single_chain/ufjc/lennard_jones/thermodynamics/isotensional/mod.jl` lines 540-631. -/
def LENNARDJONESFJC.new (other : α → JArr α → Option (JArr α)) (number_of_links : Nat) (link_length : α) (hinge_mass : α) (link_stiffness : α) : Polymers.Julia.Ufjc.LennardJones.Thermodynamics.Isotensional.LENNARDJONESFJC α :=
  let BOLTZMANN_CONSTANT : α := 8.314462618
  Polymers.Julia.Ufjc.LennardJones.Thermodynamics.Isotensional.LENNARDJONESFJC.mk
    number_of_links
    link_length
    hinge_mass
    link_stiffness
    (Polymers.Julia.Ufjc.LennardJones.Thermodynamics.Isotensional.Asymptotic.LENNARDJONESFJC.new other number_of_links link_length hinge_mass link_stiffness)
    (Polymers.Julia.Ufjc.LennardJones.Thermodynamics.Isotensional.Legendre.LENNARDJONESFJC.new other number_of_links link_length hinge_mass link_stiffness)
    (fun (force : JArr α) (temperature : JArr α) => Polymers.Julia.Ufjc.LennardJones.Thermodynamics.Isotensional.end_to_end_length (JArr.scalar number_of_links) (JArr.scalar link_length) (JArr.scalar link_stiffness) force temperature)
    (fun (force : JArr α) (temperature : JArr α) => Polymers.Julia.Ufjc.LennardJones.Thermodynamics.Isotensional.end_to_end_length_per_link (JArr.scalar link_length) (JArr.scalar link_stiffness) force temperature)
    (fun (nondimensional_force : JArr α) (temperature : JArr α) => (JArr.quotient other (link_stiffness * Elem.powi link_length 2 / BOLTZMANN_CONSTANT) temperature).bind fun q1 => Polymers.Julia.Ufjc.LennardJones.Thermodynamics.Isotensional.nondimensional_end_to_end_length (JArr.scalar number_of_links) q1 nondimensional_force)
    (fun (nondimensional_force : JArr α) (temperature : JArr α) => (JArr.quotient other (link_stiffness * Elem.powi link_length 2 / BOLTZMANN_CONSTANT) temperature).bind fun q0 => Polymers.Julia.Ufjc.LennardJones.Thermodynamics.Isotensional.nondimensional_end_to_end_length_per_link q0 nondimensional_force)
    (fun (force : JArr α) (temperature : JArr α) => Polymers.Julia.Ufjc.LennardJones.Thermodynamics.Isotensional.gibbs_free_energy (JArr.scalar number_of_links) (JArr.scalar link_length) (JArr.scalar hinge_mass) (JArr.scalar link_stiffness) force temperature)
    (fun (force : JArr α) (temperature : JArr α) => Polymers.Julia.Ufjc.LennardJones.Thermodynamics.Isotensional.gibbs_free_energy_per_link (JArr.scalar link_length) (JArr.scalar hinge_mass) (JArr.scalar link_stiffness) force temperature)
    (fun (force : JArr α) (temperature : JArr α) => Polymers.Julia.Ufjc.LennardJones.Thermodynamics.Isotensional.relative_gibbs_free_energy (JArr.scalar number_of_links) (JArr.scalar link_length) (JArr.scalar link_stiffness) force temperature)
    (fun (force : JArr α) (temperature : JArr α) => Polymers.Julia.Ufjc.LennardJones.Thermodynamics.Isotensional.relative_gibbs_free_energy_per_link (JArr.scalar link_length) (JArr.scalar link_stiffness) force temperature)
    (fun (nondimensional_force : JArr α) (temperature : JArr α) => (JArr.quotient other (link_stiffness * Elem.powi link_length 2 / BOLTZMANN_CONSTANT) temperature).bind fun q3 => Polymers.Julia.Ufjc.LennardJones.Thermodynamics.Isotensional.nondimensional_gibbs_free_energy (JArr.scalar number_of_links) (JArr.scalar link_length) (JArr.scalar hinge_mass) q3 nondimensional_force temperature)
    (fun (nondimensional_force : JArr α) (temperature : JArr α) => (JArr.quotient other (link_stiffness * Elem.powi link_length 2 / BOLTZMANN_CONSTANT) temperature).bind fun q2 => Polymers.Julia.Ufjc.LennardJones.Thermodynamics.Isotensional.nondimensional_gibbs_free_energy_per_link (JArr.scalar link_length) (JArr.scalar hinge_mass) q2 nondimensional_force temperature)
    (fun (nondimensional_force : JArr α) (temperature : JArr α) => (JArr.quotient other (link_stiffness * Elem.powi link_length 2 / BOLTZMANN_CONSTANT) temperature).bind fun q1 => Polymers.Julia.Ufjc.LennardJones.Thermodynamics.Isotensional.nondimensional_relative_gibbs_free_energy (JArr.scalar number_of_links) q1 nondimensional_force)
    (fun (nondimensional_force : JArr α) (temperature : JArr α) => (JArr.quotient other (link_stiffness * Elem.powi link_length 2 / BOLTZMANN_CONSTANT) temperature).bind fun q0 => Polymers.Julia.Ufjc.LennardJones.Thermodynamics.Isotensional.nondimensional_relative_gibbs_free_energy_per_link q0 nondimensional_force)

end Polymers.Julia.Ufjc.LennardJones.Thermodynamics.Isotensional

namespace Polymers.Julia.Ufjc.LennardJones.Thermodynamics

/-- `src/physics/single_chain/ufjc/lennard_jones/thermodynamics/mod.jl` lines 48-67. -/
def LENNARDJONESFJC.new (other : α → JArr α → Option (JArr α)) (number_of_links : Nat) (link_length : α) (hinge_mass : α) (link_stiffness : α) : Polymers.Julia.Ufjc.LennardJones.Thermodynamics.LENNARDJONESFJC α :=
  Polymers.Julia.Ufjc.LennardJones.Thermodynamics.LENNARDJONESFJC.mk
    number_of_links
    link_length
    hinge_mass
    link_stiffness
    (Polymers.Julia.Ufjc.LennardJones.Thermodynamics.Isometric.LENNARDJONESFJC.new other number_of_links link_length hinge_mass link_stiffness)
    (Polymers.Julia.Ufjc.LennardJones.Thermodynamics.Isotensional.LENNARDJONESFJC.new other number_of_links link_length hinge_mass link_stiffness)

end Polymers.Julia.Ufjc.LennardJones.Thermodynamics

namespace Polymers.Julia.Ufjc.LennardJones

/-- `src/physics/single_chain/ufjc/lennard_jones/mod.jl` lines 43-61. -/
def LENNARDJONESFJC.new (other : α → JArr α → Option (JArr α)) (number_of_links : Nat) (link_length : α) (hinge_mass : α) (link_stiffness : α) : Polymers.Julia.Ufjc.LennardJones.LENNARDJONESFJC α :=
  Polymers.Julia.Ufjc.LennardJones.LENNARDJONESFJC.mk
    number_of_links
    link_length
    hinge_mass
    link_stiffness
    (Polymers.Julia.Ufjc.LennardJones.Thermodynamics.LENNARDJONESFJC.new other number_of_links link_length hinge_mass link_stiffness)

end Polymers.Julia.Ufjc.LennardJones
