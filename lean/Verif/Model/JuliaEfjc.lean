/- Generated by tools/jl2lean.py from the mod.jl files of /repo/src/physics/single_chain/efjc ; do not edit by hand. -/
import Verif.Model.CEfjc
import Verif.Model.JuliaBase

set_option linter.unusedVariables false

open Polymers Polymers.Julia

variable {α : Type} [Add α] [Sub α] [Mul α] [Div α] [Neg α] [OfScientific α] [NatCast α] [Elem α]

namespace Polymers.Julia.Efjc.Thermodynamics.Isometric.Asymptotic.Alternative.Legendre

/-- `src/physics/single_chain/efjc/thermodynamics/isometric/asymptotic/alternative/legendre/mod.jl` lines 16-73: struct `EFJC`. -/
structure EFJC (α : Type) where
  /-- field `number_of_links::UInt8` -/
  number_of_links : Nat
  /-- field `link_length::Float64` -/
  link_length : α
  /-- field `hinge_mass::Float64` -/
  hinge_mass : α
  /-- field `link_stiffness::Float64` -/
  link_stiffness : α
  /-- field `force::Function` -/
  force : JArr α → JArr α → Option (JArr α)
  /-- field `nondimensional_force::Function` -/
  nondimensional_force : JArr α → JArr α → Option (JArr α)
  /-- field `helmholtz_free_energy::Function` -/
  helmholtz_free_energy : JArr α → JArr α → Option (JArr α)
  /-- field `helmholtz_free_energy_per_link::Function` -/
  helmholtz_free_energy_per_link : JArr α → JArr α → Option (JArr α)
  /-- field `relative_helmholtz_free_energy::Function` -/
  relative_helmholtz_free_energy : JArr α → JArr α → Option (JArr α)
  /-- field `relative_helmholtz_free_energy_per_link::Function` -/
  relative_helmholtz_free_energy_per_link : JArr α → JArr α → Option (JArr α)
  /-- field `nondimensional_helmholtz_free_energy::Function` -/
  nondimensional_helmholtz_free_energy : JArr α → JArr α → Option (JArr α)
  /-- field `nondimensional_helmholtz_free_energy_per_link::Function` -/
  nondimensional_helmholtz_free_energy_per_link : JArr α → JArr α → Option (JArr α)
  /-- field `nondimensional_relative_helmholtz_free_energy::Function` -/
  nondimensional_relative_helmholtz_free_energy : JArr α → JArr α → Option (JArr α)
  /-- field `nondimensional_relative_helmholtz_free_energy_per_link::Function` -/
  nondimensional_relative_helmholtz_free_energy_per_link : JArr α → JArr α → Option (JArr α)

end Polymers.Julia.Efjc.Thermodynamics.Isometric.Asymptotic.Alternative.Legendre

namespace Polymers.Julia.Efjc.Thermodynamics.Isometric.Asymptotic.Alternative

/-- `src/physics/single_chain/efjc/thermodynamics/isometric/asymptotic/alternative/mod.jl` lines 16-37: struct `EFJC`. -/
structure EFJC (α : Type) where
  /-- field `number_of_links::UInt8` -/
  number_of_links : Nat
  /-- field `link_length::Float64` -/
  link_length : α
  /-- field `hinge_mass::Float64` -/
  hinge_mass : α
  /-- field `link_stiffness::Float64` -/
  link_stiffness : α
  /-- field `legendre::Any` -/
  legendre : Polymers.Julia.Efjc.Thermodynamics.Isometric.Asymptotic.Alternative.Legendre.EFJC α

end Polymers.Julia.Efjc.Thermodynamics.Isometric.Asymptotic.Alternative

namespace Polymers.Julia.Efjc.Thermodynamics.Isometric.Asymptotic.Reduced.Legendre

/-- `src/physics/single_chain/efjc/thermodynamics/isometric/asymptotic/reduced/legendre/mod.jl` lines 16-73: struct `EFJC`. -/
structure EFJC (α : Type) where
  /-- field `number_of_links::UInt8` -/
  number_of_links : Nat
  /-- field `link_length::Float64` -/
  link_length : α
  /-- field `hinge_mass::Float64` -/
  hinge_mass : α
  /-- field `link_stiffness::Float64` -/
  link_stiffness : α
  /-- field `force::Function` -/
  force : JArr α → JArr α → Option (JArr α)
  /-- field `nondimensional_force::Function` -/
  nondimensional_force : JArr α → JArr α → Option (JArr α)
  /-- field `helmholtz_free_energy::Function` -/
  helmholtz_free_energy : JArr α → JArr α → Option (JArr α)
  /-- field `helmholtz_free_energy_per_link::Function` -/
  helmholtz_free_energy_per_link : JArr α → JArr α → Option (JArr α)
  /-- field `relative_helmholtz_free_energy::Function` -/
  relative_helmholtz_free_energy : JArr α → JArr α → Option (JArr α)
  /-- field `relative_helmholtz_free_energy_per_link::Function` -/
  relative_helmholtz_free_energy_per_link : JArr α → JArr α → Option (JArr α)
  /-- field `nondimensional_helmholtz_free_energy::Function` -/
  nondimensional_helmholtz_free_energy : JArr α → JArr α → Option (JArr α)
  /-- field `nondimensional_helmholtz_free_energy_per_link::Function` -/
  nondimensional_helmholtz_free_energy_per_link : JArr α → JArr α → Option (JArr α)
  /-- field `nondimensional_relative_helmholtz_free_energy::Function` -/
  nondimensional_relative_helmholtz_free_energy : JArr α → JArr α → Option (JArr α)
  /-- field `nondimensional_relative_helmholtz_free_energy_per_link::Function` -/
  nondimensional_relative_helmholtz_free_energy_per_link : JArr α → JArr α → Option (JArr α)

end Polymers.Julia.Efjc.Thermodynamics.Isometric.Asymptotic.Reduced.Legendre

namespace Polymers.Julia.Efjc.Thermodynamics.Isometric.Asymptotic.Reduced

/-- `src/physics/single_chain/efjc/thermodynamics/isometric/asymptotic/reduced/mod.jl` lines 16-37: struct `EFJC`. -/
structure EFJC (α : Type) where
  /-- field `number_of_links::UInt8` -/
  number_of_links : Nat
  /-- field `link_length::Float64` -/
  link_length : α
  /-- field `hinge_mass::Float64` -/
  hinge_mass : α
  /-- field `link_stiffness::Float64` -/
  link_stiffness : α
  /-- field `legendre::Any` -/
  legendre : Polymers.Julia.Efjc.Thermodynamics.Isometric.Asymptotic.Reduced.Legendre.EFJC α

end Polymers.Julia.Efjc.Thermodynamics.Isometric.Asymptotic.Reduced

namespace Polymers.Julia.Efjc.Thermodynamics.Isometric.Asymptotic.Legendre

/-- `src/physics/single_chain/efjc/thermodynamics/isometric/asymptotic/legendre/mod.jl` lines 16-73: struct `EFJC`. -/
structure EFJC (α : Type) where
  /-- field `number_of_links::UInt8` -/
  number_of_links : Nat
  /-- field `link_length::Float64` -/
  link_length : α
  /-- field `hinge_mass::Float64` -/
  hinge_mass : α
  /-- field `link_stiffness::Float64` -/
  link_stiffness : α
  /-- field `force::Function` -/
  force : JArr α → JArr α → Option (JArr α)
  /-- field `nondimensional_force::Function` -/
  nondimensional_force : JArr α → JArr α → Option (JArr α)
  /-- field `helmholtz_free_energy::Function` -/
  helmholtz_free_energy : JArr α → JArr α → Option (JArr α)
  /-- field `helmholtz_free_energy_per_link::Function` -/
  helmholtz_free_energy_per_link : JArr α → JArr α → Option (JArr α)
  /-- field `relative_helmholtz_free_energy::Function` -/
  relative_helmholtz_free_energy : JArr α → JArr α → Option (JArr α)
  /-- field `relative_helmholtz_free_energy_per_link::Function` -/
  relative_helmholtz_free_energy_per_link : JArr α → JArr α → Option (JArr α)
  /-- field `nondimensional_helmholtz_free_energy::Function` -/
  nondimensional_helmholtz_free_energy : JArr α → JArr α → Option (JArr α)
  /-- field `nondimensional_helmholtz_free_energy_per_link::Function` -/
  nondimensional_helmholtz_free_energy_per_link : JArr α → JArr α → Option (JArr α)
  /-- field `nondimensional_relative_helmholtz_free_energy::Function` -/
  nondimensional_relative_helmholtz_free_energy : JArr α → JArr α → Option (JArr α)
  /-- field `nondimensional_relative_helmholtz_free_energy_per_link::Function` -/
  nondimensional_relative_helmholtz_free_energy_per_link : JArr α → JArr α → Option (JArr α)

end Polymers.Julia.Efjc.Thermodynamics.Isometric.Asymptotic.Legendre

namespace Polymers.Julia.Efjc.Thermodynamics.Isometric.Asymptotic

/-- `src/physics/single_chain/efjc/thermodynamics/isometric/asymptotic/mod.jl` lines 18-47: struct `EFJC`. -/
structure EFJC (α : Type) where
  /-- field `number_of_links::UInt8` -/
  number_of_links : Nat
  /-- field `link_length::Float64` -/
  link_length : α
  /-- field `hinge_mass::Float64` -/
  hinge_mass : α
  /-- field `link_stiffness::Float64` -/
  link_stiffness : α
  /-- field `alternative::Any` -/
  alternative : Polymers.Julia.Efjc.Thermodynamics.Isometric.Asymptotic.Alternative.EFJC α
  /-- field `reduced::Any` -/
  reduced : Polymers.Julia.Efjc.Thermodynamics.Isometric.Asymptotic.Reduced.EFJC α
  /-- field `legendre::Any` -/
  legendre : Polymers.Julia.Efjc.Thermodynamics.Isometric.Asymptotic.Legendre.EFJC α

end Polymers.Julia.Efjc.Thermodynamics.Isometric.Asymptotic

namespace Polymers.Julia.Efjc.Thermodynamics.Isometric

/-- `src/physics/single_chain/efjc/thermodynamics/isometric/mod.jl` lines 16-37: struct `EFJC`. -/
structure EFJC (α : Type) where
  /-- field `number_of_links::UInt8` -/
  number_of_links : Nat
  /-- field `link_length::Float64` -/
  link_length : α
  /-- field `hinge_mass::Float64` -/
  hinge_mass : α
  /-- field `link_stiffness::Float64` -/
  link_stiffness : α
  /-- field `asymptotic::Any` -/
  asymptotic : Polymers.Julia.Efjc.Thermodynamics.Isometric.Asymptotic.EFJC α

end Polymers.Julia.Efjc.Thermodynamics.Isometric

namespace Polymers.Julia.Efjc.Thermodynamics.Isotensional.Asymptotic.Alternative.Legendre

/-- `src/physics/single_chain/efjc/thermodynamics/isotensional/asymptotic/alternative/legendre/mod.jl` lines 16-65: struct `EFJC`. -/
structure EFJC (α : Type) where
  /-- field `number_of_links::UInt8` -/
  number_of_links : Nat
  /-- field `link_length::Float64` -/
  link_length : α
  /-- field `hinge_mass::Float64` -/
  hinge_mass : α
  /-- field `link_stiffness::Float64` -/
  link_stiffness : α
  /-- field `helmholtz_free_energy::Function` -/
  helmholtz_free_energy : JArr α → JArr α → Option (JArr α)
  /-- field `helmholtz_free_energy_per_link::Function` -/
  helmholtz_free_energy_per_link : JArr α → JArr α → Option (JArr α)
  /-- field `relative_helmholtz_free_energy::Function` -/
  relative_helmholtz_free_energy : JArr α → JArr α → Option (JArr α)
  /-- field `relative_helmholtz_free_energy_per_link::Function` -/
  relative_helmholtz_free_energy_per_link : JArr α → JArr α → Option (JArr α)
  /-- field `nondimensional_helmholtz_free_energy::Function` -/
  nondimensional_helmholtz_free_energy : JArr α → JArr α → Option (JArr α)
  /-- field `nondimensional_helmholtz_free_energy_per_link::Function` -/
  nondimensional_helmholtz_free_energy_per_link : JArr α → JArr α → Option (JArr α)
  /-- field `nondimensional_relative_helmholtz_free_energy::Function` -/
  nondimensional_relative_helmholtz_free_energy : JArr α → JArr α → Option (JArr α)
  /-- field `nondimensional_relative_helmholtz_free_energy_per_link::Function` -/
  nondimensional_relative_helmholtz_free_energy_per_link : JArr α → JArr α → Option (JArr α)

end Polymers.Julia.Efjc.Thermodynamics.Isotensional.Asymptotic.Alternative.Legendre

namespace Polymers.Julia.Efjc.Thermodynamics.Isotensional.Asymptotic.Alternative

/-- `src/physics/single_chain/efjc/thermodynamics/isotensional/asymptotic/alternative/mod.jl` lines 19-88: struct `EFJC`. -/
structure EFJC (α : Type) where
  /-- field `number_of_links::UInt8` -/
  number_of_links : Nat
  /-- field `link_length::Float64` -/
  link_length : α
  /-- field `hinge_mass::Float64` -/
  hinge_mass : α
  /-- field `link_stiffness::Float64` -/
  link_stiffness : α
  /-- field `legendre::Any` -/
  legendre : Polymers.Julia.Efjc.Thermodynamics.Isotensional.Asymptotic.Alternative.Legendre.EFJC α
  /-- field `end_to_end_length::Function` -/
  end_to_end_length : JArr α → JArr α → Option (JArr α)
  /-- field `end_to_end_length_per_link::Function` -/
  end_to_end_length_per_link : JArr α → JArr α → Option (JArr α)
  /-- field `nondimensional_end_to_end_length::Function` -/
  nondimensional_end_to_end_length : JArr α → JArr α → Option (JArr α)
  /-- field `nondimensional_end_to_end_length_per_link::Function` -/
  nondimensional_end_to_end_length_per_link : JArr α → JArr α → Option (JArr α)
  /-- field `gibbs_free_energy::Function` -/
  gibbs_free_energy : JArr α → JArr α → Option (JArr α)
  /-- field `gibbs_free_energy_per_link::Function` -/
  gibbs_free_energy_per_link : JArr α → JArr α → Option (JArr α)
  /-- field `relative_gibbs_free_energy::Function` -/
  relative_gibbs_free_energy : JArr α → JArr α → Option (JArr α)
  /-- field `relative_gibbs_free_energy_per_link::Function` -/
  relative_gibbs_free_energy_per_link : JArr α → JArr α → Option (JArr α)
  /-- field `nondimensional_gibbs_free_energy::Function` -/
  nondimensional_gibbs_free_energy : JArr α → JArr α → Option (JArr α)
  /-- field `nondimensional_gibbs_free_energy_per_link::Function` -/
  nondimensional_gibbs_free_energy_per_link : JArr α → JArr α → Option (JArr α)
  /-- field `nondimensional_relative_gibbs_free_energy::Function` -/
  nondimensional_relative_gibbs_free_energy : JArr α → JArr α → Option (JArr α)
  /-- field `nondimensional_relative_gibbs_free_energy_per_link::Function` -/
  nondimensional_relative_gibbs_free_energy_per_link : JArr α → JArr α → Option (JArr α)

end Polymers.Julia.Efjc.Thermodynamics.Isotensional.Asymptotic.Alternative

namespace Polymers.Julia.Efjc.Thermodynamics.Isotensional.Asymptotic.Reduced.Legendre

/-- `src/physics/single_chain/efjc/thermodynamics/isotensional/asymptotic/reduced/legendre/mod.jl` lines 16-65: struct `EFJC`. -/
structure EFJC (α : Type) where
  /-- field `number_of_links::UInt8` -/
  number_of_links : Nat
  /-- field `link_length::Float64` -/
  link_length : α
  /-- field `hinge_mass::Float64` -/
  hinge_mass : α
  /-- field `link_stiffness::Float64` -/
  link_stiffness : α
  /-- field `helmholtz_free_energy::Function` -/
  helmholtz_free_energy : JArr α → JArr α → Option (JArr α)
  /-- field `helmholtz_free_energy_per_link::Function` -/
  helmholtz_free_energy_per_link : JArr α → JArr α → Option (JArr α)
  /-- field `relative_helmholtz_free_energy::Function` -/
  relative_helmholtz_free_energy : JArr α → JArr α → Option (JArr α)
  /-- field `relative_helmholtz_free_energy_per_link::Function` -/
  relative_helmholtz_free_energy_per_link : JArr α → JArr α → Option (JArr α)
  /-- field `nondimensional_helmholtz_free_energy::Function` -/
  nondimensional_helmholtz_free_energy : JArr α → JArr α → Option (JArr α)
  /-- field `nondimensional_helmholtz_free_energy_per_link::Function` -/
  nondimensional_helmholtz_free_energy_per_link : JArr α → JArr α → Option (JArr α)
  /-- field `nondimensional_relative_helmholtz_free_energy::Function` -/
  nondimensional_relative_helmholtz_free_energy : JArr α → JArr α → Option (JArr α)
  /-- field `nondimensional_relative_helmholtz_free_energy_per_link::Function` -/
  nondimensional_relative_helmholtz_free_energy_per_link : JArr α → JArr α → Option (JArr α)

end Polymers.Julia.Efjc.Thermodynamics.Isotensional.Asymptotic.Reduced.Legendre

namespace Polymers.Julia.Efjc.Thermodynamics.Isotensional.Asymptotic.Reduced

/-- `src/physics/single_chain/efjc/thermodynamics/isotensional/asymptotic/reduced/mod.jl` lines 19-88: struct `EFJC`. -/
structure EFJC (α : Type) where
  /-- field `number_of_links::UInt8` -/
  number_of_links : Nat
  /-- field `link_length::Float64` -/
  link_length : α
  /-- field `hinge_mass::Float64` -/
  hinge_mass : α
  /-- field `link_stiffness::Float64` -/
  link_stiffness : α
  /-- field `legendre::Any` -/
  legendre : Polymers.Julia.Efjc.Thermodynamics.Isotensional.Asymptotic.Reduced.Legendre.EFJC α
  /-- field `end_to_end_length::Function` -/
  end_to_end_length : JArr α → JArr α → Option (JArr α)
  /-- field `end_to_end_length_per_link::Function` -/
  end_to_end_length_per_link : JArr α → JArr α → Option (JArr α)
  /-- field `nondimensional_end_to_end_length::Function` -/
  nondimensional_end_to_end_length : JArr α → JArr α → Option (JArr α)
  /-- field `nondimensional_end_to_end_length_per_link::Function` -/
  nondimensional_end_to_end_length_per_link : JArr α → JArr α → Option (JArr α)
  /-- field `gibbs_free_energy::Function` -/
  gibbs_free_energy : JArr α → JArr α → Option (JArr α)
  /-- field `gibbs_free_energy_per_link::Function` -/
  gibbs_free_energy_per_link : JArr α → JArr α → Option (JArr α)
  /-- field `relative_gibbs_free_energy::Function` -/
  relative_gibbs_free_energy : JArr α → JArr α → Option (JArr α)
  /-- field `relative_gibbs_free_energy_per_link::Function` -/
  relative_gibbs_free_energy_per_link : JArr α → JArr α → Option (JArr α)
  /-- field `nondimensional_gibbs_free_energy::Function` -/
  nondimensional_gibbs_free_energy : JArr α → JArr α → Option (JArr α)
  /-- field `nondimensional_gibbs_free_energy_per_link::Function` -/
  nondimensional_gibbs_free_energy_per_link : JArr α → JArr α → Option (JArr α)
  /-- field `nondimensional_relative_gibbs_free_energy::Function` -/
  nondimensional_relative_gibbs_free_energy : JArr α → JArr α → Option (JArr α)
  /-- field `nondimensional_relative_gibbs_free_energy_per_link::Function` -/
  nondimensional_relative_gibbs_free_energy_per_link : JArr α → JArr α → Option (JArr α)

end Polymers.Julia.Efjc.Thermodynamics.Isotensional.Asymptotic.Reduced

namespace Polymers.Julia.Efjc.Thermodynamics.Isotensional.Asymptotic.Legendre

/-- `src/physics/single_chain/efjc/thermodynamics/isotensional/asymptotic/legendre/mod.jl` lines 16-65: struct `EFJC`. -/
structure EFJC (α : Type) where
  /-- field `number_of_links::UInt8` -/
  number_of_links : Nat
  /-- field `link_length::Float64` -/
  link_length : α
  /-- field `hinge_mass::Float64` -/
  hinge_mass : α
  /-- field `link_stiffness::Float64` -/
  link_stiffness : α
  /-- field `helmholtz_free_energy::Function` -/
  helmholtz_free_energy : JArr α → JArr α → Option (JArr α)
  /-- field `helmholtz_free_energy_per_link::Function` -/
  helmholtz_free_energy_per_link : JArr α → JArr α → Option (JArr α)
  /-- field `relative_helmholtz_free_energy::Function` -/
  relative_helmholtz_free_energy : JArr α → JArr α → Option (JArr α)
  /-- field `relative_helmholtz_free_energy_per_link::Function` -/
  relative_helmholtz_free_energy_per_link : JArr α → JArr α → Option (JArr α)
  /-- field `nondimensional_helmholtz_free_energy::Function` -/
  nondimensional_helmholtz_free_energy : JArr α → JArr α → Option (JArr α)
  /-- field `nondimensional_helmholtz_free_energy_per_link::Function` -/
  nondimensional_helmholtz_free_energy_per_link : JArr α → JArr α → Option (JArr α)
  /-- field `nondimensional_relative_helmholtz_free_energy::Function` -/
  nondimensional_relative_helmholtz_free_energy : JArr α → JArr α → Option (JArr α)
  /-- field `nondimensional_relative_helmholtz_free_energy_per_link::Function` -/
  nondimensional_relative_helmholtz_free_energy_per_link : JArr α → JArr α → Option (JArr α)

end Polymers.Julia.Efjc.Thermodynamics.Isotensional.Asymptotic.Legendre

namespace Polymers.Julia.Efjc.Thermodynamics.Isotensional.Asymptotic

/-- `src/physics/single_chain/efjc/thermodynamics/isotensional/asymptotic/mod.jl` lines 21-98: struct `EFJC`. -/
structure EFJC (α : Type) where
  /-- field `number_of_links::UInt8` -/
  number_of_links : Nat
  /-- field `link_length::Float64` -/
  link_length : α
  /-- field `hinge_mass::Float64` -/
  hinge_mass : α
  /-- field `link_stiffness::Float64` -/
  link_stiffness : α
  /-- field `alternative::Any` -/
  alternative : Polymers.Julia.Efjc.Thermodynamics.Isotensional.Asymptotic.Alternative.EFJC α
  /-- field `reduced::Any` -/
  reduced : Polymers.Julia.Efjc.Thermodynamics.Isotensional.Asymptotic.Reduced.EFJC α
  /-- field `legendre::Any` -/
  legendre : Polymers.Julia.Efjc.Thermodynamics.Isotensional.Asymptotic.Legendre.EFJC α
  /-- field `end_to_end_length::Function` -/
  end_to_end_length : JArr α → JArr α → Option (JArr α)
  /-- field `end_to_end_length_per_link::Function` -/
  end_to_end_length_per_link : JArr α → JArr α → Option (JArr α)
  /-- field `nondimensional_end_to_end_length::Function` -/
  nondimensional_end_to_end_length : JArr α → JArr α → Option (JArr α)
  /-- field `nondimensional_end_to_end_length_per_link::Function` -/
  nondimensional_end_to_end_length_per_link : JArr α → JArr α → Option (JArr α)
  /-- field `gibbs_free_energy::Function` -/
  gibbs_free_energy : JArr α → JArr α → Option (JArr α)
  /-- field `gibbs_free_energy_per_link::Function` -/
  gibbs_free_energy_per_link : JArr α → JArr α → Option (JArr α)
  /-- field `relative_gibbs_free_energy::Function` -/
  relative_gibbs_free_energy : JArr α → JArr α → Option (JArr α)
  /-- field `relative_gibbs_free_energy_per_link::Function` -/
  relative_gibbs_free_energy_per_link : JArr α → JArr α → Option (JArr α)
  /-- field `nondimensional_gibbs_free_energy::Function` -/
  nondimensional_gibbs_free_energy : JArr α → JArr α → Option (JArr α)
  /-- field `nondimensional_gibbs_free_energy_per_link::Function` -/
  nondimensional_gibbs_free_energy_per_link : JArr α → JArr α → Option (JArr α)
  /-- field `nondimensional_relative_gibbs_free_energy::Function` -/
  nondimensional_relative_gibbs_free_energy : JArr α → JArr α → Option (JArr α)
  /-- field `nondimensional_relative_gibbs_free_energy_per_link::Function` -/
  nondimensional_relative_gibbs_free_energy_per_link : JArr α → JArr α → Option (JArr α)

end Polymers.Julia.Efjc.Thermodynamics.Isotensional.Asymptotic

namespace Polymers.Julia.Efjc.Thermodynamics.Isotensional.Legendre

/-- `src/physics/single_chain/efjc/thermodynamics/isotensional/legendre/mod.jl` lines 16-65: struct `EFJC`. -/
structure EFJC (α : Type) where
  /-- field `number_of_links::UInt8` -/
  number_of_links : Nat
  /-- field `link_length::Float64` -/
  link_length : α
  /-- field `hinge_mass::Float64` -/
  hinge_mass : α
  /-- field `link_stiffness::Float64` -/
  link_stiffness : α
  /-- field `helmholtz_free_energy::Function` -/
  helmholtz_free_energy : JArr α → JArr α → Option (JArr α)
  /-- field `helmholtz_free_energy_per_link::Function` -/
  helmholtz_free_energy_per_link : JArr α → JArr α → Option (JArr α)
  /-- field `relative_helmholtz_free_energy::Function` -/
  relative_helmholtz_free_energy : JArr α → JArr α → Option (JArr α)
  /-- field `relative_helmholtz_free_energy_per_link::Function` -/
  relative_helmholtz_free_energy_per_link : JArr α → JArr α → Option (JArr α)
  /-- field `nondimensional_helmholtz_free_energy::Function` -/
  nondimensional_helmholtz_free_energy : JArr α → JArr α → Option (JArr α)
  /-- field `nondimensional_helmholtz_free_energy_per_link::Function` -/
  nondimensional_helmholtz_free_energy_per_link : JArr α → JArr α → Option (JArr α)
  /-- field `nondimensional_relative_helmholtz_free_energy::Function` -/
  nondimensional_relative_helmholtz_free_energy : JArr α → JArr α → Option (JArr α)
  /-- field `nondimensional_relative_helmholtz_free_energy_per_link::Function` -/
  nondimensional_relative_helmholtz_free_energy_per_link : JArr α → JArr α → Option (JArr α)

end Polymers.Julia.Efjc.Thermodynamics.Isotensional.Legendre

namespace Polymers.Julia.Efjc.Thermodynamics.Isotensional

/-- `src/physics/single_chain/efjc/thermodynamics/isotensional/mod.jl` lines 20-93: struct `EFJC`. -/
structure EFJC (α : Type) where
  /-- field `number_of_links::UInt8` -/
  number_of_links : Nat
  /-- field `link_length::Float64` -/
  link_length : α
  /-- field `hinge_mass::Float64` -/
  hinge_mass : α
  /-- field `link_stiffness::Float64` -/
  link_stiffness : α
  /-- field `asymptotic::Any` -/
  asymptotic : Polymers.Julia.Efjc.Thermodynamics.Isotensional.Asymptotic.EFJC α
  /-- field `legendre::Any` -/
  legendre : Polymers.Julia.Efjc.Thermodynamics.Isotensional.Legendre.EFJC α
  /-- field `end_to_end_length::Function` -/
  end_to_end_length : JArr α → JArr α → Option (JArr α)
  /-- field `end_to_end_length_per_link::Function` -/
  end_to_end_length_per_link : JArr α → JArr α → Option (JArr α)
  /-- field `nondimensional_end_to_end_length::Function` -/
  nondimensional_end_to_end_length : JArr α → JArr α → Option (JArr α)
  /-- field `nondimensional_end_to_end_length_per_link::Function` -/
  nondimensional_end_to_end_length_per_link : JArr α → JArr α → Option (JArr α)
  /-- field `gibbs_free_energy::Function` -/
  gibbs_free_energy : JArr α → JArr α → Option (JArr α)
  /-- field `gibbs_free_energy_per_link::Function` -/
  gibbs_free_energy_per_link : JArr α → JArr α → Option (JArr α)
  /-- field `relative_gibbs_free_energy::Function` -/
  relative_gibbs_free_energy : JArr α → JArr α → Option (JArr α)
  /-- field `relative_gibbs_free_energy_per_link::Function` -/
  relative_gibbs_free_energy_per_link : JArr α → JArr α → Option (JArr α)
  /-- field `nondimensional_gibbs_free_energy::Function` -/
  nondimensional_gibbs_free_energy : JArr α → JArr α → Option (JArr α)
  /-- field `nondimensional_gibbs_free_energy_per_link::Function` -/
  nondimensional_gibbs_free_energy_per_link : JArr α → JArr α → Option (JArr α)
  /-- field `nondimensional_relative_gibbs_free_energy::Function` -/
  nondimensional_relative_gibbs_free_energy : JArr α → JArr α → Option (JArr α)
  /-- field `nondimensional_relative_gibbs_free_energy_per_link::Function` -/
  nondimensional_relative_gibbs_free_energy_per_link : JArr α → JArr α → Option (JArr α)

end Polymers.Julia.Efjc.Thermodynamics.Isotensional

namespace Polymers.Julia.Efjc.Thermodynamics

/-- `src/physics/single_chain/efjc/thermodynamics/mod.jl` lines 16-41: struct `EFJC`. -/
structure EFJC (α : Type) where
  /-- field `number_of_links::UInt8` -/
  number_of_links : Nat
  /-- field `link_length::Float64` -/
  link_length : α
  /-- field `hinge_mass::Float64` -/
  hinge_mass : α
  /-- field `link_stiffness::Float64` -/
  link_stiffness : α
  /-- field `isometric::Any` -/
  isometric : Polymers.Julia.Efjc.Thermodynamics.Isometric.EFJC α
  /-- field `isotensional::Any` -/
  isotensional : Polymers.Julia.Efjc.Thermodynamics.Isotensional.EFJC α

end Polymers.Julia.Efjc.Thermodynamics

namespace Polymers.Julia.Efjc

/-- `src/physics/single_chain/efjc/mod.jl` lines 15-36: struct `EFJC`. -/
structure EFJC (α : Type) where
  /-- field `number_of_links::UInt8` -/
  number_of_links : Nat
  /-- field `link_length::Float64` -/
  link_length : α
  /-- field `hinge_mass::Float64` -/
  hinge_mass : α
  /-- field `link_stiffness::Float64` -/
  link_stiffness : α
  /-- field `thermodynamics::Any` -/
  thermodynamics : Polymers.Julia.Efjc.Thermodynamics.EFJC α

end Polymers.Julia.Efjc

namespace Polymers.Julia.Efjc.Thermodynamics.Isometric.Asymptotic.Alternative.Legendre

/-- `src/physics/single_chain/efjc/thermodynamics/isometric/asymptotic/alternative/legendre/mod.jl` lines 81-114. -/
def force (number_of_links : JArr Nat) (link_length : JArr α) (link_stiffness : JArr α) (end_to_end_length : JArr α) (temperature : JArr α) : Option (JArr α) :=
  JArr.ap (JArr.ap (JArr.ap (JArr.ap (JArr.map (fun (number_of_links_i : Nat) (link_length_i : α) (link_stiffness_i : α) (end_to_end_length_i : α) (temperature_i : α) => Polymers.C.physics_single_chain_efjc_thermodynamics_isometric_asymptotic_alternative_legendre_force number_of_links_i link_length_i link_stiffness_i end_to_end_length_i temperature_i) number_of_links) link_length) link_stiffness) end_to_end_length) temperature

/-- `src/physics/single_chain/efjc/thermodynamics/isometric/asymptotic/alternative/legendre/mod.jl` lines 122-141. -/
def nondimensional_force (nondimensional_link_stiffness : JArr α) (nondimensional_end_to_end_length_per_link : JArr α) : Option (JArr α) :=
  JArr.ap (JArr.map (fun (nondimensional_link_stiffness_i : α) (nondimensional_end_to_end_length_per_link_i : α) => Polymers.C.physics_single_chain_efjc_thermodynamics_isometric_asymptotic_alternative_legendre_nondimensional_force nondimensional_link_stiffness_i nondimensional_end_to_end_length_per_link_i) nondimensional_link_stiffness) nondimensional_end_to_end_length_per_link

/-- `src/physics/single_chain/efjc/thermodynamics/isometric/asymptotic/alternative/legendre/mod.jl` lines 155-192. -/
def helmholtz_free_energy (number_of_links : JArr Nat) (link_length : JArr α) (hinge_mass : JArr α) (link_stiffness : JArr α) (end_to_end_length : JArr α) (temperature : JArr α) : Option (JArr α) :=
  JArr.ap (JArr.ap (JArr.ap (JArr.ap (JArr.ap (JArr.map (fun (number_of_links_i : Nat) (link_length_i : α) (hinge_mass_i : α) (link_stiffness_i : α) (end_to_end_length_i : α) (temperature_i : α) => Polymers.C.physics_single_chain_efjc_thermodynamics_isometric_asymptotic_alternative_legendre_helmholtz_free_energy number_of_links_i link_length_i hinge_mass_i link_stiffness_i end_to_end_length_i temperature_i) number_of_links) link_length) hinge_mass) link_stiffness) end_to_end_length) temperature

/-- `src/physics/single_chain/efjc/thermodynamics/isometric/asymptotic/alternative/legendre/mod.jl` lines 200-237. -/
def helmholtz_free_energy_per_link (number_of_links : JArr Nat) (link_length : JArr α) (hinge_mass : JArr α) (link_stiffness : JArr α) (end_to_end_length : JArr α) (temperature : JArr α) : Option (JArr α) :=
  JArr.ap (JArr.ap (JArr.ap (JArr.ap (JArr.ap (JArr.map (fun (number_of_links_i : Nat) (link_length_i : α) (hinge_mass_i : α) (link_stiffness_i : α) (end_to_end_length_i : α) (temperature_i : α) => Polymers.C.physics_single_chain_efjc_thermodynamics_isometric_asymptotic_alternative_legendre_helmholtz_free_energy_per_link number_of_links_i link_length_i hinge_mass_i link_stiffness_i end_to_end_length_i temperature_i) number_of_links) link_length) hinge_mass) link_stiffness) end_to_end_length) temperature

/-- `src/physics/single_chain/efjc/thermodynamics/isometric/asymptotic/alternative/legendre/mod.jl` lines 245-278. -/
def relative_helmholtz_free_energy (number_of_links : JArr Nat) (link_length : JArr α) (link_stiffness : JArr α) (end_to_end_length : JArr α) (temperature : JArr α) : Option (JArr α) :=
  JArr.ap (JArr.ap (JArr.ap (JArr.ap (JArr.map (fun (number_of_links_i : Nat) (link_length_i : α) (link_stiffness_i : α) (end_to_end_length_i : α) (temperature_i : α) => Polymers.C.physics_single_chain_efjc_thermodynamics_isometric_asymptotic_alternative_legendre_relative_helmholtz_free_energy number_of_links_i link_length_i link_stiffness_i end_to_end_length_i temperature_i) number_of_links) link_length) link_stiffness) end_to_end_length) temperature

/-- `src/physics/single_chain/efjc/thermodynamics/isometric/asymptotic/alternative/legendre/mod.jl` lines 286-319. -/
def relative_helmholtz_free_energy_per_link (number_of_links : JArr Nat) (link_length : JArr α) (link_stiffness : JArr α) (end_to_end_length : JArr α) (temperature : JArr α) : Option (JArr α) :=
  JArr.ap (JArr.ap (JArr.ap (JArr.ap (JArr.map (fun (number_of_links_i : Nat) (link_length_i : α) (link_stiffness_i : α) (end_to_end_length_i : α) (temperature_i : α) => Polymers.C.physics_single_chain_efjc_thermodynamics_isometric_asymptotic_alternative_legendre_relative_helmholtz_free_energy_per_link number_of_links_i link_length_i link_stiffness_i end_to_end_length_i temperature_i) number_of_links) link_length) link_stiffness) end_to_end_length) temperature

/-- `src/physics/single_chain/efjc/thermodynamics/isometric/asymptotic/alternative/legendre/mod.jl` lines 327-364. -/
def nondimensional_helmholtz_free_energy (number_of_links : JArr Nat) (link_length : JArr α) (hinge_mass : JArr α) (nondimensional_link_stiffness : JArr α) (nondimensional_end_to_end_length_per_link : JArr α) (temperature : JArr α) : Option (JArr α) :=
  JArr.ap (JArr.ap (JArr.ap (JArr.ap (JArr.ap (JArr.map (fun (number_of_links_i : Nat) (link_length_i : α) (hinge_mass_i : α) (nondimensional_link_stiffness_i : α) (nondimensional_end_to_end_length_per_link_i : α) (temperature_i : α) => Polymers.C.physics_single_chain_efjc_thermodynamics_isometric_asymptotic_alternative_legendre_nondimensional_helmholtz_free_energy number_of_links_i link_length_i hinge_mass_i nondimensional_link_stiffness_i nondimensional_end_to_end_length_per_link_i temperature_i) number_of_links) link_length) hinge_mass) nondimensional_link_stiffness) nondimensional_end_to_end_length_per_link) temperature

/-- `src/physics/single_chain/efjc/thermodynamics/isometric/asymptotic/alternative/legendre/mod.jl` lines 372-409. -/
def nondimensional_helmholtz_free_energy_per_link (number_of_links : JArr Nat) (link_length : JArr α) (hinge_mass : JArr α) (nondimensional_link_stiffness : JArr α) (nondimensional_end_to_end_length_per_link : JArr α) (temperature : JArr α) : Option (JArr α) :=
  JArr.ap (JArr.ap (JArr.ap (JArr.ap (JArr.ap (JArr.map (fun (number_of_links_i : Nat) (link_length_i : α) (hinge_mass_i : α) (nondimensional_link_stiffness_i : α) (nondimensional_end_to_end_length_per_link_i : α) (temperature_i : α) => Polymers.C.physics_single_chain_efjc_thermodynamics_isometric_asymptotic_alternative_legendre_nondimensional_helmholtz_free_energy_per_link number_of_links_i link_length_i hinge_mass_i nondimensional_link_stiffness_i nondimensional_end_to_end_length_per_link_i temperature_i) number_of_links) link_length) hinge_mass) nondimensional_link_stiffness) nondimensional_end_to_end_length_per_link) temperature

/-- `src/physics/single_chain/efjc/thermodynamics/isometric/asymptotic/alternative/legendre/mod.jl` lines 417-442. -/
def nondimensional_relative_helmholtz_free_energy (number_of_links : JArr Nat) (nondimensional_link_stiffness : JArr α) (nondimensional_end_to_end_length_per_link : JArr α) : Option (JArr α) :=
  JArr.ap (JArr.ap (JArr.map (fun (number_of_links_i : Nat) (nondimensional_link_stiffness_i : α) (nondimensional_end_to_end_length_per_link_i : α) => Polymers.C.physics_single_chain_efjc_thermodynamics_isometric_asymptotic_alternative_legendre_nondimensional_relative_helmholtz_free_energy number_of_links_i nondimensional_link_stiffness_i nondimensional_end_to_end_length_per_link_i) number_of_links) nondimensional_link_stiffness) nondimensional_end_to_end_length_per_link

/-- `src/physics/single_chain/efjc/thermodynamics/isometric/asymptotic/alternative/legendre/mod.jl` lines 450-469. -/
def nondimensional_relative_helmholtz_free_energy_per_link (nondimensional_link_stiffness : JArr α) (nondimensional_end_to_end_length_per_link : JArr α) : Option (JArr α) :=
  JArr.ap (JArr.map (fun (nondimensional_link_stiffness_i : α) (nondimensional_end_to_end_length_per_link_i : α) => Polymers.C.physics_single_chain_efjc_thermodynamics_isometric_asymptotic_alternative_legendre_nondimensional_relative_helmholtz_free_energy_per_link nondimensional_link_stiffness_i nondimensional_end_to_end_length_per_link_i) nondimensional_link_stiffness) nondimensional_end_to_end_length_per_link

/-- `src/physics/single_chain/efjc/thermodynamics/isometric/asymptotic/alternative/legendre/mod.jl` lines 476-559. -/
def EFJC.new (other : α → JArr α → Option (JArr α)) (number_of_links : Nat) (link_length : α) (hinge_mass : α) (link_stiffness : α) : Polymers.Julia.Efjc.Thermodynamics.Isometric.Asymptotic.Alternative.Legendre.EFJC α :=
  let BOLTZMANN_CONSTANT : α := 8.314462618
  Polymers.Julia.Efjc.Thermodynamics.Isometric.Asymptotic.Alternative.Legendre.EFJC.mk
    number_of_links
    link_length
    hinge_mass
    link_stiffness
    (fun (end_to_end_length : JArr α) (temperature : JArr α) => Polymers.Julia.Efjc.Thermodynamics.Isometric.Asymptotic.Alternative.Legendre.force (JArr.scalar number_of_links) (JArr.scalar link_length) (JArr.scalar link_stiffness) end_to_end_length temperature)
    (fun (nondimensional_end_to_end_length_per_link : JArr α) (temperature : JArr α) => (JArr.quotient other (link_stiffness * Elem.powi link_length 2 / BOLTZMANN_CONSTANT) temperature).bind fun q0 => Polymers.Julia.Efjc.Thermodynamics.Isometric.Asymptotic.Alternative.Legendre.nondimensional_force q0 nondimensional_end_to_end_length_per_link)
    (fun (end_to_end_length : JArr α) (temperature : JArr α) => Polymers.Julia.Efjc.Thermodynamics.Isometric.Asymptotic.Alternative.Legendre.helmholtz_free_energy (JArr.scalar number_of_links) (JArr.scalar link_length) (JArr.scalar hinge_mass) (JArr.scalar link_stiffness) end_to_end_length temperature)
    (fun (end_to_end_length : JArr α) (temperature : JArr α) => Polymers.Julia.Efjc.Thermodynamics.Isometric.Asymptotic.Alternative.Legendre.helmholtz_free_energy_per_link (JArr.scalar number_of_links) (JArr.scalar link_length) (JArr.scalar hinge_mass) (JArr.scalar link_stiffness) end_to_end_length temperature)
    (fun (end_to_end_length : JArr α) (temperature : JArr α) => Polymers.Julia.Efjc.Thermodynamics.Isometric.Asymptotic.Alternative.Legendre.relative_helmholtz_free_energy (JArr.scalar number_of_links) (JArr.scalar link_length) (JArr.scalar link_stiffness) end_to_end_length temperature)
    (fun (end_to_end_length : JArr α) (temperature : JArr α) => Polymers.Julia.Efjc.Thermodynamics.Isometric.Asymptotic.Alternative.Legendre.relative_helmholtz_free_energy_per_link (JArr.scalar number_of_links) (JArr.scalar link_length) (JArr.scalar link_stiffness) end_to_end_length temperature)
    (fun (nondimensional_end_to_end_length_per_link : JArr α) (temperature : JArr α) => (JArr.quotient other (link_stiffness * Elem.powi link_length 2 / BOLTZMANN_CONSTANT) temperature).bind fun q3 => Polymers.Julia.Efjc.Thermodynamics.Isometric.Asymptotic.Alternative.Legendre.nondimensional_helmholtz_free_energy (JArr.scalar number_of_links) (JArr.scalar link_length) (JArr.scalar hinge_mass) q3 nondimensional_end_to_end_length_per_link temperature)
    (fun (nondimensional_end_to_end_length_per_link : JArr α) (temperature : JArr α) => (JArr.quotient other (link_stiffness * Elem.powi link_length 2 / BOLTZMANN_CONSTANT) temperature).bind fun q3 => Polymers.Julia.Efjc.Thermodynamics.Isometric.Asymptotic.Alternative.Legendre.nondimensional_helmholtz_free_energy_per_link (JArr.scalar number_of_links) (JArr.scalar link_length) (JArr.scalar hinge_mass) q3 nondimensional_end_to_end_length_per_link temperature)
    (fun (nondimensional_end_to_end_length_per_link : JArr α) (temperature : JArr α) => (JArr.quotient other (link_stiffness * Elem.powi link_length 2 / BOLTZMANN_CONSTANT) temperature).bind fun q1 => Polymers.Julia.Efjc.Thermodynamics.Isometric.Asymptotic.Alternative.Legendre.nondimensional_relative_helmholtz_free_energy (JArr.scalar number_of_links) q1 nondimensional_end_to_end_length_per_link)
    (fun (nondimensional_end_to_end_length_per_link : JArr α) (temperature : JArr α) => (JArr.quotient other (link_stiffness * Elem.powi link_length 2 / BOLTZMANN_CONSTANT) temperature).bind fun q0 => Polymers.Julia.Efjc.Thermodynamics.Isometric.Asymptotic.Alternative.Legendre.nondimensional_relative_helmholtz_free_energy_per_link q0 nondimensional_end_to_end_length_per_link)

end Polymers.Julia.Efjc.Thermodynamics.Isometric.Asymptotic.Alternative.Legendre

namespace Polymers.Julia.Efjc.Thermodynamics.Isometric.Asymptotic.Alternative

/-- `src/physics/single_chain/efjc/thermodynamics/isometric/asymptotic/alternative/mod.jl` lines 44-57. -/
def EFJC.new (other : α → JArr α → Option (JArr α)) (number_of_links : Nat) (link_length : α) (hinge_mass : α) (link_stiffness : α) : Polymers.Julia.Efjc.Thermodynamics.Isometric.Asymptotic.Alternative.EFJC α :=
  Polymers.Julia.Efjc.Thermodynamics.Isometric.Asymptotic.Alternative.EFJC.mk
    number_of_links
    link_length
    hinge_mass
    link_stiffness
    (Polymers.Julia.Efjc.Thermodynamics.Isometric.Asymptotic.Alternative.Legendre.EFJC.new other number_of_links link_length hinge_mass link_stiffness)

end Polymers.Julia.Efjc.Thermodynamics.Isometric.Asymptotic.Alternative

namespace Polymers.Julia.Efjc.Thermodynamics.Isometric.Asymptotic.Reduced.Legendre

/-- `src/physics/single_chain/efjc/thermodynamics/isometric/asymptotic/reduced/legendre/mod.jl` lines 81-114. -/
def force (number_of_links : JArr Nat) (link_length : JArr α) (link_stiffness : JArr α) (end_to_end_length : JArr α) (temperature : JArr α) : Option (JArr α) :=
  JArr.ap (JArr.ap (JArr.ap (JArr.ap (JArr.map (fun (number_of_links_i : Nat) (link_length_i : α) (link_stiffness_i : α) (end_to_end_length_i : α) (temperature_i : α) => Polymers.C.physics_single_chain_efjc_thermodynamics_isometric_asymptotic_reduced_legendre_force number_of_links_i link_length_i link_stiffness_i end_to_end_length_i temperature_i) number_of_links) link_length) link_stiffness) end_to_end_length) temperature

/-- `src/physics/single_chain/efjc/thermodynamics/isometric/asymptotic/reduced/legendre/mod.jl` lines 122-141. -/
def nondimensional_force (nondimensional_link_stiffness : JArr α) (nondimensional_end_to_end_length_per_link : JArr α) : Option (JArr α) :=
  JArr.ap (JArr.map (fun (nondimensional_link_stiffness_i : α) (nondimensional_end_to_end_length_per_link_i : α) => Polymers.C.physics_single_chain_efjc_thermodynamics_isometric_asymptotic_reduced_legendre_nondimensional_force nondimensional_link_stiffness_i nondimensional_end_to_end_length_per_link_i) nondimensional_link_stiffness) nondimensional_end_to_end_length_per_link

/-- `src/physics/single_chain/efjc/thermodynamics/isometric/asymptotic/reduced/legendre/mod.jl` lines 155-192. -/
def helmholtz_free_energy (number_of_links : JArr Nat) (link_length : JArr α) (hinge_mass : JArr α) (link_stiffness : JArr α) (end_to_end_length : JArr α) (temperature : JArr α) : Option (JArr α) :=
  JArr.ap (JArr.ap (JArr.ap (JArr.ap (JArr.ap (JArr.map (fun (number_of_links_i : Nat) (link_length_i : α) (hinge_mass_i : α) (link_stiffness_i : α) (end_to_end_length_i : α) (temperature_i : α) => Polymers.C.physics_single_chain_efjc_thermodynamics_isometric_asymptotic_reduced_legendre_helmholtz_free_energy number_of_links_i link_length_i hinge_mass_i link_stiffness_i end_to_end_length_i temperature_i) number_of_links) link_length) hinge_mass) link_stiffness) end_to_end_length) temperature

/-- `src/physics/single_chain/efjc/thermodynamics/isometric/asymptotic/reduced/legendre/mod.jl` lines 200-237. -/
def helmholtz_free_energy_per_link (number_of_links : JArr Nat) (link_length : JArr α) (hinge_mass : JArr α) (link_stiffness : JArr α) (end_to_end_length : JArr α) (temperature : JArr α) : Option (JArr α) :=
  JArr.ap (JArr.ap (JArr.ap (JArr.ap (JArr.ap (JArr.map (fun (number_of_links_i : Nat) (link_length_i : α) (hinge_mass_i : α) (link_stiffness_i : α) (end_to_end_length_i : α) (temperature_i : α) => Polymers.C.physics_single_chain_efjc_thermodynamics_isometric_asymptotic_reduced_legendre_helmholtz_free_energy_per_link number_of_links_i link_length_i hinge_mass_i link_stiffness_i end_to_end_length_i temperature_i) number_of_links) link_length) hinge_mass) link_stiffness) end_to_end_length) temperature

/-- `src/physics/single_chain/efjc/thermodynamics/isometric/asymptotic/reduced/legendre/mod.jl` lines 245-278. -/
def relative_helmholtz_free_energy (number_of_links : JArr Nat) (link_length : JArr α) (link_stiffness : JArr α) (end_to_end_length : JArr α) (temperature : JArr α) : Option (JArr α) :=
  JArr.ap (JArr.ap (JArr.ap (JArr.ap (JArr.map (fun (number_of_links_i : Nat) (link_length_i : α) (link_stiffness_i : α) (end_to_end_length_i : α) (temperature_i : α) => Polymers.C.physics_single_chain_efjc_thermodynamics_isometric_asymptotic_reduced_legendre_relative_helmholtz_free_energy number_of_links_i link_length_i link_stiffness_i end_to_end_length_i temperature_i) number_of_links) link_length) link_stiffness) end_to_end_length) temperature

/-- `src/physics/single_chain/efjc/thermodynamics/isometric/asymptotic/reduced/legendre/mod.jl` lines 286-319. -/
def relative_helmholtz_free_energy_per_link (number_of_links : JArr Nat) (link_length : JArr α) (link_stiffness : JArr α) (end_to_end_length : JArr α) (temperature : JArr α) : Option (JArr α) :=
  JArr.ap (JArr.ap (JArr.ap (JArr.ap (JArr.map (fun (number_of_links_i : Nat) (link_length_i : α) (link_stiffness_i : α) (end_to_end_length_i : α) (temperature_i : α) => Polymers.C.physics_single_chain_efjc_thermodynamics_isometric_asymptotic_reduced_legendre_relative_helmholtz_free_energy_per_link number_of_links_i link_length_i link_stiffness_i end_to_end_length_i temperature_i) number_of_links) link_length) link_stiffness) end_to_end_length) temperature

/-- `src/physics/single_chain/efjc/thermodynamics/isometric/asymptotic/reduced/legendre/mod.jl` lines 327-364. -/
def nondimensional_helmholtz_free_energy (number_of_links : JArr Nat) (link_length : JArr α) (hinge_mass : JArr α) (nondimensional_link_stiffness : JArr α) (nondimensional_end_to_end_length_per_link : JArr α) (temperature : JArr α) : Option (JArr α) :=
  JArr.ap (JArr.ap (JArr.ap (JArr.ap (JArr.ap (JArr.map (fun (number_of_links_i : Nat) (link_length_i : α) (hinge_mass_i : α) (nondimensional_link_stiffness_i : α) (nondimensional_end_to_end_length_per_link_i : α) (temperature_i : α) => Polymers.C.physics_single_chain_efjc_thermodynamics_isometric_asymptotic_reduced_legendre_nondimensional_helmholtz_free_energy number_of_links_i link_length_i hinge_mass_i nondimensional_link_stiffness_i nondimensional_end_to_end_length_per_link_i temperature_i) number_of_links) link_length) hinge_mass) nondimensional_link_stiffness) nondimensional_end_to_end_length_per_link) temperature

/-- `src/physics/single_chain/efjc/thermodynamics/isometric/asymptotic/reduced/legendre/mod.jl` lines 372-409. -/
def nondimensional_helmholtz_free_energy_per_link (number_of_links : JArr Nat) (link_length : JArr α) (hinge_mass : JArr α) (nondimensional_link_stiffness : JArr α) (nondimensional_end_to_end_length_per_link : JArr α) (temperature : JArr α) : Option (JArr α) :=
  JArr.ap (JArr.ap (JArr.ap (JArr.ap (JArr.ap (JArr.map (fun (number_of_links_i : Nat) (link_length_i : α) (hinge_mass_i : α) (nondimensional_link_stiffness_i : α) (nondimensional_end_to_end_length_per_link_i : α) (temperature_i : α) => Polymers.C.physics_single_chain_efjc_thermodynamics_isometric_asymptotic_reduced_legendre_nondimensional_helmholtz_free_energy_per_link number_of_links_i link_length_i hinge_mass_i nondimensional_link_stiffness_i nondimensional_end_to_end_length_per_link_i temperature_i) number_of_links) link_length) hinge_mass) nondimensional_link_stiffness) nondimensional_end_to_end_length_per_link) temperature

/-- `src/physics/single_chain/efjc/thermodynamics/isometric/asymptotic/reduced/legendre/mod.jl` lines 417-442. -/
def nondimensional_relative_helmholtz_free_energy (number_of_links : JArr Nat) (nondimensional_link_stiffness : JArr α) (nondimensional_end_to_end_length_per_link : JArr α) : Option (JArr α) :=
  JArr.ap (JArr.ap (JArr.map (fun (number_of_links_i : Nat) (nondimensional_link_stiffness_i : α) (nondimensional_end_to_end_length_per_link_i : α) => Polymers.C.physics_single_chain_efjc_thermodynamics_isometric_asymptotic_reduced_legendre_nondimensional_relative_helmholtz_free_energy number_of_links_i nondimensional_link_stiffness_i nondimensional_end_to_end_length_per_link_i) number_of_links) nondimensional_link_stiffness) nondimensional_end_to_end_length_per_link

/-- `src/physics/single_chain/efjc/thermodynamics/isometric/asymptotic/reduced/legendre/mod.jl` lines 450-469. -/
def nondimensional_relative_helmholtz_free_energy_per_link (nondimensional_link_stiffness : JArr α) (nondimensional_end_to_end_length_per_link : JArr α) : Option (JArr α) :=
  JArr.ap (JArr.map (fun (nondimensional_link_stiffness_i : α) (nondimensional_end_to_end_length_per_link_i : α) => Polymers.C.physics_single_chain_efjc_thermodynamics_isometric_asymptotic_reduced_legendre_nondimensional_relative_helmholtz_free_energy_per_link nondimensional_link_stiffness_i nondimensional_end_to_end_length_per_link_i) nondimensional_link_stiffness) nondimensional_end_to_end_length_per_link

/-- `src/physics/single_chain/efjc/thermodynamics/isometric/asymptotic/reduced/legendre/mod.jl` lines 476-559. -/
def EFJC.new (other : α → JArr α → Option (JArr α)) (number_of_links : Nat) (link_length : α) (hinge_mass : α) (link_stiffness : α) : Polymers.Julia.Efjc.Thermodynamics.Isometric.Asymptotic.Reduced.Legendre.EFJC α :=
  let BOLTZMANN_CONSTANT : α := 8.314462618
  Polymers.Julia.Efjc.Thermodynamics.Isometric.Asymptotic.Reduced.Legendre.EFJC.mk
    number_of_links
    link_length
    hinge_mass
    link_stiffness
    (fun (end_to_end_length : JArr α) (temperature : JArr α) => Polymers.Julia.Efjc.Thermodynamics.Isometric.Asymptotic.Reduced.Legendre.force (JArr.scalar number_of_links) (JArr.scalar link_length) (JArr.scalar link_stiffness) end_to_end_length temperature)
    (fun (nondimensional_end_to_end_length_per_link : JArr α) (temperature : JArr α) => (JArr.quotient other (link_stiffness * Elem.powi link_length 2 / BOLTZMANN_CONSTANT) temperature).bind fun q0 => Polymers.Julia.Efjc.Thermodynamics.Isometric.Asymptotic.Reduced.Legendre.nondimensional_force q0 nondimensional_end_to_end_length_per_link)
    (fun (end_to_end_length : JArr α) (temperature : JArr α) => Polymers.Julia.Efjc.Thermodynamics.Isometric.Asymptotic.Reduced.Legendre.helmholtz_free_energy (JArr.scalar number_of_links) (JArr.scalar link_length) (JArr.scalar hinge_mass) (JArr.scalar link_stiffness) end_to_end_length temperature)
    (fun (end_to_end_length : JArr α) (temperature : JArr α) => Polymers.Julia.Efjc.Thermodynamics.Isometric.Asymptotic.Reduced.Legendre.helmholtz_free_energy_per_link (JArr.scalar number_of_links) (JArr.scalar link_length) (JArr.scalar hinge_mass) (JArr.scalar link_stiffness) end_to_end_length temperature)
    (fun (end_to_end_length : JArr α) (temperature : JArr α) => Polymers.Julia.Efjc.Thermodynamics.Isometric.Asymptotic.Reduced.Legendre.relative_helmholtz_free_energy (JArr.scalar number_of_links) (JArr.scalar link_length) (JArr.scalar link_stiffness) end_to_end_length temperature)
    (fun (end_to_end_length : JArr α) (temperature : JArr α) => Polymers.Julia.Efjc.Thermodynamics.Isometric.Asymptotic.Reduced.Legendre.relative_helmholtz_free_energy_per_link (JArr.scalar number_of_links) (JArr.scalar link_length) (JArr.scalar link_stiffness) end_to_end_length temperature)
    (fun (nondimensional_end_to_end_length_per_link : JArr α) (temperature : JArr α) => (JArr.quotient other (link_stiffness * Elem.powi link_length 2 / BOLTZMANN_CONSTANT) temperature).bind fun q3 => Polymers.Julia.Efjc.Thermodynamics.Isometric.Asymptotic.Reduced.Legendre.nondimensional_helmholtz_free_energy (JArr.scalar number_of_links) (JArr.scalar link_length) (JArr.scalar hinge_mass) q3 nondimensional_end_to_end_length_per_link temperature)
    (fun (nondimensional_end_to_end_length_per_link : JArr α) (temperature : JArr α) => (JArr.quotient other (link_stiffness * Elem.powi link_length 2 / BOLTZMANN_CONSTANT) temperature).bind fun q3 => Polymers.Julia.Efjc.Thermodynamics.Isometric.Asymptotic.Reduced.Legendre.nondimensional_helmholtz_free_energy_per_link (JArr.scalar number_of_links) (JArr.scalar link_length) (JArr.scalar hinge_mass) q3 nondimensional_end_to_end_length_per_link temperature)
    (fun (nondimensional_end_to_end_length_per_link : JArr α) (temperature : JArr α) => (JArr.quotient other (link_stiffness * Elem.powi link_length 2 / BOLTZMANN_CONSTANT) temperature).bind fun q1 => Polymers.Julia.Efjc.Thermodynamics.Isometric.Asymptotic.Reduced.Legendre.nondimensional_relative_helmholtz_free_energy (JArr.scalar number_of_links) q1 nondimensional_end_to_end_length_per_link)
    (fun (nondimensional_end_to_end_length_per_link : JArr α) (temperature : JArr α) => (JArr.quotient other (link_stiffness * Elem.powi link_length 2 / BOLTZMANN_CONSTANT) temperature).bind fun q0 => Polymers.Julia.Efjc.Thermodynamics.Isometric.Asymptotic.Reduced.Legendre.nondimensional_relative_helmholtz_free_energy_per_link q0 nondimensional_end_to_end_length_per_link)

end Polymers.Julia.Efjc.Thermodynamics.Isometric.Asymptotic.Reduced.Legendre

namespace Polymers.Julia.Efjc.Thermodynamics.Isometric.Asymptotic.Reduced

/-- `src/physics/single_chain/efjc/thermodynamics/isometric/asymptotic/reduced/mod.jl` lines 44-57. -/
def EFJC.new (other : α → JArr α → Option (JArr α)) (number_of_links : Nat) (link_length : α) (hinge_mass : α) (link_stiffness : α) : Polymers.Julia.Efjc.Thermodynamics.Isometric.Asymptotic.Reduced.EFJC α :=
  Polymers.Julia.Efjc.Thermodynamics.Isometric.Asymptotic.Reduced.EFJC.mk
    number_of_links
    link_length
    hinge_mass
    link_stiffness
    (Polymers.Julia.Efjc.Thermodynamics.Isometric.Asymptotic.Reduced.Legendre.EFJC.new other number_of_links link_length hinge_mass link_stiffness)

end Polymers.Julia.Efjc.Thermodynamics.Isometric.Asymptotic.Reduced

namespace Polymers.Julia.Efjc.Thermodynamics.Isometric.Asymptotic.Legendre

/-- `src/physics/single_chain/efjc/thermodynamics/isometric/asymptotic/legendre/mod.jl` lines 81-114. -/
def force (number_of_links : JArr Nat) (link_length : JArr α) (link_stiffness : JArr α) (end_to_end_length : JArr α) (temperature : JArr α) : Option (JArr α) :=
  JArr.ap (JArr.ap (JArr.ap (JArr.ap (JArr.map (fun (number_of_links_i : Nat) (link_length_i : α) (link_stiffness_i : α) (end_to_end_length_i : α) (temperature_i : α) => Polymers.C.physics_single_chain_efjc_thermodynamics_isometric_asymptotic_legendre_force number_of_links_i link_length_i link_stiffness_i end_to_end_length_i temperature_i) number_of_links) link_length) link_stiffness) end_to_end_length) temperature

/-- `src/physics/single_chain/efjc/thermodynamics/isometric/asymptotic/legendre/mod.jl` lines 122-141. -/
def nondimensional_force (nondimensional_link_stiffness : JArr α) (nondimensional_end_to_end_length_per_link : JArr α) : Option (JArr α) :=
  JArr.ap (JArr.map (fun (nondimensional_link_stiffness_i : α) (nondimensional_end_to_end_length_per_link_i : α) => Polymers.C.physics_single_chain_efjc_thermodynamics_isometric_asymptotic_legendre_nondimensional_force nondimensional_link_stiffness_i nondimensional_end_to_end_length_per_link_i) nondimensional_link_stiffness) nondimensional_end_to_end_length_per_link

/-- `src/physics/single_chain/efjc/thermodynamics/isometric/asymptotic/legendre/mod.jl` lines 155-192. -/
def helmholtz_free_energy (number_of_links : JArr Nat) (link_length : JArr α) (hinge_mass : JArr α) (link_stiffness : JArr α) (end_to_end_length : JArr α) (temperature : JArr α) : Option (JArr α) :=
  JArr.ap (JArr.ap (JArr.ap (JArr.ap (JArr.ap (JArr.map (fun (number_of_links_i : Nat) (link_length_i : α) (hinge_mass_i : α) (link_stiffness_i : α) (end_to_end_length_i : α) (temperature_i : α) => Polymers.C.physics_single_chain_efjc_thermodynamics_isometric_asymptotic_legendre_helmholtz_free_energy number_of_links_i link_length_i hinge_mass_i link_stiffness_i end_to_end_length_i temperature_i) number_of_links) link_length) hinge_mass) link_stiffness) end_to_end_length) temperature

/-- `src/physics/single_chain/efjc/thermodynamics/isometric/asymptotic/legendre/mod.jl` lines 200-237. -/
def helmholtz_free_energy_per_link (number_of_links : JArr Nat) (link_length : JArr α) (hinge_mass : JArr α) (link_stiffness : JArr α) (end_to_end_length : JArr α) (temperature : JArr α) : Option (JArr α) :=
  JArr.ap (JArr.ap (JArr.ap (JArr.ap (JArr.ap (JArr.map (fun (number_of_links_i : Nat) (link_length_i : α) (hinge_mass_i : α) (link_stiffness_i : α) (end_to_end_length_i : α) (temperature_i : α) => Polymers.C.physics_single_chain_efjc_thermodynamics_isometric_asymptotic_legendre_helmholtz_free_energy_per_link number_of_links_i link_length_i hinge_mass_i link_stiffness_i end_to_end_length_i temperature_i) number_of_links) link_length) hinge_mass) link_stiffness) end_to_end_length) temperature

/-- `src/physics/single_chain/efjc/thermodynamics/isometric/asymptotic/legendre/mod.jl` lines 245-278. -/
def relative_helmholtz_free_energy (number_of_links : JArr Nat) (link_length : JArr α) (link_stiffness : JArr α) (end_to_end_length : JArr α) (temperature : JArr α) : Option (JArr α) :=
  JArr.ap (JArr.ap (JArr.ap (JArr.ap (JArr.map (fun (number_of_links_i : Nat) (link_length_i : α) (link_stiffness_i : α) (end_to_end_length_i : α) (temperature_i : α) => Polymers.C.physics_single_chain_efjc_thermodynamics_isometric_asymptotic_legendre_relative_helmholtz_free_energy number_of_links_i link_length_i link_stiffness_i end_to_end_length_i temperature_i) number_of_links) link_length) link_stiffness) end_to_end_length) temperature

/-- `src/physics/single_chain/efjc/thermodynamics/isometric/asymptotic/legendre/mod.jl` lines 286-319. -/
def relative_helmholtz_free_energy_per_link (number_of_links : JArr Nat) (link_length : JArr α) (link_stiffness : JArr α) (end_to_end_length : JArr α) (temperature : JArr α) : Option (JArr α) :=
  JArr.ap (JArr.ap (JArr.ap (JArr.ap (JArr.map (fun (number_of_links_i : Nat) (link_length_i : α) (link_stiffness_i : α) (end_to_end_length_i : α) (temperature_i : α) => Polymers.C.physics_single_chain_efjc_thermodynamics_isometric_asymptotic_legendre_relative_helmholtz_free_energy_per_link number_of_links_i link_length_i link_stiffness_i end_to_end_length_i temperature_i) number_of_links) link_length) link_stiffness) end_to_end_length) temperature

/-- `src/physics/single_chain/efjc/thermodynamics/isometric/asymptotic/legendre/mod.jl` lines 327-364. -/
def nondimensional_helmholtz_free_energy (number_of_links : JArr Nat) (link_length : JArr α) (hinge_mass : JArr α) (nondimensional_link_stiffness : JArr α) (nondimensional_end_to_end_length_per_link : JArr α) (temperature : JArr α) : Option (JArr α) :=
  JArr.ap (JArr.ap (JArr.ap (JArr.ap (JArr.ap (JArr.map (fun (number_of_links_i : Nat) (link_length_i : α) (hinge_mass_i : α) (nondimensional_link_stiffness_i : α) (nondimensional_end_to_end_length_per_link_i : α) (temperature_i : α) => Polymers.C.physics_single_chain_efjc_thermodynamics_isometric_asymptotic_legendre_nondimensional_helmholtz_free_energy number_of_links_i link_length_i hinge_mass_i nondimensional_link_stiffness_i nondimensional_end_to_end_length_per_link_i temperature_i) number_of_links) link_length) hinge_mass) nondimensional_link_stiffness) nondimensional_end_to_end_length_per_link) temperature

/-- `src/physics/single_chain/efjc/thermodynamics/isometric/asymptotic/legendre/mod.jl` lines 372-409. -/
def nondimensional_helmholtz_free_energy_per_link (number_of_links : JArr Nat) (link_length : JArr α) (hinge_mass : JArr α) (nondimensional_link_stiffness : JArr α) (nondimensional_end_to_end_length_per_link : JArr α) (temperature : JArr α) : Option (JArr α) :=
  JArr.ap (JArr.ap (JArr.ap (JArr.ap (JArr.ap (JArr.map (fun (number_of_links_i : Nat) (link_length_i : α) (hinge_mass_i : α) (nondimensional_link_stiffness_i : α) (nondimensional_end_to_end_length_per_link_i : α) (temperature_i : α) => Polymers.C.physics_single_chain_efjc_thermodynamics_isometric_asymptotic_legendre_nondimensional_helmholtz_free_energy_per_link number_of_links_i link_length_i hinge_mass_i nondimensional_link_stiffness_i nondimensional_end_to_end_length_per_link_i temperature_i) number_of_links) link_length) hinge_mass) nondimensional_link_stiffness) nondimensional_end_to_end_length_per_link) temperature

/-- `src/physics/single_chain/efjc/thermodynamics/isometric/asymptotic/legendre/mod.jl` lines 417-442. -/
def nondimensional_relative_helmholtz_free_energy (number_of_links : JArr Nat) (nondimensional_link_stiffness : JArr α) (nondimensional_end_to_end_length_per_link : JArr α) : Option (JArr α) :=
  JArr.ap (JArr.ap (JArr.map (fun (number_of_links_i : Nat) (nondimensional_link_stiffness_i : α) (nondimensional_end_to_end_length_per_link_i : α) => Polymers.C.physics_single_chain_efjc_thermodynamics_isometric_asymptotic_legendre_nondimensional_relative_helmholtz_free_energy number_of_links_i nondimensional_link_stiffness_i nondimensional_end_to_end_length_per_link_i) number_of_links) nondimensional_link_stiffness) nondimensional_end_to_end_length_per_link

/-- `src/physics/single_chain/efjc/thermodynamics/isometric/asymptotic/legendre/mod.jl` lines 450-469. -/
def nondimensional_relative_helmholtz_free_energy_per_link (nondimensional_link_stiffness : JArr α) (nondimensional_end_to_end_length_per_link : JArr α) : Option (JArr α) :=
  JArr.ap (JArr.map (fun (nondimensional_link_stiffness_i : α) (nondimensional_end_to_end_length_per_link_i : α) => Polymers.C.physics_single_chain_efjc_thermodynamics_isometric_asymptotic_legendre_nondimensional_relative_helmholtz_free_energy_per_link nondimensional_link_stiffness_i nondimensional_end_to_end_length_per_link_i) nondimensional_link_stiffness) nondimensional_end_to_end_length_per_link

/-- `src/physics/single_chain/efjc/thermodynamics/isometric/asymptotic/legendre/mod.jl` lines 476-559. -/
def EFJC.new (other : α → JArr α → Option (JArr α)) (number_of_links : Nat) (link_length : α) (hinge_mass : α) (link_stiffness : α) : Polymers.Julia.Efjc.Thermodynamics.Isometric.Asymptotic.Legendre.EFJC α :=
  let BOLTZMANN_CONSTANT : α := 8.314462618
  Polymers.Julia.Efjc.Thermodynamics.Isometric.Asymptotic.Legendre.EFJC.mk
    number_of_links
    link_length
    hinge_mass
    link_stiffness
    (fun (end_to_end_length : JArr α) (temperature : JArr α) => Polymers.Julia.Efjc.Thermodynamics.Isometric.Asymptotic.Legendre.force (JArr.scalar number_of_links) (JArr.scalar link_length) (JArr.scalar link_stiffness) end_to_end_length temperature)
    (fun (nondimensional_end_to_end_length_per_link : JArr α) (temperature : JArr α) => (JArr.quotient other (link_stiffness * Elem.powi link_length 2 / BOLTZMANN_CONSTANT) temperature).bind fun q0 => Polymers.Julia.Efjc.Thermodynamics.Isometric.Asymptotic.Legendre.nondimensional_force q0 nondimensional_end_to_end_length_per_link)
    (fun (end_to_end_length : JArr α) (temperature : JArr α) => Polymers.Julia.Efjc.Thermodynamics.Isometric.Asymptotic.Legendre.helmholtz_free_energy (JArr.scalar number_of_links) (JArr.scalar link_length) (JArr.scalar hinge_mass) (JArr.scalar link_stiffness) end_to_end_length temperature)
    (fun (end_to_end_length : JArr α) (temperature : JArr α) => Polymers.Julia.Efjc.Thermodynamics.Isometric.Asymptotic.Legendre.helmholtz_free_energy_per_link (JArr.scalar number_of_links) (JArr.scalar link_length) (JArr.scalar hinge_mass) (JArr.scalar link_stiffness) end_to_end_length temperature)
    (fun (end_to_end_length : JArr α) (temperature : JArr α) => Polymers.Julia.Efjc.Thermodynamics.Isometric.Asymptotic.Legendre.relative_helmholtz_free_energy (JArr.scalar number_of_links) (JArr.scalar link_length) (JArr.scalar link_stiffness) end_to_end_length temperature)
    (fun (end_to_end_length : JArr α) (temperature : JArr α) => Polymers.Julia.Efjc.Thermodynamics.Isometric.Asymptotic.Legendre.relative_helmholtz_free_energy_per_link (JArr.scalar number_of_links) (JArr.scalar link_length) (JArr.scalar link_stiffness) end_to_end_length temperature)
    (fun (nondimensional_end_to_end_length_per_link : JArr α) (temperature : JArr α) => (JArr.quotient other (link_stiffness * Elem.powi link_length 2 / BOLTZMANN_CONSTANT) temperature).bind fun q3 => Polymers.Julia.Efjc.Thermodynamics.Isometric.Asymptotic.Legendre.nondimensional_helmholtz_free_energy (JArr.scalar number_of_links) (JArr.scalar link_length) (JArr.scalar hinge_mass) q3 nondimensional_end_to_end_length_per_link temperature)
    (fun (nondimensional_end_to_end_length_per_link : JArr α) (temperature : JArr α) => (JArr.quotient other (link_stiffness * Elem.powi link_length 2 / BOLTZMANN_CONSTANT) temperature).bind fun q3 => Polymers.Julia.Efjc.Thermodynamics.Isometric.Asymptotic.Legendre.nondimensional_helmholtz_free_energy_per_link (JArr.scalar number_of_links) (JArr.scalar link_length) (JArr.scalar hinge_mass) q3 nondimensional_end_to_end_length_per_link temperature)
    (fun (nondimensional_end_to_end_length_per_link : JArr α) (temperature : JArr α) => (JArr.quotient other (link_stiffness * Elem.powi link_length 2 / BOLTZMANN_CONSTANT) temperature).bind fun q1 => Polymers.Julia.Efjc.Thermodynamics.Isometric.Asymptotic.Legendre.nondimensional_relative_helmholtz_free_energy (JArr.scalar number_of_links) q1 nondimensional_end_to_end_length_per_link)
    (fun (nondimensional_end_to_end_length_per_link : JArr α) (temperature : JArr α) => (JArr.quotient other (link_stiffness * Elem.powi link_length 2 / BOLTZMANN_CONSTANT) temperature).bind fun q0 => Polymers.Julia.Efjc.Thermodynamics.Isometric.Asymptotic.Legendre.nondimensional_relative_helmholtz_free_energy_per_link q0 nondimensional_end_to_end_length_per_link)

end Polymers.Julia.Efjc.Thermodynamics.Isometric.Asymptotic.Legendre

namespace Polymers.Julia.Efjc.Thermodynamics.Isometric.Asymptotic

/-- `src/physics/single_chain/efjc/thermodynamics/isometric/asymptotic/mod.jl` lines 54-69. -/
def EFJC.new (other : α → JArr α → Option (JArr α)) (number_of_links : Nat) (link_length : α) (hinge_mass : α) (link_stiffness : α) : Polymers.Julia.Efjc.Thermodynamics.Isometric.Asymptotic.EFJC α :=
  Polymers.Julia.Efjc.Thermodynamics.Isometric.Asymptotic.EFJC.mk
    number_of_links
    link_length
    hinge_mass
    link_stiffness
    (Polymers.Julia.Efjc.Thermodynamics.Isometric.Asymptotic.Alternative.EFJC.new other number_of_links link_length hinge_mass link_stiffness)
    (Polymers.Julia.Efjc.Thermodynamics.Isometric.Asymptotic.Reduced.EFJC.new other number_of_links link_length hinge_mass link_stiffness)
    (Polymers.Julia.Efjc.Thermodynamics.Isometric.Asymptotic.Legendre.EFJC.new other number_of_links link_length hinge_mass link_stiffness)

end Polymers.Julia.Efjc.Thermodynamics.Isometric.Asymptotic

namespace Polymers.Julia.Efjc.Thermodynamics.Isometric

/-- `src/physics/single_chain/efjc/thermodynamics/isometric/mod.jl` lines 44-57. -/
def EFJC.new (other : α → JArr α → Option (JArr α)) (number_of_links : Nat) (link_length : α) (hinge_mass : α) (link_stiffness : α) : Polymers.Julia.Efjc.Thermodynamics.Isometric.EFJC α :=
  Polymers.Julia.Efjc.Thermodynamics.Isometric.EFJC.mk
    number_of_links
    link_length
    hinge_mass
    link_stiffness
    (Polymers.Julia.Efjc.Thermodynamics.Isometric.Asymptotic.EFJC.new other number_of_links link_length hinge_mass link_stiffness)

end Polymers.Julia.Efjc.Thermodynamics.Isometric

namespace Polymers.Julia.Efjc.Thermodynamics.Isotensional.Asymptotic.Alternative.Legendre

/-- `src/physics/single_chain/efjc/thermodynamics/isotensional/asymptotic/alternative/legendre/mod.jl` lines 77-114. -/
def helmholtz_free_energy (number_of_links : JArr Nat) (link_length : JArr α) (hinge_mass : JArr α) (link_stiffness : JArr α) (force : JArr α) (temperature : JArr α) : Option (JArr α) :=
  JArr.ap (JArr.ap (JArr.ap (JArr.ap (JArr.ap (JArr.map (fun (number_of_links_i : Nat) (link_length_i : α) (hinge_mass_i : α) (link_stiffness_i : α) (force_i : α) (temperature_i : α) => Polymers.C.physics_single_chain_efjc_thermodynamics_isotensional_asymptotic_alternative_legendre_helmholtz_free_energy number_of_links_i link_length_i hinge_mass_i link_stiffness_i force_i temperature_i) number_of_links) link_length) hinge_mass) link_stiffness) force) temperature

/-- `src/physics/single_chain/efjc/thermodynamics/isotensional/asymptotic/alternative/legendre/mod.jl` lines 122-149. -/
def helmholtz_free_energy_per_link (link_length : JArr α) (hinge_mass : JArr α) (link_stiffness : JArr α) (force : JArr α) (temperature : JArr α) : Option (JArr α) :=
  JArr.ap (JArr.ap (JArr.ap (JArr.ap (JArr.map (fun (link_length_i : α) (hinge_mass_i : α) (link_stiffness_i : α) (force_i : α) (temperature_i : α) => Polymers.C.physics_single_chain_efjc_thermodynamics_isotensional_asymptotic_alternative_legendre_helmholtz_free_energy_per_link link_length_i hinge_mass_i link_stiffness_i force_i temperature_i) link_length) hinge_mass) link_stiffness) force) temperature

/-- `src/physics/single_chain/efjc/thermodynamics/isotensional/asymptotic/alternative/legendre/mod.jl` lines 157-185. -/
def relative_helmholtz_free_energy (number_of_links : JArr Nat) (link_length : JArr α) (link_stiffness : JArr α) (force : JArr α) (temperature : JArr α) : Option (JArr α) :=
  JArr.ap (JArr.ap (JArr.ap (JArr.ap (JArr.map (fun (number_of_links_i : Nat) (link_length_i : α) (link_stiffness_i : α) (force_i : α) (temperature_i : α) => Polymers.C.physics_single_chain_efjc_thermodynamics_isotensional_asymptotic_alternative_legendre_relative_helmholtz_free_energy number_of_links_i link_length_i link_stiffness_i force_i temperature_i) number_of_links) link_length) link_stiffness) force) temperature

/-- `src/physics/single_chain/efjc/thermodynamics/isotensional/asymptotic/alternative/legendre/mod.jl` lines 193-217. -/
def relative_helmholtz_free_energy_per_link (link_length : JArr α) (link_stiffness : JArr α) (force : JArr α) (temperature : JArr α) : Option (JArr α) :=
  JArr.ap (JArr.ap (JArr.ap (JArr.map (fun (link_length_i : α) (link_stiffness_i : α) (force_i : α) (temperature_i : α) => Polymers.C.physics_single_chain_efjc_thermodynamics_isotensional_asymptotic_alternative_legendre_relative_helmholtz_free_energy_per_link link_length_i link_stiffness_i force_i temperature_i) link_length) link_stiffness) force) temperature

/-- `src/physics/single_chain/efjc/thermodynamics/isotensional/asymptotic/alternative/legendre/mod.jl` lines 225-262. -/
def nondimensional_helmholtz_free_energy (number_of_links : JArr Nat) (link_length : JArr α) (hinge_mass : JArr α) (nondimensional_link_stiffness : JArr α) (nondimensional_force : JArr α) (temperature : JArr α) : Option (JArr α) :=
  JArr.ap (JArr.ap (JArr.ap (JArr.ap (JArr.ap (JArr.map (fun (number_of_links_i : Nat) (link_length_i : α) (hinge_mass_i : α) (nondimensional_link_stiffness_i : α) (nondimensional_force_i : α) (temperature_i : α) => Polymers.C.physics_single_chain_efjc_thermodynamics_isotensional_asymptotic_alternative_legendre_nondimensional_helmholtz_free_energy number_of_links_i link_length_i hinge_mass_i nondimensional_link_stiffness_i nondimensional_force_i temperature_i) number_of_links) link_length) hinge_mass) nondimensional_link_stiffness) nondimensional_force) temperature

/-- `src/physics/single_chain/efjc/thermodynamics/isotensional/asymptotic/alternative/legendre/mod.jl` lines 270-303. -/
def nondimensional_helmholtz_free_energy_per_link (link_length : JArr α) (hinge_mass : JArr α) (nondimensional_link_stiffness : JArr α) (nondimensional_force : JArr α) (temperature : JArr α) : Option (JArr α) :=
  JArr.ap (JArr.ap (JArr.ap (JArr.ap (JArr.map (fun (link_length_i : α) (hinge_mass_i : α) (nondimensional_link_stiffness_i : α) (nondimensional_force_i : α) (temperature_i : α) => Polymers.C.physics_single_chain_efjc_thermodynamics_isotensional_asymptotic_alternative_legendre_nondimensional_helmholtz_free_energy_per_link link_length_i hinge_mass_i nondimensional_link_stiffness_i nondimensional_force_i temperature_i) link_length) hinge_mass) nondimensional_link_stiffness) nondimensional_force) temperature

/-- `src/physics/single_chain/efjc/thermodynamics/isotensional/asymptotic/alternative/legendre/mod.jl` lines 311-333. -/
def nondimensional_relative_helmholtz_free_energy (number_of_links : JArr Nat) (nondimensional_link_stiffness : JArr α) (nondimensional_force : JArr α) : Option (JArr α) :=
  JArr.ap (JArr.ap (JArr.map (fun (number_of_links_i : Nat) (nondimensional_link_stiffness_i : α) (nondimensional_force_i : α) => Polymers.C.physics_single_chain_efjc_thermodynamics_isotensional_asymptotic_alternative_legendre_nondimensional_relative_helmholtz_free_energy number_of_links_i nondimensional_link_stiffness_i nondimensional_force_i) number_of_links) nondimensional_link_stiffness) nondimensional_force

/-- `src/physics/single_chain/efjc/thermodynamics/isotensional/asymptotic/alternative/legendre/mod.jl` lines 341-359. -/
def nondimensional_relative_helmholtz_free_energy_per_link (nondimensional_link_stiffness : JArr α) (nondimensional_force : JArr α) : Option (JArr α) :=
  JArr.ap (JArr.map (fun (nondimensional_link_stiffness_i : α) (nondimensional_force_i : α) => Polymers.C.physics_single_chain_efjc_thermodynamics_isotensional_asymptotic_alternative_legendre_nondimensional_relative_helmholtz_free_energy_per_link nondimensional_link_stiffness_i nondimensional_force_i) nondimensional_link_stiffness) nondimensional_force

/-- `src/physics/single_chain/efjc/thermodynamics/isotensional/asymptotic/alternative/legendre/mod.jl` lines 366-434. -/
def EFJC.new (other : α → JArr α → Option (JArr α)) (number_of_links : Nat) (link_length : α) (hinge_mass : α) (link_stiffness : α) : Polymers.Julia.Efjc.Thermodynamics.Isotensional.Asymptotic.Alternative.Legendre.EFJC α :=
  let BOLTZMANN_CONSTANT : α := 8.314462618
  Polymers.Julia.Efjc.Thermodynamics.Isotensional.Asymptotic.Alternative.Legendre.EFJC.mk
    number_of_links
    link_length
    hinge_mass
    link_stiffness
    (fun (force : JArr α) (temperature : JArr α) => Polymers.Julia.Efjc.Thermodynamics.Isotensional.Asymptotic.Alternative.Legendre.helmholtz_free_energy (JArr.scalar number_of_links) (JArr.scalar link_length) (JArr.scalar hinge_mass) (JArr.scalar link_stiffness) force temperature)
    (fun (force : JArr α) (temperature : JArr α) => Polymers.Julia.Efjc.Thermodynamics.Isotensional.Asymptotic.Alternative.Legendre.helmholtz_free_energy_per_link (JArr.scalar link_length) (JArr.scalar hinge_mass) (JArr.scalar link_stiffness) force temperature)
    (fun (force : JArr α) (temperature : JArr α) => Polymers.Julia.Efjc.Thermodynamics.Isotensional.Asymptotic.Alternative.Legendre.relative_helmholtz_free_energy (JArr.scalar number_of_links) (JArr.scalar link_length) (JArr.scalar link_stiffness) force temperature)
    (fun (force : JArr α) (temperature : JArr α) => Polymers.Julia.Efjc.Thermodynamics.Isotensional.Asymptotic.Alternative.Legendre.relative_helmholtz_free_energy_per_link (JArr.scalar link_length) (JArr.scalar link_stiffness) force temperature)
    (fun (nondimensional_force : JArr α) (temperature : JArr α) => (JArr.quotient other (link_stiffness * Elem.powi link_length 2 / BOLTZMANN_CONSTANT) temperature).bind fun q3 => Polymers.Julia.Efjc.Thermodynamics.Isotensional.Asymptotic.Alternative.Legendre.nondimensional_helmholtz_free_energy (JArr.scalar number_of_links) (JArr.scalar link_length) (JArr.scalar hinge_mass) q3 nondimensional_force temperature)
    (fun (nondimensional_force : JArr α) (temperature : JArr α) => (JArr.quotient other (link_stiffness * Elem.powi link_length 2 / BOLTZMANN_CONSTANT) temperature).bind fun q2 => Polymers.Julia.Efjc.Thermodynamics.Isotensional.Asymptotic.Alternative.Legendre.nondimensional_helmholtz_free_energy_per_link (JArr.scalar link_length) (JArr.scalar hinge_mass) q2 nondimensional_force temperature)
    (fun (nondimensional_force : JArr α) (temperature : JArr α) => (JArr.quotient other (link_stiffness * Elem.powi link_length 2 / BOLTZMANN_CONSTANT) temperature).bind fun q1 => Polymers.Julia.Efjc.Thermodynamics.Isotensional.Asymptotic.Alternative.Legendre.nondimensional_relative_helmholtz_free_energy (JArr.scalar number_of_links) q1 nondimensional_force)
    (fun (nondimensional_force : JArr α) (temperature : JArr α) => (JArr.quotient other (link_stiffness * Elem.powi link_length 2 / BOLTZMANN_CONSTANT) temperature).bind fun q0 => Polymers.Julia.Efjc.Thermodynamics.Isotensional.Asymptotic.Alternative.Legendre.nondimensional_relative_helmholtz_free_energy_per_link q0 nondimensional_force)

end Polymers.Julia.Efjc.Thermodynamics.Isotensional.Asymptotic.Alternative.Legendre

namespace Polymers.Julia.Efjc.Thermodynamics.Isotensional.Asymptotic.Alternative

/-- `src/physics/single_chain/efjc/thermodynamics/isotensional/asymptotic/alternative/mod.jl` lines 100-128. -/
def end_to_end_length (number_of_links : JArr Nat) (link_length : JArr α) (link_stiffness : JArr α) (force : JArr α) (temperature : JArr α) : Option (JArr α) :=
  JArr.ap (JArr.ap (JArr.ap (JArr.ap (JArr.map (fun (number_of_links_i : Nat) (link_length_i : α) (link_stiffness_i : α) (force_i : α) (temperature_i : α) => Polymers.C.physics_single_chain_efjc_thermodynamics_isotensional_asymptotic_alternative_end_to_end_length number_of_links_i link_length_i link_stiffness_i force_i temperature_i) number_of_links) link_length) link_stiffness) force) temperature

/-- `src/physics/single_chain/efjc/thermodynamics/isotensional/asymptotic/alternative/mod.jl` lines 136-160. -/
def end_to_end_length_per_link (link_length : JArr α) (link_stiffness : JArr α) (force : JArr α) (temperature : JArr α) : Option (JArr α) :=
  JArr.ap (JArr.ap (JArr.ap (JArr.map (fun (link_length_i : α) (link_stiffness_i : α) (force_i : α) (temperature_i : α) => Polymers.C.physics_single_chain_efjc_thermodynamics_isotensional_asymptotic_alternative_end_to_end_length_per_link link_length_i link_stiffness_i force_i temperature_i) link_length) link_stiffness) force) temperature

/-- `src/physics/single_chain/efjc/thermodynamics/isotensional/asymptotic/alternative/mod.jl` lines 168-190. -/
def nondimensional_end_to_end_length (number_of_links : JArr Nat) (nondimensional_link_stiffness : JArr α) (nondimensional_force : JArr α) : Option (JArr α) :=
  JArr.ap (JArr.ap (JArr.map (fun (number_of_links_i : Nat) (nondimensional_link_stiffness_i : α) (nondimensional_force_i : α) => Polymers.C.physics_single_chain_efjc_thermodynamics_isotensional_asymptotic_alternative_nondimensional_end_to_end_length number_of_links_i nondimensional_link_stiffness_i nondimensional_force_i) number_of_links) nondimensional_link_stiffness) nondimensional_force

/-- `src/physics/single_chain/efjc/thermodynamics/isotensional/asymptotic/alternative/mod.jl` lines 205-223. -/
def nondimensional_end_to_end_length_per_link (nondimensional_link_stiffness : JArr α) (nondimensional_force : JArr α) : Option (JArr α) :=
  JArr.ap (JArr.map (fun (nondimensional_link_stiffness_i : α) (nondimensional_force_i : α) => Polymers.C.physics_single_chain_efjc_thermodynamics_isotensional_asymptotic_alternative_nondimensional_end_to_end_length_per_link nondimensional_link_stiffness_i nondimensional_force_i) nondimensional_link_stiffness) nondimensional_force

/-- `src/physics/single_chain/efjc/thermodynamics/isotensional/asymptotic/alternative/mod.jl` lines 235-272. -/
def gibbs_free_energy (number_of_links : JArr Nat) (link_length : JArr α) (hinge_mass : JArr α) (link_stiffness : JArr α) (force : JArr α) (temperature : JArr α) : Option (JArr α) :=
  JArr.ap (JArr.ap (JArr.ap (JArr.ap (JArr.ap (JArr.map (fun (number_of_links_i : Nat) (link_length_i : α) (hinge_mass_i : α) (link_stiffness_i : α) (force_i : α) (temperature_i : α) => Polymers.C.physics_single_chain_efjc_thermodynamics_isotensional_asymptotic_alternative_gibbs_free_energy number_of_links_i link_length_i hinge_mass_i link_stiffness_i force_i temperature_i) number_of_links) link_length) hinge_mass) link_stiffness) force) temperature

/-- `src/physics/single_chain/efjc/thermodynamics/isotensional/asymptotic/alternative/mod.jl` lines 280-307. -/
def gibbs_free_energy_per_link (link_length : JArr α) (hinge_mass : JArr α) (link_stiffness : JArr α) (force : JArr α) (temperature : JArr α) : Option (JArr α) :=
  JArr.ap (JArr.ap (JArr.ap (JArr.ap (JArr.map (fun (link_length_i : α) (hinge_mass_i : α) (link_stiffness_i : α) (force_i : α) (temperature_i : α) => Polymers.C.physics_single_chain_efjc_thermodynamics_isotensional_asymptotic_alternative_gibbs_free_energy_per_link link_length_i hinge_mass_i link_stiffness_i force_i temperature_i) link_length) hinge_mass) link_stiffness) force) temperature

/-- `src/physics/single_chain/efjc/thermodynamics/isotensional/asymptotic/alternative/mod.jl` lines 315-343. -/
def relative_gibbs_free_energy (number_of_links : JArr Nat) (link_length : JArr α) (link_stiffness : JArr α) (force : JArr α) (temperature : JArr α) : Option (JArr α) :=
  JArr.ap (JArr.ap (JArr.ap (JArr.ap (JArr.map (fun (number_of_links_i : Nat) (link_length_i : α) (link_stiffness_i : α) (force_i : α) (temperature_i : α) => Polymers.C.physics_single_chain_efjc_thermodynamics_isotensional_asymptotic_alternative_relative_gibbs_free_energy number_of_links_i link_length_i link_stiffness_i force_i temperature_i) number_of_links) link_length) link_stiffness) force) temperature

/-- `src/physics/single_chain/efjc/thermodynamics/isotensional/asymptotic/alternative/mod.jl` lines 351-375. -/
def relative_gibbs_free_energy_per_link (link_length : JArr α) (link_stiffness : JArr α) (force : JArr α) (temperature : JArr α) : Option (JArr α) :=
  JArr.ap (JArr.ap (JArr.ap (JArr.map (fun (link_length_i : α) (link_stiffness_i : α) (force_i : α) (temperature_i : α) => Polymers.C.physics_single_chain_efjc_thermodynamics_isotensional_asymptotic_alternative_relative_gibbs_free_energy_per_link link_length_i link_stiffness_i force_i temperature_i) link_length) link_stiffness) force) temperature

/-- `src/physics/single_chain/efjc/thermodynamics/isotensional/asymptotic/alternative/mod.jl` lines 383-420. -/
def nondimensional_gibbs_free_energy (number_of_links : JArr Nat) (link_length : JArr α) (hinge_mass : JArr α) (nondimensional_link_stiffness : JArr α) (nondimensional_force : JArr α) (temperature : JArr α) : Option (JArr α) :=
  JArr.ap (JArr.ap (JArr.ap (JArr.ap (JArr.ap (JArr.map (fun (number_of_links_i : Nat) (link_length_i : α) (hinge_mass_i : α) (nondimensional_link_stiffness_i : α) (nondimensional_force_i : α) (temperature_i : α) => Polymers.C.physics_single_chain_efjc_thermodynamics_isotensional_asymptotic_alternative_nondimensional_gibbs_free_energy number_of_links_i link_length_i hinge_mass_i nondimensional_link_stiffness_i nondimensional_force_i temperature_i) number_of_links) link_length) hinge_mass) nondimensional_link_stiffness) nondimensional_force) temperature

/-- `src/physics/single_chain/efjc/thermodynamics/isotensional/asymptotic/alternative/mod.jl` lines 428-461. -/
def nondimensional_gibbs_free_energy_per_link (link_length : JArr α) (hinge_mass : JArr α) (nondimensional_link_stiffness : JArr α) (nondimensional_force : JArr α) (temperature : JArr α) : Option (JArr α) :=
  JArr.ap (JArr.ap (JArr.ap (JArr.ap (JArr.map (fun (link_length_i : α) (hinge_mass_i : α) (nondimensional_link_stiffness_i : α) (nondimensional_force_i : α) (temperature_i : α) => Polymers.C.physics_single_chain_efjc_thermodynamics_isotensional_asymptotic_alternative_nondimensional_gibbs_free_energy_per_link link_length_i hinge_mass_i nondimensional_link_stiffness_i nondimensional_force_i temperature_i) link_length) hinge_mass) nondimensional_link_stiffness) nondimensional_force) temperature

/-- `src/physics/single_chain/efjc/thermodynamics/isotensional/asymptotic/alternative/mod.jl` lines 469-491. -/
def nondimensional_relative_gibbs_free_energy (number_of_links : JArr Nat) (nondimensional_link_stiffness : JArr α) (nondimensional_force : JArr α) : Option (JArr α) :=
  JArr.ap (JArr.ap (JArr.map (fun (number_of_links_i : Nat) (nondimensional_link_stiffness_i : α) (nondimensional_force_i : α) => Polymers.C.physics_single_chain_efjc_thermodynamics_isotensional_asymptotic_alternative_nondimensional_relative_gibbs_free_energy number_of_links_i nondimensional_link_stiffness_i nondimensional_force_i) number_of_links) nondimensional_link_stiffness) nondimensional_force

/-- `src/physics/single_chain/efjc/thermodynamics/isotensional/asymptotic/alternative/mod.jl` lines 504-522. -/
def nondimensional_relative_gibbs_free_energy_per_link (nondimensional_link_stiffness : JArr α) (nondimensional_force : JArr α) : Option (JArr α) :=
  JArr.ap (JArr.map (fun (nondimensional_link_stiffness_i : α) (nondimensional_force_i : α) => Polymers.C.physics_single_chain_efjc_thermodynamics_isotensional_asymptotic_alternative_nondimensional_relative_gibbs_free_energy_per_link nondimensional_link_stiffness_i nondimensional_force_i) nondimensional_link_stiffness) nondimensional_force

/-- `src/physics/single_chain/efjc/thermodynamics/isotensional/asymptotic/alternative/mod.jl` lines 529-614. -/
def EFJC.new (other : α → JArr α → Option (JArr α)) (number_of_links : Nat) (link_length : α) (hinge_mass : α) (link_stiffness : α) : Polymers.Julia.Efjc.Thermodynamics.Isotensional.Asymptotic.Alternative.EFJC α :=
  let BOLTZMANN_CONSTANT : α := 8.314462618
  Polymers.Julia.Efjc.Thermodynamics.Isotensional.Asymptotic.Alternative.EFJC.mk
    number_of_links
    link_length
    hinge_mass
    link_stiffness
    (Polymers.Julia.Efjc.Thermodynamics.Isotensional.Asymptotic.Alternative.Legendre.EFJC.new other number_of_links link_length hinge_mass link_stiffness)
    (fun (force : JArr α) (temperature : JArr α) => Polymers.Julia.Efjc.Thermodynamics.Isotensional.Asymptotic.Alternative.end_to_end_length (JArr.scalar number_of_links) (JArr.scalar link_length) (JArr.scalar link_stiffness) force temperature)
    (fun (force : JArr α) (temperature : JArr α) => Polymers.Julia.Efjc.Thermodynamics.Isotensional.Asymptotic.Alternative.end_to_end_length_per_link (JArr.scalar link_length) (JArr.scalar link_stiffness) force temperature)
    (fun (nondimensional_force : JArr α) (temperature : JArr α) => (JArr.quotient other (link_stiffness * Elem.powi link_length 2 / BOLTZMANN_CONSTANT) temperature).bind fun q1 => Polymers.Julia.Efjc.Thermodynamics.Isotensional.Asymptotic.Alternative.nondimensional_end_to_end_length (JArr.scalar number_of_links) q1 nondimensional_force)
    (fun (nondimensional_force : JArr α) (temperature : JArr α) => (JArr.quotient other (link_stiffness * Elem.powi link_length 2 / BOLTZMANN_CONSTANT) temperature).bind fun q0 => Polymers.Julia.Efjc.Thermodynamics.Isotensional.Asymptotic.Alternative.nondimensional_end_to_end_length_per_link q0 nondimensional_force)
    (fun (force : JArr α) (temperature : JArr α) => Polymers.Julia.Efjc.Thermodynamics.Isotensional.Asymptotic.Alternative.gibbs_free_energy (JArr.scalar number_of_links) (JArr.scalar link_length) (JArr.scalar hinge_mass) (JArr.scalar link_stiffness) force temperature)
    (fun (force : JArr α) (temperature : JArr α) => Polymers.Julia.Efjc.Thermodynamics.Isotensional.Asymptotic.Alternative.gibbs_free_energy_per_link (JArr.scalar link_length) (JArr.scalar hinge_mass) (JArr.scalar link_stiffness) force temperature)
    (fun (force : JArr α) (temperature : JArr α) => Polymers.Julia.Efjc.Thermodynamics.Isotensional.Asymptotic.Alternative.relative_gibbs_free_energy (JArr.scalar number_of_links) (JArr.scalar link_length) (JArr.scalar link_stiffness) force temperature)
    (fun (force : JArr α) (temperature : JArr α) => Polymers.Julia.Efjc.Thermodynamics.Isotensional.Asymptotic.Alternative.relative_gibbs_free_energy_per_link (JArr.scalar link_length) (JArr.scalar link_stiffness) force temperature)
    (fun (nondimensional_force : JArr α) (temperature : JArr α) => (JArr.quotient other (link_stiffness * Elem.powi link_length 2 / BOLTZMANN_CONSTANT) temperature).bind fun q3 => Polymers.Julia.Efjc.Thermodynamics.Isotensional.Asymptotic.Alternative.nondimensional_gibbs_free_energy (JArr.scalar number_of_links) (JArr.scalar link_length) (JArr.scalar hinge_mass) q3 nondimensional_force temperature)
    (fun (nondimensional_force : JArr α) (temperature : JArr α) => (JArr.quotient other (link_stiffness * Elem.powi link_length 2 / BOLTZMANN_CONSTANT) temperature).bind fun q2 => Polymers.Julia.Efjc.Thermodynamics.Isotensional.Asymptotic.Alternative.nondimensional_gibbs_free_energy_per_link (JArr.scalar link_length) (JArr.scalar hinge_mass) q2 nondimensional_force temperature)
    (fun (nondimensional_force : JArr α) (temperature : JArr α) => (JArr.quotient other (link_stiffness * Elem.powi link_length 2 / BOLTZMANN_CONSTANT) temperature).bind fun q1 => Polymers.Julia.Efjc.Thermodynamics.Isotensional.Asymptotic.Alternative.nondimensional_relative_gibbs_free_energy (JArr.scalar number_of_links) q1 nondimensional_force)
    (fun (nondimensional_force : JArr α) (temperature : JArr α) => (JArr.quotient other (link_stiffness * Elem.powi link_length 2 / BOLTZMANN_CONSTANT) temperature).bind fun q0 => Polymers.Julia.Efjc.Thermodynamics.Isotensional.Asymptotic.Alternative.nondimensional_relative_gibbs_free_energy_per_link q0 nondimensional_force)

end Polymers.Julia.Efjc.Thermodynamics.Isotensional.Asymptotic.Alternative

namespace Polymers.Julia.Efjc.Thermodynamics.Isotensional.Asymptotic.Reduced.Legendre

/-- `src/physics/single_chain/efjc/thermodynamics/isotensional/asymptotic/reduced/legendre/mod.jl` lines 77-114. -/
def helmholtz_free_energy (number_of_links : JArr Nat) (link_length : JArr α) (hinge_mass : JArr α) (link_stiffness : JArr α) (force : JArr α) (temperature : JArr α) : Option (JArr α) :=
  JArr.ap (JArr.ap (JArr.ap (JArr.ap (JArr.ap (JArr.map (fun (number_of_links_i : Nat) (link_length_i : α) (hinge_mass_i : α) (link_stiffness_i : α) (force_i : α) (temperature_i : α) => Polymers.C.physics_single_chain_efjc_thermodynamics_isotensional_asymptotic_reduced_legendre_helmholtz_free_energy number_of_links_i link_length_i hinge_mass_i link_stiffness_i force_i temperature_i) number_of_links) link_length) hinge_mass) link_stiffness) force) temperature

/-- `src/physics/single_chain/efjc/thermodynamics/isotensional/asymptotic/reduced/legendre/mod.jl` lines 122-149. -/
def helmholtz_free_energy_per_link (link_length : JArr α) (hinge_mass : JArr α) (link_stiffness : JArr α) (force : JArr α) (temperature : JArr α) : Option (JArr α) :=
  JArr.ap (JArr.ap (JArr.ap (JArr.ap (JArr.map (fun (link_length_i : α) (hinge_mass_i : α) (link_stiffness_i : α) (force_i : α) (temperature_i : α) => Polymers.C.physics_single_chain_efjc_thermodynamics_isotensional_asymptotic_reduced_legendre_helmholtz_free_energy_per_link link_length_i hinge_mass_i link_stiffness_i force_i temperature_i) link_length) hinge_mass) link_stiffness) force) temperature

/-- `src/physics/single_chain/efjc/thermodynamics/isotensional/asymptotic/reduced/legendre/mod.jl` lines 157-185. -/
def relative_helmholtz_free_energy (number_of_links : JArr Nat) (link_length : JArr α) (link_stiffness : JArr α) (force : JArr α) (temperature : JArr α) : Option (JArr α) :=
  JArr.ap (JArr.ap (JArr.ap (JArr.ap (JArr.map (fun (number_of_links_i : Nat) (link_length_i : α) (link_stiffness_i : α) (force_i : α) (temperature_i : α) => Polymers.C.physics_single_chain_efjc_thermodynamics_isotensional_asymptotic_reduced_legendre_relative_helmholtz_free_energy number_of_links_i link_length_i link_stiffness_i force_i temperature_i) number_of_links) link_length) link_stiffness) force) temperature

/-- `src/physics/single_chain/efjc/thermodynamics/isotensional/asymptotic/reduced/legendre/mod.jl` lines 193-217. -/
def relative_helmholtz_free_energy_per_link (link_length : JArr α) (link_stiffness : JArr α) (force : JArr α) (temperature : JArr α) : Option (JArr α) :=
  JArr.ap (JArr.ap (JArr.ap (JArr.map (fun (link_length_i : α) (link_stiffness_i : α) (force_i : α) (temperature_i : α) => Polymers.C.physics_single_chain_efjc_thermodynamics_isotensional_asymptotic_reduced_legendre_relative_helmholtz_free_energy_per_link link_length_i link_stiffness_i force_i temperature_i) link_length) link_stiffness) force) temperature

/-- `src/physics/single_chain/efjc/thermodynamics/isotensional/asymptotic/reduced/legendre/mod.jl` lines 225-262. -/
def nondimensional_helmholtz_free_energy (number_of_links : JArr Nat) (link_length : JArr α) (hinge_mass : JArr α) (nondimensional_link_stiffness : JArr α) (nondimensional_force : JArr α) (temperature : JArr α) : Option (JArr α) :=
  JArr.ap (JArr.ap (JArr.ap (JArr.ap (JArr.ap (JArr.map (fun (number_of_links_i : Nat) (link_length_i : α) (hinge_mass_i : α) (nondimensional_link_stiffness_i : α) (nondimensional_force_i : α) (temperature_i : α) => Polymers.C.physics_single_chain_efjc_thermodynamics_isotensional_asymptotic_reduced_legendre_nondimensional_helmholtz_free_energy number_of_links_i link_length_i hinge_mass_i nondimensional_link_stiffness_i nondimensional_force_i temperature_i) number_of_links) link_length) hinge_mass) nondimensional_link_stiffness) nondimensional_force) temperature

/-- `src/physics/single_chain/efjc/thermodynamics/isotensional/asymptotic/reduced/legendre/mod.jl` lines 270-303. -/
def nondimensional_helmholtz_free_energy_per_link (link_length : JArr α) (hinge_mass : JArr α) (nondimensional_link_stiffness : JArr α) (nondimensional_force : JArr α) (temperature : JArr α) : Option (JArr α) :=
  JArr.ap (JArr.ap (JArr.ap (JArr.ap (JArr.map (fun (link_length_i : α) (hinge_mass_i : α) (nondimensional_link_stiffness_i : α) (nondimensional_force_i : α) (temperature_i : α) => Polymers.C.physics_single_chain_efjc_thermodynamics_isotensional_asymptotic_reduced_legendre_nondimensional_helmholtz_free_energy_per_link link_length_i hinge_mass_i nondimensional_link_stiffness_i nondimensional_force_i temperature_i) link_length) hinge_mass) nondimensional_link_stiffness) nondimensional_force) temperature

/-- `src/physics/single_chain/efjc/thermodynamics/isotensional/asymptotic/reduced/legendre/mod.jl` lines 311-333. -/
def nondimensional_relative_helmholtz_free_energy (number_of_links : JArr Nat) (nondimensional_link_stiffness : JArr α) (nondimensional_force : JArr α) : Option (JArr α) :=
  JArr.ap (JArr.ap (JArr.map (fun (number_of_links_i : Nat) (nondimensional_link_stiffness_i : α) (nondimensional_force_i : α) => Polymers.C.physics_single_chain_efjc_thermodynamics_isotensional_asymptotic_reduced_legendre_nondimensional_relative_helmholtz_free_energy number_of_links_i nondimensional_link_stiffness_i nondimensional_force_i) number_of_links) nondimensional_link_stiffness) nondimensional_force

/-- `src/physics/single_chain/efjc/thermodynamics/isotensional/asymptotic/reduced/legendre/mod.jl` lines 341-359. -/
def nondimensional_relative_helmholtz_free_energy_per_link (nondimensional_link_stiffness : JArr α) (nondimensional_force : JArr α) : Option (JArr α) :=
  JArr.ap (JArr.map (fun (nondimensional_link_stiffness_i : α) (nondimensional_force_i : α) => Polymers.C.physics_single_chain_efjc_thermodynamics_isotensional_asymptotic_reduced_legendre_nondimensional_relative_helmholtz_free_energy_per_link nondimensional_link_stiffness_i nondimensional_force_i) nondimensional_link_stiffness) nondimensional_force

/-- `src/physics/single_chain/efjc/thermodynamics/isotensional/asymptotic/reduced/legendre/mod.jl` lines 366-434. -/
def EFJC.new (other : α → JArr α → Option (JArr α)) (number_of_links : Nat) (link_length : α) (hinge_mass : α) (link_stiffness : α) : Polymers.Julia.Efjc.Thermodynamics.Isotensional.Asymptotic.Reduced.Legendre.EFJC α :=
  let BOLTZMANN_CONSTANT : α := 8.314462618
  Polymers.Julia.Efjc.Thermodynamics.Isotensional.Asymptotic.Reduced.Legendre.EFJC.mk
    number_of_links
    link_length
    hinge_mass
    link_stiffness
    (fun (force : JArr α) (temperature : JArr α) => Polymers.Julia.Efjc.Thermodynamics.Isotensional.Asymptotic.Reduced.Legendre.helmholtz_free_energy (JArr.scalar number_of_links) (JArr.scalar link_length) (JArr.scalar hinge_mass) (JArr.scalar link_stiffness) force temperature)
    (fun (force : JArr α) (temperature : JArr α) => Polymers.Julia.Efjc.Thermodynamics.Isotensional.Asymptotic.Reduced.Legendre.helmholtz_free_energy_per_link (JArr.scalar link_length) (JArr.scalar hinge_mass) (JArr.scalar link_stiffness) force temperature)
    (fun (force : JArr α) (temperature : JArr α) => Polymers.Julia.Efjc.Thermodynamics.Isotensional.Asymptotic.Reduced.Legendre.relative_helmholtz_free_energy (JArr.scalar number_of_links) (JArr.scalar link_length) (JArr.scalar link_stiffness) force temperature)
    (fun (force : JArr α) (temperature : JArr α) => Polymers.Julia.Efjc.Thermodynamics.Isotensional.Asymptotic.Reduced.Legendre.relative_helmholtz_free_energy_per_link (JArr.scalar link_length) (JArr.scalar link_stiffness) force temperature)
    (fun (nondimensional_force : JArr α) (temperature : JArr α) => (JArr.quotient other (link_stiffness * Elem.powi link_length 2 / BOLTZMANN_CONSTANT) temperature).bind fun q3 => Polymers.Julia.Efjc.Thermodynamics.Isotensional.Asymptotic.Reduced.Legendre.nondimensional_helmholtz_free_energy (JArr.scalar number_of_links) (JArr.scalar link_length) (JArr.scalar hinge_mass) q3 nondimensional_force temperature)
    (fun (nondimensional_force : JArr α) (temperature : JArr α) => (JArr.quotient other (link_stiffness * Elem.powi link_length 2 / BOLTZMANN_CONSTANT) temperature).bind fun q2 => Polymers.Julia.Efjc.Thermodynamics.Isotensional.Asymptotic.Reduced.Legendre.nondimensional_helmholtz_free_energy_per_link (JArr.scalar link_length) (JArr.scalar hinge_mass) q2 nondimensional_force temperature)
    (fun (nondimensional_force : JArr α) (temperature : JArr α) => (JArr.quotient other (link_stiffness * Elem.powi link_length 2 / BOLTZMANN_CONSTANT) temperature).bind fun q1 => Polymers.Julia.Efjc.Thermodynamics.Isotensional.Asymptotic.Reduced.Legendre.nondimensional_relative_helmholtz_free_energy (JArr.scalar number_of_links) q1 nondimensional_force)
    (fun (nondimensional_force : JArr α) (temperature : JArr α) => (JArr.quotient other (link_stiffness * Elem.powi link_length 2 / BOLTZMANN_CONSTANT) temperature).bind fun q0 => Polymers.Julia.Efjc.Thermodynamics.Isotensional.Asymptotic.Reduced.Legendre.nondimensional_relative_helmholtz_free_energy_per_link q0 nondimensional_force)

end Polymers.Julia.Efjc.Thermodynamics.Isotensional.Asymptotic.Reduced.Legendre

namespace Polymers.Julia.Efjc.Thermodynamics.Isotensional.Asymptotic.Reduced

/-- `src/physics/single_chain/efjc/thermodynamics/isotensional/asymptotic/reduced/mod.jl` lines 100-128. -/
def end_to_end_length (number_of_links : JArr Nat) (link_length : JArr α) (link_stiffness : JArr α) (force : JArr α) (temperature : JArr α) : Option (JArr α) :=
  JArr.ap (JArr.ap (JArr.ap (JArr.ap (JArr.map (fun (number_of_links_i : Nat) (link_length_i : α) (link_stiffness_i : α) (force_i : α) (temperature_i : α) => Polymers.C.physics_single_chain_efjc_thermodynamics_isotensional_asymptotic_reduced_end_to_end_length number_of_links_i link_length_i link_stiffness_i force_i temperature_i) number_of_links) link_length) link_stiffness) force) temperature

/-- `src/physics/single_chain/efjc/thermodynamics/isotensional/asymptotic/reduced/mod.jl` lines 136-160. -/
def end_to_end_length_per_link (link_length : JArr α) (link_stiffness : JArr α) (force : JArr α) (temperature : JArr α) : Option (JArr α) :=
  JArr.ap (JArr.ap (JArr.ap (JArr.map (fun (link_length_i : α) (link_stiffness_i : α) (force_i : α) (temperature_i : α) => Polymers.C.physics_single_chain_efjc_thermodynamics_isotensional_asymptotic_reduced_end_to_end_length_per_link link_length_i link_stiffness_i force_i temperature_i) link_length) link_stiffness) force) temperature

/-- `src/physics/single_chain/efjc/thermodynamics/isotensional/asymptotic/reduced/mod.jl` lines 168-190. -/
def nondimensional_end_to_end_length (number_of_links : JArr Nat) (nondimensional_link_stiffness : JArr α) (nondimensional_force : JArr α) : Option (JArr α) :=
  JArr.ap (JArr.ap (JArr.map (fun (number_of_links_i : Nat) (nondimensional_link_stiffness_i : α) (nondimensional_force_i : α) => Polymers.C.physics_single_chain_efjc_thermodynamics_isotensional_asymptotic_reduced_nondimensional_end_to_end_length number_of_links_i nondimensional_link_stiffness_i nondimensional_force_i) number_of_links) nondimensional_link_stiffness) nondimensional_force

/-- `src/physics/single_chain/efjc/thermodynamics/isotensional/asymptotic/reduced/mod.jl` lines 205-223. -/
def nondimensional_end_to_end_length_per_link (nondimensional_link_stiffness : JArr α) (nondimensional_force : JArr α) : Option (JArr α) :=
  JArr.ap (JArr.map (fun (nondimensional_link_stiffness_i : α) (nondimensional_force_i : α) => Polymers.C.physics_single_chain_efjc_thermodynamics_isotensional_asymptotic_reduced_nondimensional_end_to_end_length_per_link nondimensional_link_stiffness_i nondimensional_force_i) nondimensional_link_stiffness) nondimensional_force

/-- `src/physics/single_chain/efjc/thermodynamics/isotensional/asymptotic/reduced/mod.jl` lines 235-272. -/
def gibbs_free_energy (number_of_links : JArr Nat) (link_length : JArr α) (hinge_mass : JArr α) (link_stiffness : JArr α) (force : JArr α) (temperature : JArr α) : Option (JArr α) :=
  JArr.ap (JArr.ap (JArr.ap (JArr.ap (JArr.ap (JArr.map (fun (number_of_links_i : Nat) (link_length_i : α) (hinge_mass_i : α) (link_stiffness_i : α) (force_i : α) (temperature_i : α) => Polymers.C.physics_single_chain_efjc_thermodynamics_isotensional_asymptotic_reduced_gibbs_free_energy number_of_links_i link_length_i hinge_mass_i link_stiffness_i force_i temperature_i) number_of_links) link_length) hinge_mass) link_stiffness) force) temperature

/-- `src/physics/single_chain/efjc/thermodynamics/isotensional/asymptotic/reduced/mod.jl` lines 280-307. -/
def gibbs_free_energy_per_link (link_length : JArr α) (hinge_mass : JArr α) (link_stiffness : JArr α) (force : JArr α) (temperature : JArr α) : Option (JArr α) :=
  JArr.ap (JArr.ap (JArr.ap (JArr.ap (JArr.map (fun (link_length_i : α) (hinge_mass_i : α) (link_stiffness_i : α) (force_i : α) (temperature_i : α) => Polymers.C.physics_single_chain_efjc_thermodynamics_isotensional_asymptotic_reduced_gibbs_free_energy_per_link link_length_i hinge_mass_i link_stiffness_i force_i temperature_i) link_length) hinge_mass) link_stiffness) force) temperature

/-- `src/physics/single_chain/efjc/thermodynamics/isotensional/asymptotic/reduced/mod.jl` lines 315-343. -/
def relative_gibbs_free_energy (number_of_links : JArr Nat) (link_length : JArr α) (link_stiffness : JArr α) (force : JArr α) (temperature : JArr α) : Option (JArr α) :=
  JArr.ap (JArr.ap (JArr.ap (JArr.ap (JArr.map (fun (number_of_links_i : Nat) (link_length_i : α) (link_stiffness_i : α) (force_i : α) (temperature_i : α) => Polymers.C.physics_single_chain_efjc_thermodynamics_isotensional_asymptotic_reduced_relative_gibbs_free_energy number_of_links_i link_length_i link_stiffness_i force_i temperature_i) number_of_links) link_length) link_stiffness) force) temperature

/-- `src/physics/single_chain/efjc/thermodynamics/isotensional/asymptotic/reduced/mod.jl` lines 351-375. -/
def relative_gibbs_free_energy_per_link (link_length : JArr α) (link_stiffness : JArr α) (force : JArr α) (temperature : JArr α) : Option (JArr α) :=
  JArr.ap (JArr.ap (JArr.ap (JArr.map (fun (link_length_i : α) (link_stiffness_i : α) (force_i : α) (temperature_i : α) => Polymers.C.physics_single_chain_efjc_thermodynamics_isotensional_asymptotic_reduced_relative_gibbs_free_energy_per_link link_length_i link_stiffness_i force_i temperature_i) link_length) link_stiffness) force) temperature

/-- `src/physics/single_chain/efjc/thermodynamics/isotensional/asymptotic/reduced/mod.jl` lines 383-420. -/
def nondimensional_gibbs_free_energy (number_of_links : JArr Nat) (link_length : JArr α) (hinge_mass : JArr α) (nondimensional_link_stiffness : JArr α) (nondimensional_force : JArr α) (temperature : JArr α) : Option (JArr α) :=
  JArr.ap (JArr.ap (JArr.ap (JArr.ap (JArr.ap (JArr.map (fun (number_of_links_i : Nat) (link_length_i : α) (hinge_mass_i : α) (nondimensional_link_stiffness_i : α) (nondimensional_force_i : α) (temperature_i : α) => Polymers.C.physics_single_chain_efjc_thermodynamics_isotensional_asymptotic_reduced_nondimensional_gibbs_free_energy number_of_links_i link_length_i hinge_mass_i nondimensional_link_stiffness_i nondimensional_force_i temperature_i) number_of_links) link_length) hinge_mass) nondimensional_link_stiffness) nondimensional_force) temperature

/-- `src/physics/single_chain/efjc/thermodynamics/isotensional/asymptotic/reduced/mod.jl` lines 428-461. -/
def nondimensional_gibbs_free_energy_per_link (link_length : JArr α) (hinge_mass : JArr α) (nondimensional_link_stiffness : JArr α) (nondimensional_force : JArr α) (temperature : JArr α) : Option (JArr α) :=
  JArr.ap (JArr.ap (JArr.ap (JArr.ap (JArr.map (fun (link_length_i : α) (hinge_mass_i : α) (nondimensional_link_stiffness_i : α) (nondimensional_force_i : α) (temperature_i : α) => Polymers.C.physics_single_chain_efjc_thermodynamics_isotensional_asymptotic_reduced_nondimensional_gibbs_free_energy_per_link link_length_i hinge_mass_i nondimensional_link_stiffness_i nondimensional_force_i temperature_i) link_length) hinge_mass) nondimensional_link_stiffness) nondimensional_force) temperature

/-- `src/physics/single_chain/efjc/thermodynamics/isotensional/asymptotic/reduced/mod.jl` lines 469-491. -/
def nondimensional_relative_gibbs_free_energy (number_of_links : JArr Nat) (nondimensional_link_stiffness : JArr α) (nondimensional_force : JArr α) : Option (JArr α) :=
  JArr.ap (JArr.ap (JArr.map (fun (number_of_links_i : Nat) (nondimensional_link_stiffness_i : α) (nondimensional_force_i : α) => Polymers.C.physics_single_chain_efjc_thermodynamics_isotensional_asymptotic_reduced_nondimensional_relative_gibbs_free_energy number_of_links_i nondimensional_link_stiffness_i nondimensional_force_i) number_of_links) nondimensional_link_stiffness) nondimensional_force

/-- `src/physics/single_chain/efjc/thermodynamics/isotensional/asymptotic/reduced/mod.jl` lines 504-522. -/
def nondimensional_relative_gibbs_free_energy_per_link (nondimensional_link_stiffness : JArr α) (nondimensional_force : JArr α) : Option (JArr α) :=
  JArr.ap (JArr.map (fun (nondimensional_link_stiffness_i : α) (nondimensional_force_i : α) => Polymers.C.physics_single_chain_efjc_thermodynamics_isotensional_asymptotic_reduced_nondimensional_relative_gibbs_free_energy_per_link nondimensional_link_stiffness_i nondimensional_force_i) nondimensional_link_stiffness) nondimensional_force

/-- `src/physics/single_chain/efjc/thermodynamics/isotensional/asymptotic/reduced/mod.jl` lines 529-614. -/
def EFJC.new (other : α → JArr α → Option (JArr α)) (number_of_links : Nat) (link_length : α) (hinge_mass : α) (link_stiffness : α) : Polymers.Julia.Efjc.Thermodynamics.Isotensional.Asymptotic.Reduced.EFJC α :=
  let BOLTZMANN_CONSTANT : α := 8.314462618
  Polymers.Julia.Efjc.Thermodynamics.Isotensional.Asymptotic.Reduced.EFJC.mk
    number_of_links
    link_length
    hinge_mass
    link_stiffness
    (Polymers.Julia.Efjc.Thermodynamics.Isotensional.Asymptotic.Reduced.Legendre.EFJC.new other number_of_links link_length hinge_mass link_stiffness)
    (fun (force : JArr α) (temperature : JArr α) => Polymers.Julia.Efjc.Thermodynamics.Isotensional.Asymptotic.Reduced.end_to_end_length (JArr.scalar number_of_links) (JArr.scalar link_length) (JArr.scalar link_stiffness) force temperature)
    (fun (force : JArr α) (temperature : JArr α) => Polymers.Julia.Efjc.Thermodynamics.Isotensional.Asymptotic.Reduced.end_to_end_length_per_link (JArr.scalar link_length) (JArr.scalar link_stiffness) force temperature)
    (fun (nondimensional_force : JArr α) (temperature : JArr α) => (JArr.quotient other (link_stiffness * Elem.powi link_length 2 / BOLTZMANN_CONSTANT) temperature).bind fun q1 => Polymers.Julia.Efjc.Thermodynamics.Isotensional.Asymptotic.Reduced.nondimensional_end_to_end_length (JArr.scalar number_of_links) q1 nondimensional_force)
    (fun (nondimensional_force : JArr α) (temperature : JArr α) => (JArr.quotient other (link_stiffness * Elem.powi link_length 2 / BOLTZMANN_CONSTANT) temperature).bind fun q0 => Polymers.Julia.Efjc.Thermodynamics.Isotensional.Asymptotic.Reduced.nondimensional_end_to_end_length_per_link q0 nondimensional_force)
    (fun (force : JArr α) (temperature : JArr α) => Polymers.Julia.Efjc.Thermodynamics.Isotensional.Asymptotic.Reduced.gibbs_free_energy (JArr.scalar number_of_links) (JArr.scalar link_length) (JArr.scalar hinge_mass) (JArr.scalar link_stiffness) force temperature)
    (fun (force : JArr α) (temperature : JArr α) => Polymers.Julia.Efjc.Thermodynamics.Isotensional.Asymptotic.Reduced.gibbs_free_energy_per_link (JArr.scalar link_length) (JArr.scalar hinge_mass) (JArr.scalar link_stiffness) force temperature)
    (fun (force : JArr α) (temperature : JArr α) => Polymers.Julia.Efjc.Thermodynamics.Isotensional.Asymptotic.Reduced.relative_gibbs_free_energy (JArr.scalar number_of_links) (JArr.scalar link_length) (JArr.scalar link_stiffness) force temperature)
    (fun (force : JArr α) (temperature : JArr α) => Polymers.Julia.Efjc.Thermodynamics.Isotensional.Asymptotic.Reduced.relative_gibbs_free_energy_per_link (JArr.scalar link_length) (JArr.scalar link_stiffness) force temperature)
    (fun (nondimensional_force : JArr α) (temperature : JArr α) => (JArr.quotient other (link_stiffness * Elem.powi link_length 2 / BOLTZMANN_CONSTANT) temperature).bind fun q3 => Polymers.Julia.Efjc.Thermodynamics.Isotensional.Asymptotic.Reduced.nondimensional_gibbs_free_energy (JArr.scalar number_of_links) (JArr.scalar link_length) (JArr.scalar hinge_mass) q3 nondimensional_force temperature)
    (fun (nondimensional_force : JArr α) (temperature : JArr α) => (JArr.quotient other (link_stiffness * Elem.powi link_length 2 / BOLTZMANN_CONSTANT) temperature).bind fun q2 => Polymers.Julia.Efjc.Thermodynamics.Isotensional.Asymptotic.Reduced.nondimensional_gibbs_free_energy_per_link (JArr.scalar link_length) (JArr.scalar hinge_mass) q2 nondimensional_force temperature)
    (fun (nondimensional_force : JArr α) (temperature : JArr α) => (JArr.quotient other (link_stiffness * Elem.powi link_length 2 / BOLTZMANN_CONSTANT) temperature).bind fun q1 => Polymers.Julia.Efjc.Thermodynamics.Isotensional.Asymptotic.Reduced.nondimensional_relative_gibbs_free_energy (JArr.scalar number_of_links) q1 nondimensional_force)
    (fun (nondimensional_force : JArr α) (temperature : JArr α) => (JArr.quotient other (link_stiffness * Elem.powi link_length 2 / BOLTZMANN_CONSTANT) temperature).bind fun q0 => Polymers.Julia.Efjc.Thermodynamics.Isotensional.Asymptotic.Reduced.nondimensional_relative_gibbs_free_energy_per_link q0 nondimensional_force)

end Polymers.Julia.Efjc.Thermodynamics.Isotensional.Asymptotic.Reduced

namespace Polymers.Julia.Efjc.Thermodynamics.Isotensional.Asymptotic.Legendre

/-- `src/physics/single_chain/efjc/thermodynamics/isotensional/asymptotic/legendre/mod.jl` lines 77-114. -/
def helmholtz_free_energy (number_of_links : JArr Nat) (link_length : JArr α) (hinge_mass : JArr α) (link_stiffness : JArr α) (force : JArr α) (temperature : JArr α) : Option (JArr α) :=
  JArr.ap (JArr.ap (JArr.ap (JArr.ap (JArr.ap (JArr.map (fun (number_of_links_i : Nat) (link_length_i : α) (hinge_mass_i : α) (link_stiffness_i : α) (force_i : α) (temperature_i : α) => Polymers.C.physics_single_chain_efjc_thermodynamics_isotensional_asymptotic_legendre_helmholtz_free_energy number_of_links_i link_length_i hinge_mass_i link_stiffness_i force_i temperature_i) number_of_links) link_length) hinge_mass) link_stiffness) force) temperature

/-- `src/physics/single_chain/efjc/thermodynamics/isotensional/asymptotic/legendre/mod.jl` lines 122-149. -/
def helmholtz_free_energy_per_link (link_length : JArr α) (hinge_mass : JArr α) (link_stiffness : JArr α) (force : JArr α) (temperature : JArr α) : Option (JArr α) :=
  JArr.ap (JArr.ap (JArr.ap (JArr.ap (JArr.map (fun (link_length_i : α) (hinge_mass_i : α) (link_stiffness_i : α) (force_i : α) (temperature_i : α) => Polymers.C.physics_single_chain_efjc_thermodynamics_isotensional_asymptotic_legendre_helmholtz_free_energy_per_link link_length_i hinge_mass_i link_stiffness_i force_i temperature_i) link_length) hinge_mass) link_stiffness) force) temperature

/-- `src/physics/single_chain/efjc/thermodynamics/isotensional/asymptotic/legendre/mod.jl` lines 157-185. -/
def relative_helmholtz_free_energy (number_of_links : JArr Nat) (link_length : JArr α) (link_stiffness : JArr α) (force : JArr α) (temperature : JArr α) : Option (JArr α) :=
  JArr.ap (JArr.ap (JArr.ap (JArr.ap (JArr.map (fun (number_of_links_i : Nat) (link_length_i : α) (link_stiffness_i : α) (force_i : α) (temperature_i : α) => Polymers.C.physics_single_chain_efjc_thermodynamics_isotensional_asymptotic_legendre_relative_helmholtz_free_energy number_of_links_i link_length_i link_stiffness_i force_i temperature_i) number_of_links) link_length) link_stiffness) force) temperature

/-- `src/physics/single_chain/efjc/thermodynamics/isotensional/asymptotic/legendre/mod.jl` lines 193-217. -/
def relative_helmholtz_free_energy_per_link (link_length : JArr α) (link_stiffness : JArr α) (force : JArr α) (temperature : JArr α) : Option (JArr α) :=
  JArr.ap (JArr.ap (JArr.ap (JArr.map (fun (link_length_i : α) (link_stiffness_i : α) (force_i : α) (temperature_i : α) => Polymers.C.physics_single_chain_efjc_thermodynamics_isotensional_asymptotic_legendre_relative_helmholtz_free_energy_per_link link_length_i link_stiffness_i force_i temperature_i) link_length) link_stiffness) force) temperature

/-- `src/physics/single_chain/efjc/thermodynamics/isotensional/asymptotic/legendre/mod.jl` lines 225-262. -/
def nondimensional_helmholtz_free_energy (number_of_links : JArr Nat) (link_length : JArr α) (hinge_mass : JArr α) (nondimensional_link_stiffness : JArr α) (nondimensional_force : JArr α) (temperature : JArr α) : Option (JArr α) :=
  JArr.ap (JArr.ap (JArr.ap (JArr.ap (JArr.ap (JArr.map (fun (number_of_links_i : Nat) (link_length_i : α) (hinge_mass_i : α) (nondimensional_link_stiffness_i : α) (nondimensional_force_i : α) (temperature_i : α) => Polymers.C.physics_single_chain_efjc_thermodynamics_isotensional_asymptotic_legendre_nondimensional_helmholtz_free_energy number_of_links_i link_length_i hinge_mass_i nondimensional_link_stiffness_i nondimensional_force_i temperature_i) number_of_links) link_length) hinge_mass) nondimensional_link_stiffness) nondimensional_force) temperature

/-- `src/physics/single_chain/efjc/thermodynamics/isotensional/asymptotic/legendre/mod.jl` lines 270-303. -/
def nondimensional_helmholtz_free_energy_per_link (link_length : JArr α) (hinge_mass : JArr α) (nondimensional_link_stiffness : JArr α) (nondimensional_force : JArr α) (temperature : JArr α) : Option (JArr α) :=
  JArr.ap (JArr.ap (JArr.ap (JArr.ap (JArr.map (fun (link_length_i : α) (hinge_mass_i : α) (nondimensional_link_stiffness_i : α) (nondimensional_force_i : α) (temperature_i : α) => Polymers.C.physics_single_chain_efjc_thermodynamics_isotensional_asymptotic_legendre_nondimensional_helmholtz_free_energy_per_link link_length_i hinge_mass_i nondimensional_link_stiffness_i nondimensional_force_i temperature_i) link_length) hinge_mass) nondimensional_link_stiffness) nondimensional_force) temperature

/-- `src/physics/single_chain/efjc/thermodynamics/isotensional/asymptotic/legendre/mod.jl` lines 311-333. -/
def nondimensional_relative_helmholtz_free_energy (number_of_links : JArr Nat) (nondimensional_link_stiffness : JArr α) (nondimensional_force : JArr α) : Option (JArr α) :=
  JArr.ap (JArr.ap (JArr.map (fun (number_of_links_i : Nat) (nondimensional_link_stiffness_i : α) (nondimensional_force_i : α) => Polymers.C.physics_single_chain_efjc_thermodynamics_isotensional_asymptotic_legendre_nondimensional_relative_helmholtz_free_energy number_of_links_i nondimensional_link_stiffness_i nondimensional_force_i) number_of_links) nondimensional_link_stiffness) nondimensional_force

/-- `src/physics/single_chain/efjc/thermodynamics/isotensional/asymptotic/legendre/mod.jl` lines 341-359. -/
def nondimensional_relative_helmholtz_free_energy_per_link (nondimensional_link_stiffness : JArr α) (nondimensional_force : JArr α) : Option (JArr α) :=
  JArr.ap (JArr.map (fun (nondimensional_link_stiffness_i : α) (nondimensional_force_i : α) => Polymers.C.physics_single_chain_efjc_thermodynamics_isotensional_asymptotic_legendre_nondimensional_relative_helmholtz_free_energy_per_link nondimensional_link_stiffness_i nondimensional_force_i) nondimensional_link_stiffness) nondimensional_force

/-- `src/physics/single_chain/efjc/thermodynamics/isotensional/asymptotic/legendre/mod.jl` lines 366-434. -/
def EFJC.new (other : α → JArr α → Option (JArr α)) (number_of_links : Nat) (link_length : α) (hinge_mass : α) (link_stiffness : α) : Polymers.Julia.Efjc.Thermodynamics.Isotensional.Asymptotic.Legendre.EFJC α :=
  let BOLTZMANN_CONSTANT : α := 8.314462618
  Polymers.Julia.Efjc.Thermodynamics.Isotensional.Asymptotic.Legendre.EFJC.mk
    number_of_links
    link_length
    hinge_mass
    link_stiffness
    (fun (force : JArr α) (temperature : JArr α) => Polymers.Julia.Efjc.Thermodynamics.Isotensional.Asymptotic.Legendre.helmholtz_free_energy (JArr.scalar number_of_links) (JArr.scalar link_length) (JArr.scalar hinge_mass) (JArr.scalar link_stiffness) force temperature)
    (fun (force : JArr α) (temperature : JArr α) => Polymers.Julia.Efjc.Thermodynamics.Isotensional.Asymptotic.Legendre.helmholtz_free_energy_per_link (JArr.scalar link_length) (JArr.scalar hinge_mass) (JArr.scalar link_stiffness) force temperature)
    (fun (force : JArr α) (temperature : JArr α) => Polymers.Julia.Efjc.Thermodynamics.Isotensional.Asymptotic.Legendre.relative_helmholtz_free_energy (JArr.scalar number_of_links) (JArr.scalar link_length) (JArr.scalar link_stiffness) force temperature)
    (fun (force : JArr α) (temperature : JArr α) => Polymers.Julia.Efjc.Thermodynamics.Isotensional.Asymptotic.Legendre.relative_helmholtz_free_energy_per_link (JArr.scalar link_length) (JArr.scalar link_stiffness) force temperature)
    (fun (nondimensional_force : JArr α) (temperature : JArr α) => (JArr.quotient other (link_stiffness * Elem.powi link_length 2 / BOLTZMANN_CONSTANT) temperature).bind fun q3 => Polymers.Julia.Efjc.Thermodynamics.Isotensional.Asymptotic.Legendre.nondimensional_helmholtz_free_energy (JArr.scalar number_of_links) (JArr.scalar link_length) (JArr.scalar hinge_mass) q3 nondimensional_force temperature)
    (fun (nondimensional_force : JArr α) (temperature : JArr α) => (JArr.quotient other (link_stiffness * Elem.powi link_length 2 / BOLTZMANN_CONSTANT) temperature).bind fun q2 => Polymers.Julia.Efjc.Thermodynamics.Isotensional.Asymptotic.Legendre.nondimensional_helmholtz_free_energy_per_link (JArr.scalar link_length) (JArr.scalar hinge_mass) q2 nondimensional_force temperature)
    (fun (nondimensional_force : JArr α) (temperature : JArr α) => (JArr.quotient other (link_stiffness * Elem.powi link_length 2 / BOLTZMANN_CONSTANT) temperature).bind fun q1 => Polymers.Julia.Efjc.Thermodynamics.Isotensional.Asymptotic.Legendre.nondimensional_relative_helmholtz_free_energy (JArr.scalar number_of_links) q1 nondimensional_force)
    (fun (nondimensional_force : JArr α) (temperature : JArr α) => (JArr.quotient other (link_stiffness * Elem.powi link_length 2 / BOLTZMANN_CONSTANT) temperature).bind fun q0 => Polymers.Julia.Efjc.Thermodynamics.Isotensional.Asymptotic.Legendre.nondimensional_relative_helmholtz_free_energy_per_link q0 nondimensional_force)

end Polymers.Julia.Efjc.Thermodynamics.Isotensional.Asymptotic.Legendre

namespace Polymers.Julia.Efjc.Thermodynamics.Isotensional.Asymptotic

/-- `src/physics/single_chain/efjc/thermodynamics/isotensional/asymptotic/mod.jl` lines 110-138. -/
def end_to_end_length (number_of_links : JArr Nat) (link_length : JArr α) (link_stiffness : JArr α) (force : JArr α) (temperature : JArr α) : Option (JArr α) :=
  JArr.ap (JArr.ap (JArr.ap (JArr.ap (JArr.map (fun (number_of_links_i : Nat) (link_length_i : α) (link_stiffness_i : α) (force_i : α) (temperature_i : α) => Polymers.C.physics_single_chain_efjc_thermodynamics_isotensional_asymptotic_end_to_end_length number_of_links_i link_length_i link_stiffness_i force_i temperature_i) number_of_links) link_length) link_stiffness) force) temperature

/-- `src/physics/single_chain/efjc/thermodynamics/isotensional/asymptotic/mod.jl` lines 146-170. -/
def end_to_end_length_per_link (link_length : JArr α) (link_stiffness : JArr α) (force : JArr α) (temperature : JArr α) : Option (JArr α) :=
  JArr.ap (JArr.ap (JArr.ap (JArr.map (fun (link_length_i : α) (link_stiffness_i : α) (force_i : α) (temperature_i : α) => Polymers.C.physics_single_chain_efjc_thermodynamics_isotensional_asymptotic_end_to_end_length_per_link link_length_i link_stiffness_i force_i temperature_i) link_length) link_stiffness) force) temperature

/-- `src/physics/single_chain/efjc/thermodynamics/isotensional/asymptotic/mod.jl` lines 178-200. -/
def nondimensional_end_to_end_length (number_of_links : JArr Nat) (nondimensional_link_stiffness : JArr α) (nondimensional_force : JArr α) : Option (JArr α) :=
  JArr.ap (JArr.ap (JArr.map (fun (number_of_links_i : Nat) (nondimensional_link_stiffness_i : α) (nondimensional_force_i : α) => Polymers.C.physics_single_chain_efjc_thermodynamics_isotensional_asymptotic_nondimensional_end_to_end_length number_of_links_i nondimensional_link_stiffness_i nondimensional_force_i) number_of_links) nondimensional_link_stiffness) nondimensional_force

/-- `src/physics/single_chain/efjc/thermodynamics/isotensional/asymptotic/mod.jl` lines 215-233. -/
def nondimensional_end_to_end_length_per_link (nondimensional_link_stiffness : JArr α) (nondimensional_force : JArr α) : Option (JArr α) :=
  JArr.ap (JArr.map (fun (nondimensional_link_stiffness_i : α) (nondimensional_force_i : α) => Polymers.C.physics_single_chain_efjc_thermodynamics_isotensional_asymptotic_nondimensional_end_to_end_length_per_link nondimensional_link_stiffness_i nondimensional_force_i) nondimensional_link_stiffness) nondimensional_force

/-- `src/physics/single_chain/efjc/thermodynamics/isotensional/asymptotic/mod.jl` lines 245-282. -/
def gibbs_free_energy (number_of_links : JArr Nat) (link_length : JArr α) (hinge_mass : JArr α) (link_stiffness : JArr α) (force : JArr α) (temperature : JArr α) : Option (JArr α) :=
  JArr.ap (JArr.ap (JArr.ap (JArr.ap (JArr.ap (JArr.map (fun (number_of_links_i : Nat) (link_length_i : α) (hinge_mass_i : α) (link_stiffness_i : α) (force_i : α) (temperature_i : α) => Polymers.C.physics_single_chain_efjc_thermodynamics_isotensional_asymptotic_gibbs_free_energy number_of_links_i link_length_i hinge_mass_i link_stiffness_i force_i temperature_i) number_of_links) link_length) hinge_mass) link_stiffness) force) temperature

/-- `src/physics/single_chain/efjc/thermodynamics/isotensional/asymptotic/mod.jl` lines 290-317. -/
def gibbs_free_energy_per_link (link_length : JArr α) (hinge_mass : JArr α) (link_stiffness : JArr α) (force : JArr α) (temperature : JArr α) : Option (JArr α) :=
  JArr.ap (JArr.ap (JArr.ap (JArr.ap (JArr.map (fun (link_length_i : α) (hinge_mass_i : α) (link_stiffness_i : α) (force_i : α) (temperature_i : α) => Polymers.C.physics_single_chain_efjc_thermodynamics_isotensional_asymptotic_gibbs_free_energy_per_link link_length_i hinge_mass_i link_stiffness_i force_i temperature_i) link_length) hinge_mass) link_stiffness) force) temperature

/-- `src/physics/single_chain/efjc/thermodynamics/isotensional/asymptotic/mod.jl` lines 325-353. -/
def relative_gibbs_free_energy (number_of_links : JArr Nat) (link_length : JArr α) (link_stiffness : JArr α) (force : JArr α) (temperature : JArr α) : Option (JArr α) :=
  JArr.ap (JArr.ap (JArr.ap (JArr.ap (JArr.map (fun (number_of_links_i : Nat) (link_length_i : α) (link_stiffness_i : α) (force_i : α) (temperature_i : α) => Polymers.C.physics_single_chain_efjc_thermodynamics_isotensional_asymptotic_relative_gibbs_free_energy number_of_links_i link_length_i link_stiffness_i force_i temperature_i) number_of_links) link_length) link_stiffness) force) temperature

/-- `src/physics/single_chain/efjc/thermodynamics/isotensional/asymptotic/mod.jl` lines 361-385. -/
def relative_gibbs_free_energy_per_link (link_length : JArr α) (link_stiffness : JArr α) (force : JArr α) (temperature : JArr α) : Option (JArr α) :=
  JArr.ap (JArr.ap (JArr.ap (JArr.map (fun (link_length_i : α) (link_stiffness_i : α) (force_i : α) (temperature_i : α) => Polymers.C.physics_single_chain_efjc_thermodynamics_isotensional_asymptotic_relative_gibbs_free_energy_per_link link_length_i link_stiffness_i force_i temperature_i) link_length) link_stiffness) force) temperature

/-- `src/physics/single_chain/efjc/thermodynamics/isotensional/asymptotic/mod.jl` lines 393-430. -/
def nondimensional_gibbs_free_energy (number_of_links : JArr Nat) (link_length : JArr α) (hinge_mass : JArr α) (nondimensional_link_stiffness : JArr α) (nondimensional_force : JArr α) (temperature : JArr α) : Option (JArr α) :=
  JArr.ap (JArr.ap (JArr.ap (JArr.ap (JArr.ap (JArr.map (fun (number_of_links_i : Nat) (link_length_i : α) (hinge_mass_i : α) (nondimensional_link_stiffness_i : α) (nondimensional_force_i : α) (temperature_i : α) => Polymers.C.physics_single_chain_efjc_thermodynamics_isotensional_asymptotic_nondimensional_gibbs_free_energy number_of_links_i link_length_i hinge_mass_i nondimensional_link_stiffness_i nondimensional_force_i temperature_i) number_of_links) link_length) hinge_mass) nondimensional_link_stiffness) nondimensional_force) temperature

/-- `src/physics/single_chain/efjc/thermodynamics/isotensional/asymptotic/mod.jl` lines 438-471. -/
def nondimensional_gibbs_free_energy_per_link (link_length : JArr α) (hinge_mass : JArr α) (nondimensional_link_stiffness : JArr α) (nondimensional_force : JArr α) (temperature : JArr α) : Option (JArr α) :=
  JArr.ap (JArr.ap (JArr.ap (JArr.ap (JArr.map (fun (link_length_i : α) (hinge_mass_i : α) (nondimensional_link_stiffness_i : α) (nondimensional_force_i : α) (temperature_i : α) => Polymers.C.physics_single_chain_efjc_thermodynamics_isotensional_asymptotic_nondimensional_gibbs_free_energy_per_link link_length_i hinge_mass_i nondimensional_link_stiffness_i nondimensional_force_i temperature_i) link_length) hinge_mass) nondimensional_link_stiffness) nondimensional_force) temperature

/-- `src/physics/single_chain/efjc/thermodynamics/isotensional/asymptotic/mod.jl` lines 479-501. -/
def nondimensional_relative_gibbs_free_energy (number_of_links : JArr Nat) (nondimensional_link_stiffness : JArr α) (nondimensional_force : JArr α) : Option (JArr α) :=
  JArr.ap (JArr.ap (JArr.map (fun (number_of_links_i : Nat) (nondimensional_link_stiffness_i : α) (nondimensional_force_i : α) => Polymers.C.physics_single_chain_efjc_thermodynamics_isotensional_asymptotic_nondimensional_relative_gibbs_free_energy number_of_links_i nondimensional_link_stiffness_i nondimensional_force_i) number_of_links) nondimensional_link_stiffness) nondimensional_force

/-- `src/physics/single_chain/efjc/thermodynamics/isotensional/asymptotic/mod.jl` lines 514-532. -/
def nondimensional_relative_gibbs_free_energy_per_link (nondimensional_link_stiffness : JArr α) (nondimensional_force : JArr α) : Option (JArr α) :=
  JArr.ap (JArr.map (fun (nondimensional_link_stiffness_i : α) (nondimensional_force_i : α) => Polymers.C.physics_single_chain_efjc_thermodynamics_isotensional_asymptotic_nondimensional_relative_gibbs_free_energy_per_link nondimensional_link_stiffness_i nondimensional_force_i) nondimensional_link_stiffness) nondimensional_force

/-- `src/physics/single_chain/efjc/thermodynamics/isotensional/asymptotic/mod.jl` lines 539-626. -/
def EFJC.new (other : α → JArr α → Option (JArr α)) (number_of_links : Nat) (link_length : α) (hinge_mass : α) (link_stiffness : α) : Polymers.Julia.Efjc.Thermodynamics.Isotensional.Asymptotic.EFJC α :=
  let BOLTZMANN_CONSTANT : α := 8.314462618
  Polymers.Julia.Efjc.Thermodynamics.Isotensional.Asymptotic.EFJC.mk
    number_of_links
    link_length
    hinge_mass
    link_stiffness
    (Polymers.Julia.Efjc.Thermodynamics.Isotensional.Asymptotic.Alternative.EFJC.new other number_of_links link_length hinge_mass link_stiffness)
    (Polymers.Julia.Efjc.Thermodynamics.Isotensional.Asymptotic.Reduced.EFJC.new other number_of_links link_length hinge_mass link_stiffness)
    (Polymers.Julia.Efjc.Thermodynamics.Isotensional.Asymptotic.Legendre.EFJC.new other number_of_links link_length hinge_mass link_stiffness)
    (fun (force : JArr α) (temperature : JArr α) => Polymers.Julia.Efjc.Thermodynamics.Isotensional.Asymptotic.end_to_end_length (JArr.scalar number_of_links) (JArr.scalar link_length) (JArr.scalar link_stiffness) force temperature)
    (fun (force : JArr α) (temperature : JArr α) => Polymers.Julia.Efjc.Thermodynamics.Isotensional.Asymptotic.end_to_end_length_per_link (JArr.scalar link_length) (JArr.scalar link_stiffness) force temperature)
    (fun (nondimensional_force : JArr α) (temperature : JArr α) => (JArr.quotient other (link_stiffness * Elem.powi link_length 2 / BOLTZMANN_CONSTANT) temperature).bind fun q1 => Polymers.Julia.Efjc.Thermodynamics.Isotensional.Asymptotic.nondimensional_end_to_end_length (JArr.scalar number_of_links) q1 nondimensional_force)
    (fun (nondimensional_force : JArr α) (temperature : JArr α) => (JArr.quotient other (link_stiffness * Elem.powi link_length 2 / BOLTZMANN_CONSTANT) temperature).bind fun q0 => Polymers.Julia.Efjc.Thermodynamics.Isotensional.Asymptotic.nondimensional_end_to_end_length_per_link q0 nondimensional_force)
    (fun (force : JArr α) (temperature : JArr α) => Polymers.Julia.Efjc.Thermodynamics.Isotensional.Asymptotic.gibbs_free_energy (JArr.scalar number_of_links) (JArr.scalar link_length) (JArr.scalar hinge_mass) (JArr.scalar link_stiffness) force temperature)
    (fun (force : JArr α) (temperature : JArr α) => Polymers.Julia.Efjc.Thermodynamics.Isotensional.Asymptotic.gibbs_free_energy_per_link (JArr.scalar link_length) (JArr.scalar hinge_mass) (JArr.scalar link_stiffness) force temperature)
    (fun (force : JArr α) (temperature : JArr α) => Polymers.Julia.Efjc.Thermodynamics.Isotensional.Asymptotic.relative_gibbs_free_energy (JArr.scalar number_of_links) (JArr.scalar link_length) (JArr.scalar link_stiffness) force temperature)
    (fun (force : JArr α) (temperature : JArr α) => Polymers.Julia.Efjc.Thermodynamics.Isotensional.Asymptotic.relative_gibbs_free_energy_per_link (JArr.scalar link_length) (JArr.scalar link_stiffness) force temperature)
    (fun (nondimensional_force : JArr α) (temperature : JArr α) => (JArr.quotient other (link_stiffness * Elem.powi link_length 2 / BOLTZMANN_CONSTANT) temperature).bind fun q3 => Polymers.Julia.Efjc.Thermodynamics.Isotensional.Asymptotic.nondimensional_gibbs_free_energy (JArr.scalar number_of_links) (JArr.scalar link_length) (JArr.scalar hinge_mass) q3 nondimensional_force temperature)
    (fun (nondimensional_force : JArr α) (temperature : JArr α) => (JArr.quotient other (link_stiffness * Elem.powi link_length 2 / BOLTZMANN_CONSTANT) temperature).bind fun q2 => Polymers.Julia.Efjc.Thermodynamics.Isotensional.Asymptotic.nondimensional_gibbs_free_energy_per_link (JArr.scalar link_length) (JArr.scalar hinge_mass) q2 nondimensional_force temperature)
    (fun (nondimensional_force : JArr α) (temperature : JArr α) => (JArr.quotient other (link_stiffness * Elem.powi link_length 2 / BOLTZMANN_CONSTANT) temperature).bind fun q1 => Polymers.Julia.Efjc.Thermodynamics.Isotensional.Asymptotic.nondimensional_relative_gibbs_free_energy (JArr.scalar number_of_links) q1 nondimensional_force)
    (fun (nondimensional_force : JArr α) (temperature : JArr α) => (JArr.quotient other (link_stiffness * Elem.powi link_length 2 / BOLTZMANN_CONSTANT) temperature).bind fun q0 => Polymers.Julia.Efjc.Thermodynamics.Isotensional.Asymptotic.nondimensional_relative_gibbs_free_energy_per_link q0 nondimensional_force)

end Polymers.Julia.Efjc.Thermodynamics.Isotensional.Asymptotic

namespace Polymers.Julia.Efjc.Thermodynamics.Isotensional.Legendre

/-- `src/physics/single_chain/efjc/thermodynamics/isotensional/legendre/mod.jl` lines 77-114. -/
def helmholtz_free_energy (number_of_links : JArr Nat) (link_length : JArr α) (hinge_mass : JArr α) (link_stiffness : JArr α) (force : JArr α) (temperature : JArr α) : Option (JArr α) :=
  JArr.ap (JArr.ap (JArr.ap (JArr.ap (JArr.ap (JArr.map (fun (number_of_links_i : Nat) (link_length_i : α) (hinge_mass_i : α) (link_stiffness_i : α) (force_i : α) (temperature_i : α) => Polymers.C.physics_single_chain_efjc_thermodynamics_isotensional_legendre_helmholtz_free_energy number_of_links_i link_length_i hinge_mass_i link_stiffness_i force_i temperature_i) number_of_links) link_length) hinge_mass) link_stiffness) force) temperature

/-- `src/physics/single_chain/efjc/thermodynamics/isotensional/legendre/mod.jl` lines 122-149. -/
def helmholtz_free_energy_per_link (link_length : JArr α) (hinge_mass : JArr α) (link_stiffness : JArr α) (force : JArr α) (temperature : JArr α) : Option (JArr α) :=
  JArr.ap (JArr.ap (JArr.ap (JArr.ap (JArr.map (fun (link_length_i : α) (hinge_mass_i : α) (link_stiffness_i : α) (force_i : α) (temperature_i : α) => Polymers.C.physics_single_chain_efjc_thermodynamics_isotensional_legendre_helmholtz_free_energy_per_link link_length_i hinge_mass_i link_stiffness_i force_i temperature_i) link_length) hinge_mass) link_stiffness) force) temperature

/-- `src/physics/single_chain/efjc/thermodynamics/isotensional/legendre/mod.jl` lines 157-185. -/
def relative_helmholtz_free_energy (number_of_links : JArr Nat) (link_length : JArr α) (link_stiffness : JArr α) (force : JArr α) (temperature : JArr α) : Option (JArr α) :=
  JArr.ap (JArr.ap (JArr.ap (JArr.ap (JArr.map (fun (number_of_links_i : Nat) (link_length_i : α) (link_stiffness_i : α) (force_i : α) (temperature_i : α) => Polymers.C.physics_single_chain_efjc_thermodynamics_isotensional_legendre_relative_helmholtz_free_energy number_of_links_i link_length_i link_stiffness_i force_i temperature_i) number_of_links) link_length) link_stiffness) force) temperature

/-- `src/physics/single_chain/efjc/thermodynamics/isotensional/legendre/mod.jl` lines 193-217. -/
def relative_helmholtz_free_energy_per_link (link_length : JArr α) (link_stiffness : JArr α) (force : JArr α) (temperature : JArr α) : Option (JArr α) :=
  JArr.ap (JArr.ap (JArr.ap (JArr.map (fun (link_length_i : α) (link_stiffness_i : α) (force_i : α) (temperature_i : α) => Polymers.C.physics_single_chain_efjc_thermodynamics_isotensional_legendre_relative_helmholtz_free_energy_per_link link_length_i link_stiffness_i force_i temperature_i) link_length) link_stiffness) force) temperature

/-- `src/physics/single_chain/efjc/thermodynamics/isotensional/legendre/mod.jl` lines 225-262. -/
def nondimensional_helmholtz_free_energy (number_of_links : JArr Nat) (link_length : JArr α) (hinge_mass : JArr α) (nondimensional_link_stiffness : JArr α) (nondimensional_force : JArr α) (temperature : JArr α) : Option (JArr α) :=
  JArr.ap (JArr.ap (JArr.ap (JArr.ap (JArr.ap (JArr.map (fun (number_of_links_i : Nat) (link_length_i : α) (hinge_mass_i : α) (nondimensional_link_stiffness_i : α) (nondimensional_force_i : α) (temperature_i : α) => Polymers.C.physics_single_chain_efjc_thermodynamics_isotensional_legendre_nondimensional_helmholtz_free_energy number_of_links_i link_length_i hinge_mass_i nondimensional_link_stiffness_i nondimensional_force_i temperature_i) number_of_links) link_length) hinge_mass) nondimensional_link_stiffness) nondimensional_force) temperature

/-- `src/physics/single_chain/efjc/thermodynamics/isotensional/legendre/mod.jl` lines 270-303. -/
def nondimensional_helmholtz_free_energy_per_link (link_length : JArr α) (hinge_mass : JArr α) (nondimensional_link_stiffness : JArr α) (nondimensional_force : JArr α) (temperature : JArr α) : Option (JArr α) :=
  JArr.ap (JArr.ap (JArr.ap (JArr.ap (JArr.map (fun (link_length_i : α) (hinge_mass_i : α) (nondimensional_link_stiffness_i : α) (nondimensional_force_i : α) (temperature_i : α) => Polymers.C.physics_single_chain_efjc_thermodynamics_isotensional_legendre_nondimensional_helmholtz_free_energy_per_link link_length_i hinge_mass_i nondimensional_link_stiffness_i nondimensional_force_i temperature_i) link_length) hinge_mass) nondimensional_link_stiffness) nondimensional_force) temperature

/-- `src/physics/single_chain/efjc/thermodynamics/isotensional/legendre/mod.jl` lines 311-333. -/
def nondimensional_relative_helmholtz_free_energy (number_of_links : JArr Nat) (nondimensional_link_stiffness : JArr α) (nondimensional_force : JArr α) : Option (JArr α) :=
  JArr.ap (JArr.ap (JArr.map (fun (number_of_links_i : Nat) (nondimensional_link_stiffness_i : α) (nondimensional_force_i : α) => Polymers.C.physics_single_chain_efjc_thermodynamics_isotensional_legendre_nondimensional_relative_helmholtz_free_energy number_of_links_i nondimensional_link_stiffness_i nondimensional_force_i) number_of_links) nondimensional_link_stiffness) nondimensional_force

/-- `src/physics/single_chain/efjc/thermodynamics/isotensional/legendre/mod.jl` lines 341-359. -/
def nondimensional_relative_helmholtz_free_energy_per_link (nondimensional_link_stiffness : JArr α) (nondimensional_force : JArr α) : Option (JArr α) :=
  JArr.ap (JArr.map (fun (nondimensional_link_stiffness_i : α) (nondimensional_force_i : α) => Polymers.C.physics_single_chain_efjc_thermodynamics_isotensional_legendre_nondimensional_relative_helmholtz_free_energy_per_link nondimensional_link_stiffness_i nondimensional_force_i) nondimensional_link_stiffness) nondimensional_force

/-- `src/physics/single_chain/efjc/thermodynamics/isotensional/legendre/mod.jl` lines 366-434. -/
def EFJC.new (other : α → JArr α → Option (JArr α)) (number_of_links : Nat) (link_length : α) (hinge_mass : α) (link_stiffness : α) : Polymers.Julia.Efjc.Thermodynamics.Isotensional.Legendre.EFJC α :=
  let BOLTZMANN_CONSTANT : α := 8.314462618
  Polymers.Julia.Efjc.Thermodynamics.Isotensional.Legendre.EFJC.mk
    number_of_links
    link_length
    hinge_mass
    link_stiffness
    (fun (force : JArr α) (temperature : JArr α) => Polymers.Julia.Efjc.Thermodynamics.Isotensional.Legendre.helmholtz_free_energy (JArr.scalar number_of_links) (JArr.scalar link_length) (JArr.scalar hinge_mass) (JArr.scalar link_stiffness) force temperature)
    (fun (force : JArr α) (temperature : JArr α) => Polymers.Julia.Efjc.Thermodynamics.Isotensional.Legendre.helmholtz_free_energy_per_link (JArr.scalar link_length) (JArr.scalar hinge_mass) (JArr.scalar link_stiffness) force temperature)
    (fun (force : JArr α) (temperature : JArr α) => Polymers.Julia.Efjc.Thermodynamics.Isotensional.Legendre.relative_helmholtz_free_energy (JArr.scalar number_of_links) (JArr.scalar link_length) (JArr.scalar link_stiffness) force temperature)
    (fun (force : JArr α) (temperature : JArr α) => Polymers.Julia.Efjc.Thermodynamics.Isotensional.Legendre.relative_helmholtz_free_energy_per_link (JArr.scalar link_length) (JArr.scalar link_stiffness) force temperature)
    (fun (nondimensional_force : JArr α) (temperature : JArr α) => (JArr.quotient other (link_stiffness * Elem.powi link_length 2 / BOLTZMANN_CONSTANT) temperature).bind fun q3 => Polymers.Julia.Efjc.Thermodynamics.Isotensional.Legendre.nondimensional_helmholtz_free_energy (JArr.scalar number_of_links) (JArr.scalar link_length) (JArr.scalar hinge_mass) q3 nondimensional_force temperature)
    (fun (nondimensional_force : JArr α) (temperature : JArr α) => (JArr.quotient other (link_stiffness * Elem.powi link_length 2 / BOLTZMANN_CONSTANT) temperature).bind fun q2 => Polymers.Julia.Efjc.Thermodynamics.Isotensional.Legendre.nondimensional_helmholtz_free_energy_per_link (JArr.scalar link_length) (JArr.scalar hinge_mass) q2 nondimensional_force temperature)
    (fun (nondimensional_force : JArr α) (temperature : JArr α) => (JArr.quotient other (link_stiffness * Elem.powi link_length 2 / BOLTZMANN_CONSTANT) temperature).bind fun q1 => Polymers.Julia.Efjc.Thermodynamics.Isotensional.Legendre.nondimensional_relative_helmholtz_free_energy (JArr.scalar number_of_links) q1 nondimensional_force)
    (fun (nondimensional_force : JArr α) (temperature : JArr α) => (JArr.quotient other (link_stiffness * Elem.powi link_length 2 / BOLTZMANN_CONSTANT) temperature).bind fun q0 => Polymers.Julia.Efjc.Thermodynamics.Isotensional.Legendre.nondimensional_relative_helmholtz_free_energy_per_link q0 nondimensional_force)

end Polymers.Julia.Efjc.Thermodynamics.Isotensional.Legendre

namespace Polymers.Julia.Efjc.Thermodynamics.Isotensional

/-- `src/physics/single_chain/efjc/thermodynamics/isotensional/mod.jl` lines 105-133. -/
def end_to_end_length (number_of_links : JArr Nat) (link_length : JArr α) (link_stiffness : JArr α) (force : JArr α) (temperature : JArr α) : Option (JArr α) :=
  JArr.ap (JArr.ap (JArr.ap (JArr.ap (JArr.map (fun (number_of_links_i : Nat) (link_length_i : α) (link_stiffness_i : α) (force_i : α) (temperature_i : α) => Polymers.C.physics_single_chain_efjc_thermodynamics_isotensional_end_to_end_length number_of_links_i link_length_i link_stiffness_i force_i temperature_i) number_of_links) link_length) link_stiffness) force) temperature

/-- `src/physics/single_chain/efjc/thermodynamics/isotensional/mod.jl` lines 141-165. -/
def end_to_end_length_per_link (link_length : JArr α) (link_stiffness : JArr α) (force : JArr α) (temperature : JArr α) : Option (JArr α) :=
  JArr.ap (JArr.ap (JArr.ap (JArr.map (fun (link_length_i : α) (link_stiffness_i : α) (force_i : α) (temperature_i : α) => Polymers.C.physics_single_chain_efjc_thermodynamics_isotensional_end_to_end_length_per_link link_length_i link_stiffness_i force_i temperature_i) link_length) link_stiffness) force) temperature

/-- `src/physics/single_chain/efjc/thermodynamics/isotensional/mod.jl` lines 173-195. -/
def nondimensional_end_to_end_length (number_of_links : JArr Nat) (nondimensional_link_stiffness : JArr α) (nondimensional_force : JArr α) : Option (JArr α) :=
  JArr.ap (JArr.ap (JArr.map (fun (number_of_links_i : Nat) (nondimensional_link_stiffness_i : α) (nondimensional_force_i : α) => Polymers.C.physics_single_chain_efjc_thermodynamics_isotensional_nondimensional_end_to_end_length number_of_links_i nondimensional_link_stiffness_i nondimensional_force_i) number_of_links) nondimensional_link_stiffness) nondimensional_force

/-- `src/physics/single_chain/efjc/thermodynamics/isotensional/mod.jl` lines 214-232. -/
def nondimensional_end_to_end_length_per_link (nondimensional_link_stiffness : JArr α) (nondimensional_force : JArr α) : Option (JArr α) :=
  JArr.ap (JArr.map (fun (nondimensional_link_stiffness_i : α) (nondimensional_force_i : α) => Polymers.C.physics_single_chain_efjc_thermodynamics_isotensional_nondimensional_end_to_end_length_per_link nondimensional_link_stiffness_i nondimensional_force_i) nondimensional_link_stiffness) nondimensional_force

/-- `src/physics/single_chain/efjc/thermodynamics/isotensional/mod.jl` lines 244-281. -/
def gibbs_free_energy (number_of_links : JArr Nat) (link_length : JArr α) (hinge_mass : JArr α) (link_stiffness : JArr α) (force : JArr α) (temperature : JArr α) : Option (JArr α) :=
  JArr.ap (JArr.ap (JArr.ap (JArr.ap (JArr.ap (JArr.map (fun (number_of_links_i : Nat) (link_length_i : α) (hinge_mass_i : α) (link_stiffness_i : α) (force_i : α) (temperature_i : α) => Polymers.C.physics_single_chain_efjc_thermodynamics_isotensional_gibbs_free_energy number_of_links_i link_length_i hinge_mass_i link_stiffness_i force_i temperature_i) number_of_links) link_length) hinge_mass) link_stiffness) force) temperature

/-- `src/physics/single_chain/efjc/thermodynamics/isotensional/mod.jl` lines 289-316. -/
def gibbs_free_energy_per_link (link_length : JArr α) (hinge_mass : JArr α) (link_stiffness : JArr α) (force : JArr α) (temperature : JArr α) : Option (JArr α) :=
  JArr.ap (JArr.ap (JArr.ap (JArr.ap (JArr.map (fun (link_length_i : α) (hinge_mass_i : α) (link_stiffness_i : α) (force_i : α) (temperature_i : α) => Polymers.C.physics_single_chain_efjc_thermodynamics_isotensional_gibbs_free_energy_per_link link_length_i hinge_mass_i link_stiffness_i force_i temperature_i) link_length) hinge_mass) link_stiffness) force) temperature

/-- `src/physics/single_chain/efjc/thermodynamics/isotensional/mod.jl` lines 324-352. -/
def relative_gibbs_free_energy (number_of_links : JArr Nat) (link_length : JArr α) (link_stiffness : JArr α) (force : JArr α) (temperature : JArr α) : Option (JArr α) :=
  JArr.ap (JArr.ap (JArr.ap (JArr.ap (JArr.map (fun (number_of_links_i : Nat) (link_length_i : α) (link_stiffness_i : α) (force_i : α) (temperature_i : α) => Polymers.C.physics_single_chain_efjc_thermodynamics_isotensional_relative_gibbs_free_energy number_of_links_i link_length_i link_stiffness_i force_i temperature_i) number_of_links) link_length) link_stiffness) force) temperature

/-- `src/physics/single_chain/efjc/thermodynamics/isotensional/mod.jl` lines 360-384. -/
def relative_gibbs_free_energy_per_link (link_length : JArr α) (link_stiffness : JArr α) (force : JArr α) (temperature : JArr α) : Option (JArr α) :=
  JArr.ap (JArr.ap (JArr.ap (JArr.map (fun (link_length_i : α) (link_stiffness_i : α) (force_i : α) (temperature_i : α) => Polymers.C.physics_single_chain_efjc_thermodynamics_isotensional_relative_gibbs_free_energy_per_link link_length_i link_stiffness_i force_i temperature_i) link_length) link_stiffness) force) temperature

/-- `src/physics/single_chain/efjc/thermodynamics/isotensional/mod.jl` lines 392-429. -/
def nondimensional_gibbs_free_energy (number_of_links : JArr Nat) (link_length : JArr α) (hinge_mass : JArr α) (nondimensional_link_stiffness : JArr α) (nondimensional_force : JArr α) (temperature : JArr α) : Option (JArr α) :=
  JArr.ap (JArr.ap (JArr.ap (JArr.ap (JArr.ap (JArr.map (fun (number_of_links_i : Nat) (link_length_i : α) (hinge_mass_i : α) (nondimensional_link_stiffness_i : α) (nondimensional_force_i : α) (temperature_i : α) => Polymers.C.physics_single_chain_efjc_thermodynamics_isotensional_nondimensional_gibbs_free_energy number_of_links_i link_length_i hinge_mass_i nondimensional_link_stiffness_i nondimensional_force_i temperature_i) number_of_links) link_length) hinge_mass) nondimensional_link_stiffness) nondimensional_force) temperature

/-- `src/physics/single_chain/efjc/thermodynamics/isotensional/mod.jl` lines 437-470. -/
def nondimensional_gibbs_free_energy_per_link (link_length : JArr α) (hinge_mass : JArr α) (nondimensional_link_stiffness : JArr α) (nondimensional_force : JArr α) (temperature : JArr α) : Option (JArr α) :=
  JArr.ap (JArr.ap (JArr.ap (JArr.ap (JArr.map (fun (link_length_i : α) (hinge_mass_i : α) (nondimensional_link_stiffness_i : α) (nondimensional_force_i : α) (temperature_i : α) => Polymers.C.physics_single_chain_efjc_thermodynamics_isotensional_nondimensional_gibbs_free_energy_per_link link_length_i hinge_mass_i nondimensional_link_stiffness_i nondimensional_force_i temperature_i) link_length) hinge_mass) nondimensional_link_stiffness) nondimensional_force) temperature

/-- `src/physics/single_chain/efjc/thermodynamics/isotensional/mod.jl` lines 478-500. -/
def nondimensional_relative_gibbs_free_energy (number_of_links : JArr Nat) (nondimensional_link_stiffness : JArr α) (nondimensional_force : JArr α) : Option (JArr α) :=
  JArr.ap (JArr.ap (JArr.map (fun (number_of_links_i : Nat) (nondimensional_link_stiffness_i : α) (nondimensional_force_i : α) => Polymers.C.physics_single_chain_efjc_thermodynamics_isotensional_nondimensional_relative_gibbs_free_energy number_of_links_i nondimensional_link_stiffness_i nondimensional_force_i) number_of_links) nondimensional_link_stiffness) nondimensional_force

/-- `src/physics/single_chain/efjc/thermodynamics/isotensional/mod.jl` lines 519-537. -/
def nondimensional_relative_gibbs_free_energy_per_link (nondimensional_link_stiffness : JArr α) (nondimensional_force : JArr α) : Option (JArr α) :=
  JArr.ap (JArr.map (fun (nondimensional_link_stiffness_i : α) (nondimensional_force_i : α) => Polymers.C.physics_single_chain_efjc_thermodynamics_isotensional_nondimensional_relative_gibbs_free_energy_per_link nondimensional_link_stiffness_i nondimensional_force_i) nondimensional_link_stiffness) nondimensional_force

/-- `src/physics/single_chain/efjc/thermodynamics/isotensional/mod.jl` lines 544-630. -/
def EFJC.new (other : α → JArr α → Option (JArr α)) (number_of_links : Nat) (link_length : α) (hinge_mass : α) (link_stiffness : α) : Polymers.Julia.Efjc.Thermodynamics.Isotensional.EFJC α :=
  let BOLTZMANN_CONSTANT : α := 8.314462618
  Polymers.Julia.Efjc.Thermodynamics.Isotensional.EFJC.mk
    number_of_links
    link_length
    hinge_mass
    link_stiffness
    (Polymers.Julia.Efjc.Thermodynamics.Isotensional.Asymptotic.EFJC.new other number_of_links link_length hinge_mass link_stiffness)
    (Polymers.Julia.Efjc.Thermodynamics.Isotensional.Legendre.EFJC.new other number_of_links link_length hinge_mass link_stiffness)
    (fun (force : JArr α) (temperature : JArr α) => Polymers.Julia.Efjc.Thermodynamics.Isotensional.end_to_end_length (JArr.scalar number_of_links) (JArr.scalar link_length) (JArr.scalar link_stiffness) force temperature)
    (fun (force : JArr α) (temperature : JArr α) => Polymers.Julia.Efjc.Thermodynamics.Isotensional.end_to_end_length_per_link (JArr.scalar link_length) (JArr.scalar link_stiffness) force temperature)
    (fun (nondimensional_force : JArr α) (temperature : JArr α) => (JArr.quotient other (link_stiffness * Elem.powi link_length 2 / BOLTZMANN_CONSTANT) temperature).bind fun q1 => Polymers.Julia.Efjc.Thermodynamics.Isotensional.nondimensional_end_to_end_length (JArr.scalar number_of_links) q1 nondimensional_force)
    (fun (nondimensional_force : JArr α) (temperature : JArr α) => (JArr.quotient other (link_stiffness * Elem.powi link_length 2 / BOLTZMANN_CONSTANT) temperature).bind fun q0 => Polymers.Julia.Efjc.Thermodynamics.Isotensional.nondimensional_end_to_end_length_per_link q0 nondimensional_force)
    (fun (force : JArr α) (temperature : JArr α) => Polymers.Julia.Efjc.Thermodynamics.Isotensional.gibbs_free_energy (JArr.scalar number_of_links) (JArr.scalar link_length) (JArr.scalar hinge_mass) (JArr.scalar link_stiffness) force temperature)
    (fun (force : JArr α) (temperature : JArr α) => Polymers.Julia.Efjc.Thermodynamics.Isotensional.gibbs_free_energy_per_link (JArr.scalar link_length) (JArr.scalar hinge_mass) (JArr.scalar link_stiffness) force temperature)
    (fun (force : JArr α) (temperature : JArr α) => Polymers.Julia.Efjc.Thermodynamics.Isotensional.relative_gibbs_free_energy (JArr.scalar number_of_links) (JArr.scalar link_length) (JArr.scalar link_stiffness) force temperature)
    (fun (force : JArr α) (temperature : JArr α) => Polymers.Julia.Efjc.Thermodynamics.Isotensional.relative_gibbs_free_energy_per_link (JArr.scalar link_length) (JArr.scalar link_stiffness) force temperature)
    (fun (nondimensional_force : JArr α) (temperature : JArr α) => (JArr.quotient other (link_stiffness * Elem.powi link_length 2 / BOLTZMANN_CONSTANT) temperature).bind fun q3 => Polymers.Julia.Efjc.Thermodynamics.Isotensional.nondimensional_gibbs_free_energy (JArr.scalar number_of_links) (JArr.scalar link_length) (JArr.scalar hinge_mass) q3 nondimensional_force temperature)
    (fun (nondimensional_force : JArr α) (temperature : JArr α) => (JArr.quotient other (link_stiffness * Elem.powi link_length 2 / BOLTZMANN_CONSTANT) temperature).bind fun q2 => Polymers.Julia.Efjc.Thermodynamics.Isotensional.nondimensional_gibbs_free_energy_per_link (JArr.scalar link_length) (JArr.scalar hinge_mass) q2 nondimensional_force temperature)
    (fun (nondimensional_force : JArr α) (temperature : JArr α) => (JArr.quotient other (link_stiffness * Elem.powi link_length 2 / BOLTZMANN_CONSTANT) temperature).bind fun q1 => Polymers.Julia.Efjc.Thermodynamics.Isotensional.nondimensional_relative_gibbs_free_energy (JArr.scalar number_of_links) q1 nondimensional_force)
    (fun (nondimensional_force : JArr α) (temperature : JArr α) => (JArr.quotient other (link_stiffness * Elem.powi link_length 2 / BOLTZMANN_CONSTANT) temperature).bind fun q0 => Polymers.Julia.Efjc.Thermodynamics.Isotensional.nondimensional_relative_gibbs_free_energy_per_link q0 nondimensional_force)

end Polymers.Julia.Efjc.Thermodynamics.Isotensional

namespace Polymers.Julia.Efjc.Thermodynamics

/-- `src/physics/single_chain/efjc/thermodynamics/mod.jl` lines 48-62. -/
def EFJC.new (other : α → JArr α → Option (JArr α)) (number_of_links : Nat) (link_length : α) (hinge_mass : α) (link_stiffness : α) : Polymers.Julia.Efjc.Thermodynamics.EFJC α :=
  Polymers.Julia.Efjc.Thermodynamics.EFJC.mk
    number_of_links
    link_length
    hinge_mass
    link_stiffness
    (Polymers.Julia.Efjc.Thermodynamics.Isometric.EFJC.new other number_of_links link_length hinge_mass link_stiffness)
    (Polymers.Julia.Efjc.Thermodynamics.Isotensional.EFJC.new other number_of_links link_length hinge_mass link_stiffness)

end Polymers.Julia.Efjc.Thermodynamics

namespace Polymers.Julia.Efjc

/-- `src/physics/single_chain/efjc/mod.jl` lines 43-56. -/
def EFJC.new (other : α → JArr α → Option (JArr α)) (number_of_links : Nat) (link_length : α) (hinge_mass : α) (link_stiffness : α) : Polymers.Julia.Efjc.EFJC α :=
  Polymers.Julia.Efjc.EFJC.mk
    number_of_links
    link_length
    hinge_mass
    link_stiffness
    (Polymers.Julia.Efjc.Thermodynamics.EFJC.new other number_of_links link_length hinge_mass link_stiffness)

end Polymers.Julia.Efjc
