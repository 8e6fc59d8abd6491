/- Generated by tools/jl2lean.py from the mod.jl files of /repo/src/physics/single_chain/ufjc/morse ; do not edit by hand. -/
import Verif.Model.CMorse
import Verif.Model.JuliaBase

set_option linter.unusedVariables false

open Polymers Polymers.Julia

variable {α : Type} [Add α] [Sub α] [Mul α] [Div α] [Neg α] [OfScientific α] [NatCast α] [Elem α]

namespace Polymers.Julia.Ufjc.Morse.Thermodynamics.Isometric.Asymptotic.Reduced.Legendre

/-- `src/physics/single_chain/ufjc/morse/thermodynamics/isometric/asymptotic/reduced/legendre/mod.jl` lines 16-77: struct `MORSEFJC`. -/
structure MORSEFJC (α : Type) where
  /-- field `number_of_links::UInt8` -/
  number_of_links : Nat
  /-- field `link_length::Float64` -/
  link_length : α
  /-- field `hinge_mass::Float64` -/
  hinge_mass : α
  /-- field `link_stiffness::Float64` -/
  link_stiffness : α
  /-- field `link_energy::Float64` -/
  link_energy : α
  /-- field `force::Function` -/
  force : JArr α → JArr α → Option (JArr α)
  /-- field `nondimensional_force::Function` -/
  nondimensional_force : JArr α → JArr α → Option (JArr α)
  /-- field `helmholtz_free_energy::Function` -/
  helmholtz_free_energy : JArr α → JArr α → Option (JArr α)
  /-- field `helmholtz_free_energy_per_link::Function` -/
  helmholtz_free_energy_per_link : JArr α → JArr α → Option (JArr α)
  /-- field `relative_helmholtz_free_energy::Function` -/
  relative_helmholtz_free_energy : JArr α → JArr α → Option (JArr α)
  /-- field `relative_helmholtz_free_energy_per_link::Function` -/
  relative_helmholtz_free_energy_per_link : JArr α → JArr α → Option (JArr α)
  /-- field `nondimensional_helmholtz_free_energy::Function` -/
  nondimensional_helmholtz_free_energy : JArr α → JArr α → Option (JArr α)
  /-- field `nondimensional_helmholtz_free_energy_per_link::Function` -/
  nondimensional_helmholtz_free_energy_per_link : JArr α → JArr α → Option (JArr α)
  /-- field `nondimensional_relative_helmholtz_free_energy::Function` -/
  nondimensional_relative_helmholtz_free_energy : JArr α → JArr α → Option (JArr α)
  /-- field `nondimensional_relative_helmholtz_free_energy_per_link::Function` -/
  nondimensional_relative_helmholtz_free_energy_per_link : JArr α → JArr α → Option (JArr α)

end Polymers.Julia.Ufjc.Morse.Thermodynamics.Isometric.Asymptotic.Reduced.Legendre

namespace Polymers.Julia.Ufjc.Morse.Thermodynamics.Isometric.Asymptotic.Reduced

/-- `src/physics/single_chain/ufjc/morse/thermodynamics/isometric/asymptotic/reduced/mod.jl` lines 16-41: struct `MORSEFJC`. -/
structure MORSEFJC (α : Type) where
  /-- field `number_of_links::UInt8` -/
  number_of_links : Nat
  /-- field `link_length::Float64` -/
  link_length : α
  /-- field `hinge_mass::Float64` -/
  hinge_mass : α
  /-- field `link_stiffness::Float64` -/
  link_stiffness : α
  /-- field `link_energy::Float64` -/
  link_energy : α
  /-- field `legendre::Any` -/
  legendre : Polymers.Julia.Ufjc.Morse.Thermodynamics.Isometric.Asymptotic.Reduced.Legendre.MORSEFJC α

end Polymers.Julia.Ufjc.Morse.Thermodynamics.Isometric.Asymptotic.Reduced

namespace Polymers.Julia.Ufjc.Morse.Thermodynamics.Isometric.Asymptotic.Legendre

/-- `src/physics/single_chain/ufjc/morse/thermodynamics/isometric/asymptotic/legendre/mod.jl` lines 16-77: struct `MORSEFJC`. -/
structure MORSEFJC (α : Type) where
  /-- field `number_of_links::UInt8` -/
  number_of_links : Nat
  /-- field `link_length::Float64` -/
  link_length : α
  /-- field `hinge_mass::Float64` -/
  hinge_mass : α
  /-- field `link_stiffness::Float64` -/
  link_stiffness : α
  /-- field `link_energy::Float64` -/
  link_energy : α
  /-- field `force::Function` -/
  force : JArr α → JArr α → Option (JArr α)
  /-- field `nondimensional_force::Function` -/
  nondimensional_force : JArr α → JArr α → Option (JArr α)
  /-- field `helmholtz_free_energy::Function` -/
  helmholtz_free_energy : JArr α → JArr α → Option (JArr α)
  /-- field `helmholtz_free_energy_per_link::Function` -/
  helmholtz_free_energy_per_link : JArr α → JArr α → Option (JArr α)
  /-- field `relative_helmholtz_free_energy::Function` -/
  relative_helmholtz_free_energy : JArr α → JArr α → Option (JArr α)
  /-- field `relative_helmholtz_free_energy_per_link::Function` -/
  relative_helmholtz_free_energy_per_link : JArr α → JArr α → Option (JArr α)
  /-- field `nondimensional_helmholtz_free_energy::Function` -/
  nondimensional_helmholtz_free_energy : JArr α → JArr α → Option (JArr α)
  /-- field `nondimensional_helmholtz_free_energy_per_link::Function` -/
  nondimensional_helmholtz_free_energy_per_link : JArr α → JArr α → Option (JArr α)
  /-- field `nondimensional_relative_helmholtz_free_energy::Function` -/
  nondimensional_relative_helmholtz_free_energy : JArr α → JArr α → Option (JArr α)
  /-- field `nondimensional_relative_helmholtz_free_energy_per_link::Function` -/
  nondimensional_relative_helmholtz_free_energy_per_link : JArr α → JArr α → Option (JArr α)

end Polymers.Julia.Ufjc.Morse.Thermodynamics.Isometric.Asymptotic.Legendre

namespace Polymers.Julia.Ufjc.Morse.Thermodynamics.Isometric.Asymptotic

/-- `src/physics/single_chain/ufjc/morse/thermodynamics/isometric/asymptotic/mod.jl` lines 17-46: struct `MORSEFJC`. -/
structure MORSEFJC (α : Type) where
  /-- field `number_of_links::UInt8` -/
  number_of_links : Nat
  /-- field `link_length::Float64` -/
  link_length : α
  /-- field `hinge_mass::Float64` -/
  hinge_mass : α
  /-- field `link_stiffness::Float64` -/
  link_stiffness : α
  /-- field `link_energy::Float64` -/
  link_energy : α
  /-- field `reduced::Any` -/
  reduced : Polymers.Julia.Ufjc.Morse.Thermodynamics.Isometric.Asymptotic.Reduced.MORSEFJC α
  /-- field `legendre::Any` -/
  legendre : Polymers.Julia.Ufjc.Morse.Thermodynamics.Isometric.Asymptotic.Legendre.MORSEFJC α

end Polymers.Julia.Ufjc.Morse.Thermodynamics.Isometric.Asymptotic

namespace Polymers.Julia.Ufjc.Morse.Thermodynamics.Isometric

/-- `src/physics/single_chain/ufjc/morse/thermodynamics/isometric/mod.jl` lines 16-41: struct `MORSEFJC`. -/
structure MORSEFJC (α : Type) where
  /-- field `number_of_links::UInt8` -/
  number_of_links : Nat
  /-- field `link_length::Float64` -/
  link_length : α
  /-- field `hinge_mass::Float64` -/
  hinge_mass : α
  /-- field `link_stiffness::Float64` -/
  link_stiffness : α
  /-- field `link_energy::Float64` -/
  link_energy : α
  /-- field `asymptotic::Any` -/
  asymptotic : Polymers.Julia.Ufjc.Morse.Thermodynamics.Isometric.Asymptotic.MORSEFJC α

end Polymers.Julia.Ufjc.Morse.Thermodynamics.Isometric

namespace Polymers.Julia.Ufjc.Morse.Thermodynamics.Isotensional.Asymptotic.Reduced.Legendre

/-- `src/physics/single_chain/ufjc/morse/thermodynamics/isotensional/asymptotic/reduced/legendre/mod.jl` lines 16-69: struct `MORSEFJC`. -/
structure MORSEFJC (α : Type) where
  /-- field `number_of_links::UInt8` -/
  number_of_links : Nat
  /-- field `link_length::Float64` -/
  link_length : α
  /-- field `hinge_mass::Float64` -/
  hinge_mass : α
  /-- field `link_stiffness::Float64` -/
  link_stiffness : α
  /-- field `link_energy::Float64` -/
  link_energy : α
  /-- field `helmholtz_free_energy::Function` -/
  helmholtz_free_energy : JArr α → JArr α → Option (JArr α)
  /-- field `helmholtz_free_energy_per_link::Function` -/
  helmholtz_free_energy_per_link : JArr α → JArr α → Option (JArr α)
  /-- field `relative_helmholtz_free_energy::Function` -/
  relative_helmholtz_free_energy : JArr α → JArr α → Option (JArr α)
  /-- field `relative_helmholtz_free_energy_per_link::Function` -/
  relative_helmholtz_free_energy_per_link : JArr α → JArr α → Option (JArr α)
  /-- field `nondimensional_helmholtz_free_energy::Function` -/
  nondimensional_helmholtz_free_energy : JArr α → JArr α → Option (JArr α)
  /-- field `nondimensional_helmholtz_free_energy_per_link::Function` -/
  nondimensional_helmholtz_free_energy_per_link : JArr α → JArr α → Option (JArr α)
  /-- field `nondimensional_relative_helmholtz_free_energy::Function` -/
  nondimensional_relative_helmholtz_free_energy : JArr α → JArr α → Option (JArr α)
  /-- field `nondimensional_relative_helmholtz_free_energy_per_link::Function` -/
  nondimensional_relative_helmholtz_free_energy_per_link : JArr α → JArr α → Option (JArr α)

end Polymers.Julia.Ufjc.Morse.Thermodynamics.Isotensional.Asymptotic.Reduced.Legendre

namespace Polymers.Julia.Ufjc.Morse.Thermodynamics.Isotensional.Asymptotic.Reduced

/-- `src/physics/single_chain/ufjc/morse/thermodynamics/isotensional/asymptotic/reduced/mod.jl` lines 19-92: struct `MORSEFJC`. -/
structure MORSEFJC (α : Type) where
  /-- field `number_of_links::UInt8` -/
  number_of_links : Nat
  /-- field `link_length::Float64` -/
  link_length : α
  /-- field `hinge_mass::Float64` -/
  hinge_mass : α
  /-- field `link_stiffness::Float64` -/
  link_stiffness : α
  /-- field `link_energy::Float64` -/
  link_energy : α
  /-- field `legendre::Any` -/
  legendre : Polymers.Julia.Ufjc.Morse.Thermodynamics.Isotensional.Asymptotic.Reduced.Legendre.MORSEFJC α
  /-- field `end_to_end_length::Function` -/
  end_to_end_length : JArr α → JArr α → Option (JArr α)
  /-- field `end_to_end_length_per_link::Function` -/
  end_to_end_length_per_link : JArr α → JArr α → Option (JArr α)
  /-- field `nondimensional_end_to_end_length::Function` -/
  nondimensional_end_to_end_length : JArr α → JArr α → Option (JArr α)
  /-- field `nondimensional_end_to_end_length_per_link::Function` -/
  nondimensional_end_to_end_length_per_link : JArr α → JArr α → Option (JArr α)
  /-- field `gibbs_free_energy::Function` -/
  gibbs_free_energy : JArr α → JArr α → Option (JArr α)
  /-- field `gibbs_free_energy_per_link::Function` -/
  gibbs_free_energy_per_link : JArr α → JArr α → Option (JArr α)
  /-- field `relative_gibbs_free_energy::Function` -/
  relative_gibbs_free_energy : JArr α → JArr α → Option (JArr α)
  /-- field `relative_gibbs_free_energy_per_link::Function` -/
  relative_gibbs_free_energy_per_link : JArr α → JArr α → Option (JArr α)
  /-- field `nondimensional_gibbs_free_energy::Function` -/
  nondimensional_gibbs_free_energy : JArr α → JArr α → Option (JArr α)
  /-- field `nondimensional_gibbs_free_energy_per_link::Function` -/
  nondimensional_gibbs_free_energy_per_link : JArr α → JArr α → Option (JArr α)
  /-- field `nondimensional_relative_gibbs_free_energy::Function` -/
  nondimensional_relative_gibbs_free_energy : JArr α → JArr α → Option (JArr α)
  /-- field `nondimensional_relative_gibbs_free_energy_per_link::Function` -/
  nondimensional_relative_gibbs_free_energy_per_link : JArr α → JArr α → Option (JArr α)

end Polymers.Julia.Ufjc.Morse.Thermodynamics.Isotensional.Asymptotic.Reduced

namespace Polymers.Julia.Ufjc.Morse.Thermodynamics.Isotensional.Asymptotic.Legendre

/-- `src/physics/single_chain/ufjc/morse/thermodynamics/isotensional/asymptotic/legendre/mod.jl` lines 16-69: struct `MORSEFJC`. -/
structure MORSEFJC (α : Type) where
  /-- field `number_of_links::UInt8` -/
  number_of_links : Nat
  /-- field `link_length::Float64` -/
  link_length : α
  /-- field `hinge_mass::Float64` -/
  hinge_mass : α
  /-- field `link_stiffness::Float64` -/
  link_stiffness : α
  /-- field `link_energy::Float64` -/
  link_energy : α
  /-- field `helmholtz_free_energy::Function` -/
  helmholtz_free_energy : JArr α → JArr α → Option (JArr α)
  /-- field `helmholtz_free_energy_per_link::Function` -/
  helmholtz_free_energy_per_link : JArr α → JArr α → Option (JArr α)
  /-- field `relative_helmholtz_free_energy::Function` -/
  relative_helmholtz_free_energy : JArr α → JArr α → Option (JArr α)
  /-- field `relative_helmholtz_free_energy_per_link::Function` -/
  relative_helmholtz_free_energy_per_link : JArr α → JArr α → Option (JArr α)
  /-- field `nondimensional_helmholtz_free_energy::Function` -/
  nondimensional_helmholtz_free_energy : JArr α → JArr α → Option (JArr α)
  /-- field `nondimensional_helmholtz_free_energy_per_link::Function` -/
  nondimensional_helmholtz_free_energy_per_link : JArr α → JArr α → Option (JArr α)
  /-- field `nondimensional_relative_helmholtz_free_energy::Function` -/
  nondimensional_relative_helmholtz_free_energy : JArr α → JArr α → Option (JArr α)
  /-- field `nondimensional_relative_helmholtz_free_energy_per_link::Function` -/
  nondimensional_relative_helmholtz_free_energy_per_link : JArr α → JArr α → Option (JArr α)

end Polymers.Julia.Ufjc.Morse.Thermodynamics.Isotensional.Asymptotic.Legendre

namespace Polymers.Julia.Ufjc.Morse.Thermodynamics.Isotensional.Asymptotic

/-- `src/physics/single_chain/ufjc/morse/thermodynamics/isotensional/asymptotic/mod.jl` lines 20-97: struct `MORSEFJC`. -/
structure MORSEFJC (α : Type) where
  /-- field `number_of_links::UInt8` -/
  number_of_links : Nat
  /-- field `link_length::Float64` -/
  link_length : α
  /-- field `hinge_mass::Float64` -/
  hinge_mass : α
  /-- field `link_stiffness::Float64` -/
  link_stiffness : α
  /-- field `link_energy::Float64` -/
  link_energy : α
  /-- field `reduced::Any` -/
  reduced : Polymers.Julia.Ufjc.Morse.Thermodynamics.Isotensional.Asymptotic.Reduced.MORSEFJC α
  /-- field `legendre::Any` -/
  legendre : Polymers.Julia.Ufjc.Morse.Thermodynamics.Isotensional.Asymptotic.Legendre.MORSEFJC α
  /-- field `end_to_end_length::Function` -/
  end_to_end_length : JArr α → JArr α → Option (JArr α)
  /-- field `end_to_end_length_per_link::Function` -/
  end_to_end_length_per_link : JArr α → JArr α → Option (JArr α)
  /-- field `nondimensional_end_to_end_length::Function` -/
  nondimensional_end_to_end_length : JArr α → JArr α → Option (JArr α)
  /-- field `nondimensional_end_to_end_length_per_link::Function` -/
  nondimensional_end_to_end_length_per_link : JArr α → JArr α → Option (JArr α)
  /-- field `gibbs_free_energy::Function` -/
  gibbs_free_energy : JArr α → JArr α → Option (JArr α)
  /-- field `gibbs_free_energy_per_link::Function` -/
  gibbs_free_energy_per_link : JArr α → JArr α → Option (JArr α)
  /-- field `relative_gibbs_free_energy::Function` -/
  relative_gibbs_free_energy : JArr α → JArr α → Option (JArr α)
  /-- field `relative_gibbs_free_energy_per_link::Function` -/
  relative_gibbs_free_energy_per_link : JArr α → JArr α → Option (JArr α)
  /-- field `nondimensional_gibbs_free_energy::Function` -/
  nondimensional_gibbs_free_energy : JArr α → JArr α → Option (JArr α)
  /-- field `nondimensional_gibbs_free_energy_per_link::Function` -/
  nondimensional_gibbs_free_energy_per_link : JArr α → JArr α → Option (JArr α)
  /-- field `nondimensional_relative_gibbs_free_energy::Function` -/
  nondimensional_relative_gibbs_free_energy : JArr α → JArr α → Option (JArr α)
  /-- field `nondimensional_relative_gibbs_free_energy_per_link::Function` -/
  nondimensional_relative_gibbs_free_energy_per_link : JArr α → JArr α → Option (JArr α)

end Polymers.Julia.Ufjc.Morse.Thermodynamics.Isotensional.Asymptotic

namespace Polymers.Julia.Ufjc.Morse.Thermodynamics.Isotensional.Legendre

/-- `src/physics/single_chain/ufjc/morse/thermodynamics/isotensional/legendre/mod.jl` lines 16-69: struct `MORSEFJC`. -/
structure MORSEFJC (α : Type) where
  /-- field `number_of_links::UInt8` -/
  number_of_links : Nat
  /-- field `link_length::Float64` -/
  link_length : α
  /-- field `hinge_mass::Float64` -/
  hinge_mass : α
  /-- field `link_stiffness::Float64` -/
  link_stiffness : α
  /-- field `link_energy::Float64` -/
  link_energy : α
  /-- field `helmholtz_free_energy::Function` -/
  helmholtz_free_energy : JArr α → JArr α → Option (JArr α)
  /-- field `helmholtz_free_energy_per_link::Function` -/
  helmholtz_free_energy_per_link : JArr α → JArr α → Option (JArr α)
  /-- field `relative_helmholtz_free_energy::Function` -/
  relative_helmholtz_free_energy : JArr α → JArr α → Option (JArr α)
  /-- field `relative_helmholtz_free_energy_per_link::Function` -/
  relative_helmholtz_free_energy_per_link : JArr α → JArr α → Option (JArr α)
  /-- field `nondimensional_helmholtz_free_energy::Function` -/
  nondimensional_helmholtz_free_energy : JArr α → JArr α → Option (JArr α)
  /-- field `nondimensional_helmholtz_free_energy_per_link::Function` -/
  nondimensional_helmholtz_free_energy_per_link : JArr α → JArr α → Option (JArr α)
  /-- field `nondimensional_relative_helmholtz_free_energy::Function` -/
  nondimensional_relative_helmholtz_free_energy : JArr α → JArr α → Option (JArr α)
  /-- field `nondimensional_relative_helmholtz_free_energy_per_link::Function` -/
  nondimensional_relative_helmholtz_free_energy_per_link : JArr α → JArr α → Option (JArr α)

end Polymers.Julia.Ufjc.Morse.Thermodynamics.Isotensional.Legendre

namespace Polymers.Julia.Ufjc.Morse.Thermodynamics.Isotensional

/-- `src/physics/single_chain/ufjc/morse/thermodynamics/isotensional/mod.jl` lines 20-97: struct `MORSEFJC`. -/
structure MORSEFJC (α : Type) where
  /-- field `number_of_links::UInt8` -/
  number_of_links : Nat
  /-- field `link_length::Float64` -/
  link_length : α
  /-- field `hinge_mass::Float64` -/
  hinge_mass : α
  /-- field `link_stiffness::Float64` -/
  link_stiffness : α
  /-- field `link_energy::Float64` -/
  link_energy : α
  /-- field `asymptotic::Any` -/
  asymptotic : Polymers.Julia.Ufjc.Morse.Thermodynamics.Isotensional.Asymptotic.MORSEFJC α
  /-- field `legendre::Any` -/
  legendre : Polymers.Julia.Ufjc.Morse.Thermodynamics.Isotensional.Legendre.MORSEFJC α
  /-- field `end_to_end_length::Function` -/
  end_to_end_length : JArr α → JArr α → Option (JArr α)
  /-- field `end_to_end_length_per_link::Function` -/
  end_to_end_length_per_link : JArr α → JArr α → Option (JArr α)
  /-- field `nondimensional_end_to_end_length::Function` -/
  nondimensional_end_to_end_length : JArr α → JArr α → Option (JArr α)
  /-- field `nondimensional_end_to_end_length_per_link::Function` -/
  nondimensional_end_to_end_length_per_link : JArr α → JArr α → Option (JArr α)
  /-- field `gibbs_free_energy::Function` -/
  gibbs_free_energy : JArr α → JArr α → Option (JArr α)
  /-- field `gibbs_free_energy_per_link::Function` -/
  gibbs_free_energy_per_link : JArr α → JArr α → Option (JArr α)
  /-- field `relative_gibbs_free_energy::Function` -/
  relative_gibbs_free_energy : JArr α → JArr α → Option (JArr α)
  /-- field `relative_gibbs_free_energy_per_link::Function` -/
  relative_gibbs_free_energy_per_link : JArr α → JArr α → Option (JArr α)
  /-- field `nondimensional_gibbs_free_energy::Function` -/
  nondimensional_gibbs_free_energy : JArr α → JArr α → Option (JArr α)
  /-- field `nondimensional_gibbs_free_energy_per_link::Function` -/
  nondimensional_gibbs_free_energy_per_link : JArr α → JArr α → Option (JArr α)
  /-- field `nondimensional_relative_gibbs_free_energy::Function` -/
  nondimensional_relative_gibbs_free_energy : JArr α → JArr α → Option (JArr α)
  /-- field `nondimensional_relative_gibbs_free_energy_per_link::Function` -/
  nondimensional_relative_gibbs_free_energy_per_link : JArr α → JArr α → Option (JArr α)

end Polymers.Julia.Ufjc.Morse.Thermodynamics.Isotensional

namespace Polymers.Julia.Ufjc.Morse.Thermodynamics

/-- `src/physics/single_chain/ufjc/morse/thermodynamics/mod.jl` lines 16-45: struct `MORSEFJC`. -/
structure MORSEFJC (α : Type) where
  /-- field `number_of_links::UInt8` -/
  number_of_links : Nat
  /-- field `link_length::Float64` -/
  link_length : α
  /-- field `hinge_mass::Float64` -/
  hinge_mass : α
  /-- field `link_stiffness::Float64` -/
  link_stiffness : α
  /-- field `link_energy::Float64` -/
  link_energy : α
  /-- field `isometric::Any` -/
  isometric : Polymers.Julia.Ufjc.Morse.Thermodynamics.Isometric.MORSEFJC α
  /-- field `isotensional::Any` -/
  isotensional : Polymers.Julia.Ufjc.Morse.Thermodynamics.Isotensional.MORSEFJC α

end Polymers.Julia.Ufjc.Morse.Thermodynamics

namespace Polymers.Julia.Ufjc.Morse

/-- `src/physics/single_chain/ufjc/morse/mod.jl` lines 15-40: struct `MORSEFJC`. -/
structure MORSEFJC (α : Type) where
  /-- field `number_of_links::UInt8` -/
  number_of_links : Nat
  /-- field `link_length::Float64` -/
  link_length : α
  /-- field `hinge_mass::Float64` -/
  hinge_mass : α
  /-- field `link_stiffness::Float64` -/
  link_stiffness : α
  /-- field `link_energy::Float64` -/
  link_energy : α
  /-- field `thermodynamics::Any` -/
  thermodynamics : Polymers.Julia.Ufjc.Morse.Thermodynamics.MORSEFJC α

end Polymers.Julia.Ufjc.Morse

namespace Polymers.Julia.Ufjc.Morse.Thermodynamics.Isometric.Asymptotic.Reduced.Legendre

/-- `src/physics/single_chain/ufjc/morse/thermodynamics/isometric/asymptotic/reduced/legendre/mod.jl` lines 85-122. -/
def force (number_of_links : JArr Nat) (link_length : JArr α) (link_stiffness : JArr α) (link_energy : JArr α) (end_to_end_length : JArr α) (temperature : JArr α) : Option (JArr α) :=
  JArr.ap (JArr.ap (JArr.ap (JArr.ap (JArr.ap (JArr.map (fun (number_of_links_i : Nat) (link_length_i : α) (link_stiffness_i : α) (link_energy_i : α) (end_to_end_length_i : α) (temperature_i : α) => Polymers.C.physics_single_chain_ufjc_morse_thermodynamics_isometric_asymptotic_reduced_legendre_force number_of_links_i link_length_i link_stiffness_i link_energy_i end_to_end_length_i temperature_i) number_of_links) link_length) link_stiffness) link_energy) end_to_end_length) temperature

/-- `src/physics/single_chain/ufjc/morse/thermodynamics/isometric/asymptotic/reduced/legendre/mod.jl` lines 130-155. -/
def nondimensional_force (nondimensional_link_stiffness : JArr α) (nondimensional_link_energy : JArr α) (nondimensional_end_to_end_length_per_link : JArr α) : Option (JArr α) :=
  JArr.ap (JArr.ap (JArr.map (fun (nondimensional_link_stiffness_i : α) (nondimensional_link_energy_i : α) (nondimensional_end_to_end_length_per_link_i : α) => Polymers.C.physics_single_chain_ufjc_morse_thermodynamics_isometric_asymptotic_reduced_legendre_nondimensional_force nondimensional_link_stiffness_i nondimensional_link_energy_i nondimensional_end_to_end_length_per_link_i) nondimensional_link_stiffness) nondimensional_link_energy) nondimensional_end_to_end_length_per_link

/-- `src/physics/single_chain/ufjc/morse/thermodynamics/isometric/asymptotic/reduced/legendre/mod.jl` lines 169-210. -/
def helmholtz_free_energy (number_of_links : JArr Nat) (link_length : JArr α) (hinge_mass : JArr α) (link_stiffness : JArr α) (link_energy : JArr α) (end_to_end_length : JArr α) (temperature : JArr α) : Option (JArr α) :=
  JArr.ap (JArr.ap (JArr.ap (JArr.ap (JArr.ap (JArr.ap (JArr.map (fun (number_of_links_i : Nat) (link_length_i : α) (hinge_mass_i : α) (link_stiffness_i : α) (link_energy_i : α) (end_to_end_length_i : α) (temperature_i : α) => Polymers.C.physics_single_chain_ufjc_morse_thermodynamics_isometric_asymptotic_reduced_legendre_helmholtz_free_energy number_of_links_i link_length_i hinge_mass_i link_stiffness_i link_energy_i end_to_end_length_i temperature_i) number_of_links) link_length) hinge_mass) link_stiffness) link_energy) end_to_end_length) temperature

/-- `src/physics/single_chain/ufjc/morse/thermodynamics/isometric/asymptotic/reduced/legendre/mod.jl` lines 218-259. -/
def helmholtz_free_energy_per_link (number_of_links : JArr Nat) (link_length : JArr α) (hinge_mass : JArr α) (link_stiffness : JArr α) (link_energy : JArr α) (end_to_end_length : JArr α) (temperature : JArr α) : Option (JArr α) :=
  JArr.ap (JArr.ap (JArr.ap (JArr.ap (JArr.ap (JArr.ap (JArr.map (fun (number_of_links_i : Nat) (link_length_i : α) (hinge_mass_i : α) (link_stiffness_i : α) (link_energy_i : α) (end_to_end_length_i : α) (temperature_i : α) => Polymers.C.physics_single_chain_ufjc_morse_thermodynamics_isometric_asymptotic_reduced_legendre_helmholtz_free_energy_per_link number_of_links_i link_length_i hinge_mass_i link_stiffness_i link_energy_i end_to_end_length_i temperature_i) number_of_links) link_length) hinge_mass) link_stiffness) link_energy) end_to_end_length) temperature

/-- `src/physics/single_chain/ufjc/morse/thermodynamics/isometric/asymptotic/reduced/legendre/mod.jl` lines 267-304. -/
def relative_helmholtz_free_energy (number_of_links : JArr Nat) (link_length : JArr α) (link_stiffness : JArr α) (link_energy : JArr α) (end_to_end_length : JArr α) (temperature : JArr α) : Option (JArr α) :=
  JArr.ap (JArr.ap (JArr.ap (JArr.ap (JArr.ap (JArr.map (fun (number_of_links_i : Nat) (link_length_i : α) (link_stiffness_i : α) (link_energy_i : α) (end_to_end_length_i : α) (temperature_i : α) => Polymers.C.physics_single_chain_ufjc_morse_thermodynamics_isometric_asymptotic_reduced_legendre_relative_helmholtz_free_energy number_of_links_i link_length_i link_stiffness_i link_energy_i end_to_end_length_i temperature_i) number_of_links) link_length) link_stiffness) link_energy) end_to_end_length) temperature

/-- `src/physics/single_chain/ufjc/morse/thermodynamics/isometric/asymptotic/reduced/legendre/mod.jl` lines 312-349. -/
def relative_helmholtz_free_energy_per_link (number_of_links : JArr Nat) (link_length : JArr α) (link_stiffness : JArr α) (link_energy : JArr α) (end_to_end_length : JArr α) (temperature : JArr α) : Option (JArr α) :=
  JArr.ap (JArr.ap (JArr.ap (JArr.ap (JArr.ap (JArr.map (fun (number_of_links_i : Nat) (link_length_i : α) (link_stiffness_i : α) (link_energy_i : α) (end_to_end_length_i : α) (temperature_i : α) => Polymers.C.physics_single_chain_ufjc_morse_thermodynamics_isometric_asymptotic_reduced_legendre_relative_helmholtz_free_energy_per_link number_of_links_i link_length_i link_stiffness_i link_energy_i end_to_end_length_i temperature_i) number_of_links) link_length) link_stiffness) link_energy) end_to_end_length) temperature

/-- `src/physics/single_chain/ufjc/morse/thermodynamics/isometric/asymptotic/reduced/legendre/mod.jl` lines 357-398. -/
def nondimensional_helmholtz_free_energy (number_of_links : JArr Nat) (link_length : JArr α) (hinge_mass : JArr α) (nondimensional_link_stiffness : JArr α) (nondimensional_link_energy : JArr α) (nondimensional_end_to_end_length_per_link : JArr α) (temperature : JArr α) : Option (JArr α) :=
  JArr.ap (JArr.ap (JArr.ap (JArr.ap (JArr.ap (JArr.ap (JArr.map (fun (number_of_links_i : Nat) (link_length_i : α) (hinge_mass_i : α) (nondimensional_link_stiffness_i : α) (nondimensional_link_energy_i : α) (nondimensional_end_to_end_length_per_link_i : α) (temperature_i : α) => Polymers.C.physics_single_chain_ufjc_morse_thermodynamics_isometric_asymptotic_reduced_legendre_nondimensional_helmholtz_free_energy number_of_links_i link_length_i hinge_mass_i nondimensional_link_stiffness_i nondimensional_link_energy_i nondimensional_end_to_end_length_per_link_i temperature_i) number_of_links) link_length) hinge_mass) nondimensional_link_stiffness) nondimensional_link_energy) nondimensional_end_to_end_length_per_link) temperature

/-- `src/physics/single_chain/ufjc/morse/thermodynamics/isometric/asymptotic/reduced/legendre/mod.jl` lines 406-447. -/
def nondimensional_helmholtz_free_energy_per_link (number_of_links : JArr Nat) (link_length : JArr α) (hinge_mass : JArr α) (nondimensional_link_stiffness : JArr α) (nondimensional_link_energy : JArr α) (nondimensional_end_to_end_length_per_link : JArr α) (temperature : JArr α) : Option (JArr α) :=
  JArr.ap (JArr.ap (JArr.ap (JArr.ap (JArr.ap (JArr.ap (JArr.map (fun (number_of_links_i : Nat) (link_length_i : α) (hinge_mass_i : α) (nondimensional_link_stiffness_i : α) (nondimensional_link_energy_i : α) (nondimensional_end_to_end_length_per_link_i : α) (temperature_i : α) => Polymers.C.physics_single_chain_ufjc_morse_thermodynamics_isometric_asymptotic_reduced_legendre_nondimensional_helmholtz_free_energy_per_link number_of_links_i link_length_i hinge_mass_i nondimensional_link_stiffness_i nondimensional_link_energy_i nondimensional_end_to_end_length_per_link_i temperature_i) number_of_links) link_length) hinge_mass) nondimensional_link_stiffness) nondimensional_link_energy) nondimensional_end_to_end_length_per_link) temperature

/-- `src/physics/single_chain/ufjc/morse/thermodynamics/isometric/asymptotic/reduced/legendre/mod.jl` lines 455-484. -/
def nondimensional_relative_helmholtz_free_energy (number_of_links : JArr Nat) (nondimensional_link_stiffness : JArr α) (nondimensional_link_energy : JArr α) (nondimensional_end_to_end_length_per_link : JArr α) : Option (JArr α) :=
  JArr.ap (JArr.ap (JArr.ap (JArr.map (fun (number_of_links_i : Nat) (nondimensional_link_stiffness_i : α) (nondimensional_link_energy_i : α) (nondimensional_end_to_end_length_per_link_i : α) => Polymers.C.physics_single_chain_ufjc_morse_thermodynamics_isometric_asymptotic_reduced_legendre_nondimensional_relative_helmholtz_free_energy number_of_links_i nondimensional_link_stiffness_i nondimensional_link_energy_i nondimensional_end_to_end_length_per_link_i) number_of_links) nondimensional_link_stiffness) nondimensional_link_energy) nondimensional_end_to_end_length_per_link

/-- `src/physics/single_chain/ufjc/morse/thermodynamics/isometric/asymptotic/reduced/legendre/mod.jl` lines 492-517. -/
def nondimensional_relative_helmholtz_free_energy_per_link (nondimensional_link_stiffness : JArr α) (nondimensional_link_energy : JArr α) (nondimensional_end_to_end_length_per_link : JArr α) : Option (JArr α) :=
  JArr.ap (JArr.ap (JArr.map (fun (nondimensional_link_stiffness_i : α) (nondimensional_link_energy_i : α) (nondimensional_end_to_end_length_per_link_i : α) => Polymers.C.physics_single_chain_ufjc_morse_thermodynamics_isometric_asymptotic_reduced_legendre_nondimensional_relative_helmholtz_free_energy_per_link nondimensional_link_stiffness_i nondimensional_link_energy_i nondimensional_end_to_end_length_per_link_i) nondimensional_link_stiffness) nondimensional_link_energy) nondimensional_end_to_end_length_per_link

/-- `src/physics/single_chain/ufjc/morse/thermodynamics/isometric/asymptotic/reduced/legendre/mod.jl` lines 524-619. -/
def MORSEFJC.new (other : α → JArr α → Option (JArr α)) (number_of_links : Nat) (link_length : α) (hinge_mass : α) (link_stiffness : α) (link_energy : α) : Polymers.Julia.Ufjc.Morse.Thermodynamics.Isometric.Asymptotic.Reduced.Legendre.MORSEFJC α :=
  let BOLTZMANN_CONSTANT : α := 8.314462618
  Polymers.Julia.Ufjc.Morse.Thermodynamics.Isometric.Asymptotic.Reduced.Legendre.MORSEFJC.mk
    number_of_links
    link_length
    hinge_mass
    link_stiffness
    link_energy
    (fun (end_to_end_length : JArr α) (temperature : JArr α) => Polymers.Julia.Ufjc.Morse.Thermodynamics.Isometric.Asymptotic.Reduced.Legendre.force (JArr.scalar number_of_links) (JArr.scalar link_length) (JArr.scalar link_stiffness) (JArr.scalar link_energy) end_to_end_length temperature)
    (fun (nondimensional_end_to_end_length_per_link : JArr α) (temperature : JArr α) => (JArr.quotient other (link_stiffness * Elem.powi link_length 2 / BOLTZMANN_CONSTANT) temperature).bind fun q0 => (JArr.quotient other (link_energy / BOLTZMANN_CONSTANT) temperature).bind fun q1 => Polymers.Julia.Ufjc.Morse.Thermodynamics.Isometric.Asymptotic.Reduced.Legendre.nondimensional_force q0 q1 nondimensional_end_to_end_length_per_link)
    (fun (end_to_end_length : JArr α) (temperature : JArr α) => Polymers.Julia.Ufjc.Morse.Thermodynamics.Isometric.Asymptotic.Reduced.Legendre.helmholtz_free_energy (JArr.scalar number_of_links) (JArr.scalar link_length) (JArr.scalar hinge_mass) (JArr.scalar link_stiffness) (JArr.scalar link_energy) end_to_end_length temperature)
    (fun (end_to_end_length : JArr α) (temperature : JArr α) => Polymers.Julia.Ufjc.Morse.Thermodynamics.Isometric.Asymptotic.Reduced.Legendre.helmholtz_free_energy_per_link (JArr.scalar number_of_links) (JArr.scalar link_length) (JArr.scalar hinge_mass) (JArr.scalar link_stiffness) (JArr.scalar link_energy) end_to_end_length temperature)
    (fun (end_to_end_length : JArr α) (temperature : JArr α) => Polymers.Julia.Ufjc.Morse.Thermodynamics.Isometric.Asymptotic.Reduced.Legendre.relative_helmholtz_free_energy (JArr.scalar number_of_links) (JArr.scalar link_length) (JArr.scalar link_stiffness) (JArr.scalar link_energy) end_to_end_length temperature)
    (fun (end_to_end_length : JArr α) (temperature : JArr α) => Polymers.Julia.Ufjc.Morse.Thermodynamics.Isometric.Asymptotic.Reduced.Legendre.relative_helmholtz_free_energy_per_link (JArr.scalar number_of_links) (JArr.scalar link_length) (JArr.scalar link_stiffness) (JArr.scalar link_energy) end_to_end_length temperature)
    (fun (nondimensional_end_to_end_length_per_link : JArr α) (temperature : JArr α) => (JArr.quotient other (link_stiffness * Elem.powi link_length 2 / BOLTZMANN_CONSTANT) temperature).bind fun q3 => (JArr.quotient other (link_energy / BOLTZMANN_CONSTANT) temperature).bind fun q4 => Polymers.Julia.Ufjc.Morse.Thermodynamics.Isometric.Asymptotic.Reduced.Legendre.nondimensional_helmholtz_free_energy (JArr.scalar number_of_links) (JArr.scalar link_length) (JArr.scalar hinge_mass) q3 q4 nondimensional_end_to_end_length_per_link temperature)
    (fun (nondimensional_end_to_end_length_per_link : JArr α) (temperature : JArr α) => (JArr.quotient other (link_stiffness * Elem.powi link_length 2 / BOLTZMANN_CONSTANT) temperature).bind fun q3 => (JArr.quotient other (link_energy / BOLTZMANN_CONSTANT) temperature).bind fun q4 => Polymers.Julia.Ufjc.Morse.Thermodynamics.Isometric.Asymptotic.Reduced.Legendre.nondimensional_helmholtz_free_energy_per_link (JArr.scalar number_of_links) (JArr.scalar link_length) (JArr.scalar hinge_mass) q3 q4 nondimensional_end_to_end_length_per_link temperature)
    (fun (nondimensional_end_to_end_length_per_link : JArr α) (temperature : JArr α) => (JArr.quotient other (link_stiffness * Elem.powi link_length 2 / BOLTZMANN_CONSTANT) temperature).bind fun q1 => (JArr.quotient other (link_energy / BOLTZMANN_CONSTANT) temperature).bind fun q2 => Polymers.Julia.Ufjc.Morse.Thermodynamics.Isometric.Asymptotic.Reduced.Legendre.nondimensional_relative_helmholtz_free_energy (JArr.scalar number_of_links) q1 q2 nondimensional_end_to_end_length_per_link)
    (fun (nondimensional_end_to_end_length_per_link : JArr α) (temperature : JArr α) => (JArr.quotient other (link_stiffness * Elem.powi link_length 2 / BOLTZMANN_CONSTANT) temperature).bind fun q0 => (JArr.quotient other (link_energy / BOLTZMANN_CONSTANT) temperature).bind fun q1 => Polymers.Julia.Ufjc.Morse.Thermodynamics.Isometric.Asymptotic.Reduced.Legendre.nondimensional_relative_helmholtz_free_energy_per_link q0 q1 nondimensional_end_to_end_length_per_link)

end Polymers.Julia.Ufjc.Morse.Thermodynamics.Isometric.Asymptotic.Reduced.Legendre

namespace Polymers.Julia.Ufjc.Morse.Thermodynamics.Isometric.Asymptotic.Reduced

/-- `src/physics/single_chain/ufjc/morse/thermodynamics/isometric/asymptotic/reduced/mod.jl` lines 48-69. -/
def MORSEFJC.new (other : α → JArr α → Option (JArr α)) (number_of_links : Nat) (link_length : α) (hinge_mass : α) (link_stiffness : α) (link_energy : α) : Polymers.Julia.Ufjc.Morse.Thermodynamics.Isometric.Asymptotic.Reduced.MORSEFJC α :=
  Polymers.Julia.Ufjc.Morse.Thermodynamics.Isometric.Asymptotic.Reduced.MORSEFJC.mk
    number_of_links
    link_length
    hinge_mass
    link_stiffness
    link_energy
    (Polymers.Julia.Ufjc.Morse.Thermodynamics.Isometric.Asymptotic.Reduced.Legendre.MORSEFJC.new other number_of_links link_length hinge_mass link_stiffness link_energy)

end Polymers.Julia.Ufjc.Morse.Thermodynamics.Isometric.Asymptotic.Reduced

namespace Polymers.Julia.Ufjc.Morse.Thermodynamics.Isometric.Asymptotic.Legendre

/-- `src/physics/single_chain/ufjc/morse/thermodynamics/isometric/asymptotic/legendre/mod.jl` lines 85-122. -/
def force (number_of_links : JArr Nat) (link_length : JArr α) (link_stiffness : JArr α) (link_energy : JArr α) (end_to_end_length : JArr α) (temperature : JArr α) : Option (JArr α) :=
  JArr.ap (JArr.ap (JArr.ap (JArr.ap (JArr.ap (JArr.map (fun (number_of_links_i : Nat) (link_length_i : α) (link_stiffness_i : α) (link_energy_i : α) (end_to_end_length_i : α) (temperature_i : α) => Polymers.C.physics_single_chain_ufjc_morse_thermodynamics_isometric_asymptotic_legendre_force number_of_links_i link_length_i link_stiffness_i link_energy_i end_to_end_length_i temperature_i) number_of_links) link_length) link_stiffness) link_energy) end_to_end_length) temperature

/-- `src/physics/single_chain/ufjc/morse/thermodynamics/isometric/asymptotic/legendre/mod.jl` lines 130-155. -/
def nondimensional_force (nondimensional_link_stiffness : JArr α) (nondimensional_link_energy : JArr α) (nondimensional_end_to_end_length_per_link : JArr α) : Option (JArr α) :=
  JArr.ap (JArr.ap (JArr.map (fun (nondimensional_link_stiffness_i : α) (nondimensional_link_energy_i : α) (nondimensional_end_to_end_length_per_link_i : α) => Polymers.C.physics_single_chain_ufjc_morse_thermodynamics_isometric_asymptotic_legendre_nondimensional_force nondimensional_link_stiffness_i nondimensional_link_energy_i nondimensional_end_to_end_length_per_link_i) nondimensional_link_stiffness) nondimensional_link_energy) nondimensional_end_to_end_length_per_link

/-- `src/physics/single_chain/ufjc/morse/thermodynamics/isometric/asymptotic/legendre/mod.jl` lines 169-210. -/
def helmholtz_free_energy (number_of_links : JArr Nat) (link_length : JArr α) (hinge_mass : JArr α) (link_stiffness : JArr α) (link_energy : JArr α) (end_to_end_length : JArr α) (temperature : JArr α) : Option (JArr α) :=
  JArr.ap (JArr.ap (JArr.ap (JArr.ap (JArr.ap (JArr.ap (JArr.map (fun (number_of_links_i : Nat) (link_length_i : α) (hinge_mass_i : α) (link_stiffness_i : α) (link_energy_i : α) (end_to_end_length_i : α) (temperature_i : α) => Polymers.C.physics_single_chain_ufjc_morse_thermodynamics_isometric_asymptotic_legendre_helmholtz_free_energy number_of_links_i link_length_i hinge_mass_i link_stiffness_i link_energy_i end_to_end_length_i temperature_i) number_of_links) link_length) hinge_mass) link_stiffness) link_energy) end_to_end_length) temperature

/-- `src/physics/single_chain/ufjc/morse/thermodynamics/isometric/asymptotic/legendre/mod.jl` lines 218-259. -/
def helmholtz_free_energy_per_link (number_of_links : JArr Nat) (link_length : JArr α) (hinge_mass : JArr α) (link_stiffness : JArr α) (link_energy : JArr α) (end_to_end_length : JArr α) (temperature : JArr α) : Option (JArr α) :=
  JArr.ap (JArr.ap (JArr.ap (JArr.ap (JArr.ap (JArr.ap (JArr.map (fun (number_of_links_i : Nat) (link_length_i : α) (hinge_mass_i : α) (link_stiffness_i : α) (link_energy_i : α) (end_to_end_length_i : α) (temperature_i : α) => Polymers.C.physics_single_chain_ufjc_morse_thermodynamics_isometric_asymptotic_legendre_helmholtz_free_energy_per_link number_of_links_i link_length_i hinge_mass_i link_stiffness_i link_energy_i end_to_end_length_i temperature_i) number_of_links) link_length) hinge_mass) link_stiffness) link_energy) end_to_end_length) temperature

/-- `src/physics/single_chain/ufjc/morse/thermodynamics/isometric/asymptotic/legendre/mod.jl` lines 267-304. -/
def relative_helmholtz_free_energy (number_of_links : JArr Nat) (link_length : JArr α) (link_stiffness : JArr α) (link_energy : JArr α) (end_to_end_length : JArr α) (temperature : JArr α) : Option (JArr α) :=
  JArr.ap (JArr.ap (JArr.ap (JArr.ap (JArr.ap (JArr.map (fun (number_of_links_i : Nat) (link_length_i : α) (link_stiffness_i : α) (link_energy_i : α) (end_to_end_length_i : α) (temperature_i : α) => Polymers.C.physics_single_chain_ufjc_morse_thermodynamics_isometric_asymptotic_legendre_relative_helmholtz_free_energy number_of_links_i link_length_i link_stiffness_i link_energy_i end_to_end_length_i temperature_i) number_of_links) link_length) link_stiffness) link_energy) end_to_end_length) temperature

/-- `src/physics/single_chain/ufjc/morse/thermodynamics/isometric/asymptotic/legendre/mod.jl` lines 312-349. -/
def relative_helmholtz_free_energy_per_link (number_of_links : JArr Nat) (link_length : JArr α) (link_stiffness : JArr α) (link_energy : JArr α) (end_to_end_length : JArr α) (temperature : JArr α) : Option (JArr α) :=
  JArr.ap (JArr.ap (JArr.ap (JArr.ap (JArr.ap (JArr.map (fun (number_of_links_i : Nat) (link_length_i : α) (link_stiffness_i : α) (link_energy_i : α) (end_to_end_length_i : α) (temperature_i : α) => Polymers.C.physics_single_chain_ufjc_morse_thermodynamics_isometric_asymptotic_legendre_relative_helmholtz_free_energy_per_link number_of_links_i link_length_i link_stiffness_i link_energy_i end_to_end_length_i temperature_i) number_of_links) link_length) link_stiffness) link_energy) end_to_end_length) temperature

/-- `src/physics/single_chain/ufjc/morse/thermodynamics/isometric/asymptotic/legendre/mod.jl` lines 357-398. -/
def nondimensional_helmholtz_free_energy (number_of_links : JArr Nat) (link_length : JArr α) (hinge_mass : JArr α) (nondimensional_link_stiffness : JArr α) (nondimensional_link_energy : JArr α) (nondimensional_end_to_end_length_per_link : JArr α) (temperature : JArr α) : Option (JArr α) :=
  JArr.ap (JArr.ap (JArr.ap (JArr.ap (JArr.ap (JArr.ap (JArr.map (fun (number_of_links_i : Nat) (link_length_i : α) (hinge_mass_i : α) (nondimensional_link_stiffness_i : α) (nondimensional_link_energy_i : α) (nondimensional_end_to_end_length_per_link_i : α) (temperature_i : α) => Polymers.C.physics_single_chain_ufjc_morse_thermodynamics_isometric_asymptotic_legendre_nondimensional_helmholtz_free_energy number_of_links_i link_length_i hinge_mass_i nondimensional_link_stiffness_i nondimensional_link_energy_i nondimensional_end_to_end_length_per_link_i temperature_i) number_of_links) link_length) hinge_mass) nondimensional_link_stiffness) nondimensional_link_energy) nondimensional_end_to_end_length_per_link) temperature

/-- `src/physics/single_chain/ufjc/morse/thermodynamics/isometric/asymptotic/legendre/mod.jl` lines 406-447. -/
def nondimensional_helmholtz_free_energy_per_link (number_of_links : JArr Nat) (link_length : JArr α) (hinge_mass : JArr α) (nondimensional_link_stiffness : JArr α) (nondimensional_link_energy : JArr α) (nondimensional_end_to_end_length_per_link : JArr α) (temperature : JArr α) : Option (JArr α) :=
  JArr.ap (JArr.ap (JArr.ap (JArr.ap (JArr.ap (JArr.ap (JArr.map (fun (number_of_links_i : Nat) (link_length_i : α) (hinge_mass_i : α) (nondimensional_link_stiffness_i : α) (nondimensional_link_energy_i : α) (nondimensional_end_to_end_length_per_link_i : α) (temperature_i : α) => Polymers.C.physics_single_chain_ufjc_morse_thermodynamics_isometric_asymptotic_legendre_nondimensional_helmholtz_free_energy_per_link number_of_links_i link_length_i hinge_mass_i nondimensional_link_stiffness_i nondimensional_link_energy_i nondimensional_end_to_end_length_per_link_i temperature_i) number_of_links) link_length) hinge_mass) nondimensional_link_stiffness) nondimensional_link_energy) nondimensional_end_to_end_length_per_link) temperature

/-- `src/physics/single_chain/ufjc/morse/thermodynamics/isometric/asymptotic/legendre/mod.jl` lines 455-484. -/
def nondimensional_relative_helmholtz_free_energy (number_of_links : JArr Nat) (nondimensional_link_stiffness : JArr α) (nondimensional_link_energy : JArr α) (nondimensional_end_to_end_length_per_link : JArr α) : Option (JArr α) :=
  JArr.ap (JArr.ap (JArr.ap (JArr.map (fun (number_of_links_i : Nat) (nondimensional_link_stiffness_i : α) (nondimensional_link_energy_i : α) (nondimensional_end_to_end_length_per_link_i : α) => Polymers.C.physics_single_chain_ufjc_morse_thermodynamics_isometric_asymptotic_legendre_nondimensional_relative_helmholtz_free_energy number_of_links_i nondimensional_link_stiffness_i nondimensional_link_energy_i nondimensional_end_to_end_length_per_link_i) number_of_links) nondimensional_link_stiffness) nondimensional_link_energy) nondimensional_end_to_end_length_per_link

/-- `src/physics/single_chain/ufjc/morse/thermodynamics/isometric/asymptotic/legendre/mod.jl` lines 492-517. -/
def nondimensional_relative_helmholtz_free_energy_per_link (nondimensional_link_stiffness : JArr α) (nondimensional_link_energy : JArr α) (nondimensional_end_to_end_length_per_link : JArr α) : Option (JArr α) :=
  JArr.ap (JArr.ap (JArr.map (fun (nondimensional_link_stiffness_i : α) (nondimensional_link_energy_i : α) (nondimensional_end_to_end_length_per_link_i : α) => Polymers.C.physics_single_chain_ufjc_morse_thermodynamics_isometric_asymptotic_legendre_nondimensional_relative_helmholtz_free_energy_per_link nondimensional_link_stiffness_i nondimensional_link_energy_i nondimensional_end_to_end_length_per_link_i) nondimensional_link_stiffness) nondimensional_link_energy) nondimensional_end_to_end_length_per_link

/-- `src/physics/single_chain/ufjc/morse/thermodynamics/isometric/asymptotic/legendre/mod.jl` lines 524-619. -/
def MORSEFJC.new (other : α → JArr α → Option (JArr α)) (number_of_links : Nat) (link_length : α) (hinge_mass : α) (link_stiffness : α) (link_energy : α) : Polymers.Julia.Ufjc.Morse.Thermodynamics.Isometric.Asymptotic.Legendre.MORSEFJC α :=
  let BOLTZMANN_CONSTANT : α := 8.314462618
  Polymers.Julia.Ufjc.Morse.Thermodynamics.Isometric.Asymptotic.Legendre.MORSEFJC.mk
    number_of_links
    link_length
    hinge_mass
    link_stiffness
    link_energy
    (fun (end_to_end_length : JArr α) (temperature : JArr α) => Polymers.Julia.Ufjc.Morse.Thermodynamics.Isometric.Asymptotic.Legendre.force (JArr.scalar number_of_links) (JArr.scalar link_length) (JArr.scalar link_stiffness) (JArr.scalar link_energy) end_to_end_length temperature)
    (fun (nondimensional_end_to_end_length_per_link : JArr α) (temperature : JArr α) => (JArr.quotient other (link_stiffness * Elem.powi link_length 2 / BOLTZMANN_CONSTANT) temperature).bind fun q0 => (JArr.quotient other (link_energy / BOLTZMANN_CONSTANT) temperature).bind fun q1 => Polymers.Julia.Ufjc.Morse.Thermodynamics.Isometric.Asymptotic.Legendre.nondimensional_force q0 q1 nondimensional_end_to_end_length_per_link)
    (fun (end_to_end_length : JArr α) (temperature : JArr α) => Polymers.Julia.Ufjc.Morse.Thermodynamics.Isometric.Asymptotic.Legendre.helmholtz_free_energy (JArr.scalar number_of_links) (JArr.scalar link_length) (JArr.scalar hinge_mass) (JArr.scalar link_stiffness) (JArr.scalar link_energy) end_to_end_length temperature)
    (fun (end_to_end_length : JArr α) (temperature : JArr α) => Polymers.Julia.Ufjc.Morse.Thermodynamics.Isometric.Asymptotic.Legendre.helmholtz_free_energy_per_link (JArr.scalar number_of_links) (JArr.scalar link_length) (JArr.scalar hinge_mass) (JArr.scalar link_stiffness) (JArr.scalar link_energy) end_to_end_length temperature)
    (fun (end_to_end_length : JArr α) (temperature : JArr α) => Polymers.Julia.Ufjc.Morse.Thermodynamics.Isometric.Asymptotic.Legendre.relative_helmholtz_free_energy (JArr.scalar number_of_links) (JArr.scalar link_length) (JArr.scalar link_stiffness) (JArr.scalar link_energy) end_to_end_length temperature)
    (fun (end_to_end_length : JArr α) (temperature : JArr α) => Polymers.Julia.Ufjc.Morse.Thermodynamics.Isometric.Asymptotic.Legendre.relative_helmholtz_free_energy_per_link (JArr.scalar number_of_links) (JArr.scalar link_length) (JArr.scalar link_stiffness) (JArr.scalar link_energy) end_to_end_length temperature)
    (fun (nondimensional_end_to_end_length_per_link : JArr α) (temperature : JArr α) => (JArr.quotient other (link_stiffness * Elem.powi link_length 2 / BOLTZMANN_CONSTANT) temperature).bind fun q3 => (JArr.quotient other (link_energy / BOLTZMANN_CONSTANT) temperature).bind fun q4 => Polymers.Julia.Ufjc.Morse.Thermodynamics.Isometric.Asymptotic.Legendre.nondimensional_helmholtz_free_energy (JArr.scalar number_of_links) (JArr.scalar link_length) (JArr.scalar hinge_mass) q3 q4 nondimensional_end_to_end_length_per_link temperature)
    (fun (nondimensional_end_to_end_length_per_link : JArr α) (temperature : JArr α) => (JArr.quotient other (link_stiffness * Elem.powi link_length 2 / BOLTZMANN_CONSTANT) temperature).bind fun q3 => (JArr.quotient other (link_energy / BOLTZMANN_CONSTANT) temperature).bind fun q4 => Polymers.Julia.Ufjc.Morse.Thermodynamics.Isometric.Asymptotic.Legendre.nondimensional_helmholtz_free_energy_per_link (JArr.scalar number_of_links) (JArr.scalar link_length) (JArr.scalar hinge_mass) q3 q4 nondimensional_end_to_end_length_per_link temperature)
    (fun (nondimensional_end_to_end_length_per_link : JArr α) (temperature : JArr α) => (JArr.quotient other (link_stiffness * Elem.powi link_length 2 / BOLTZMANN_CONSTANT) temperature).bind fun q1 => (JArr.quotient other (link_energy / BOLTZMANN_CONSTANT) temperature).bind fun q2 => Polymers.Julia.Ufjc.Morse.Thermodynamics.Isometric.Asymptotic.Legendre.nondimensional_relative_helmholtz_free_energy (JArr.scalar number_of_links) q1 q2 nondimensional_end_to_end_length_per_link)
    (fun (nondimensional_end_to_end_length_per_link : JArr α) (temperature : JArr α) => (JArr.quotient other (link_stiffness * Elem.powi link_length 2 / BOLTZMANN_CONSTANT) temperature).bind fun q0 => (JArr.quotient other (link_energy / BOLTZMANN_CONSTANT) temperature).bind fun q1 => Polymers.Julia.Ufjc.Morse.Thermodynamics.Isometric.Asymptotic.Legendre.nondimensional_relative_helmholtz_free_energy_per_link q0 q1 nondimensional_end_to_end_length_per_link)

end Polymers.Julia.Ufjc.Morse.Thermodynamics.Isometric.Asymptotic.Legendre

namespace Polymers.Julia.Ufjc.Morse.Thermodynamics.Isometric.Asymptotic

/-- `src/physics/single_chain/ufjc/morse/thermodynamics/isometric/asymptotic/mod.jl` lines 53-81. -/
def MORSEFJC.new (other : α → JArr α → Option (JArr α)) (number_of_links : Nat) (link_length : α) (hinge_mass : α) (link_stiffness : α) (link_energy : α) : Polymers.Julia.Ufjc.Morse.Thermodynamics.Isometric.Asymptotic.MORSEFJC α :=
  Polymers.Julia.Ufjc.Morse.Thermodynamics.Isometric.Asymptotic.MORSEFJC.mk
    number_of_links
    link_length
    hinge_mass
    link_stiffness
    link_energy
    (Polymers.Julia.Ufjc.Morse.Thermodynamics.Isometric.Asymptotic.Reduced.MORSEFJC.new other number_of_links link_length hinge_mass link_stiffness link_energy)
    (Polymers.Julia.Ufjc.Morse.Thermodynamics.Isometric.Asymptotic.Legendre.MORSEFJC.new other number_of_links link_length hinge_mass link_stiffness link_energy)

end Polymers.Julia.Ufjc.Morse.Thermodynamics.Isometric.Asymptotic

namespace Polymers.Julia.Ufjc.Morse.Thermodynamics.Isometric

/-- `src/physics/single_chain/ufjc/morse/thermodynamics/isometric/mod.jl` lines 48-69. -/
def MORSEFJC.new (other : α → JArr α → Option (JArr α)) (number_of_links : Nat) (link_length : α) (hinge_mass : α) (link_stiffness : α) (link_energy : α) : Polymers.Julia.Ufjc.Morse.Thermodynamics.Isometric.MORSEFJC α :=
  Polymers.Julia.Ufjc.Morse.Thermodynamics.Isometric.MORSEFJC.mk
    number_of_links
    link_length
    hinge_mass
    link_stiffness
    link_energy
    (Polymers.Julia.Ufjc.Morse.Thermodynamics.Isometric.Asymptotic.MORSEFJC.new other number_of_links link_length hinge_mass link_stiffness link_energy)

end Polymers.Julia.Ufjc.Morse.Thermodynamics.Isometric

namespace Polymers.Julia.Ufjc.Morse.Thermodynamics.Isotensional.Asymptotic.Reduced.Legendre

/-- `src/physics/single_chain/ufjc/morse/thermodynamics/isotensional/asymptotic/reduced/legendre/mod.jl` lines 81-122. -/
def helmholtz_free_energy (number_of_links : JArr Nat) (link_length : JArr α) (hinge_mass : JArr α) (link_stiffness : JArr α) (link_energy : JArr α) (force : JArr α) (temperature : JArr α) : Option (JArr α) :=
  JArr.ap (JArr.ap (JArr.ap (JArr.ap (JArr.ap (JArr.ap (JArr.map (fun (number_of_links_i : Nat) (link_length_i : α) (hinge_mass_i : α) (link_stiffness_i : α) (link_energy_i : α) (force_i : α) (temperature_i : α) => Polymers.C.physics_single_chain_ufjc_morse_thermodynamics_isotensional_asymptotic_reduced_legendre_helmholtz_free_energy number_of_links_i link_length_i hinge_mass_i link_stiffness_i link_energy_i force_i temperature_i) number_of_links) link_length) hinge_mass) link_stiffness) link_energy) force) temperature

/-- `src/physics/single_chain/ufjc/morse/thermodynamics/isotensional/asymptotic/reduced/legendre/mod.jl` lines 130-167. -/
def helmholtz_free_energy_per_link (link_length : JArr α) (hinge_mass : JArr α) (link_stiffness : JArr α) (link_energy : JArr α) (force : JArr α) (temperature : JArr α) : Option (JArr α) :=
  JArr.ap (JArr.ap (JArr.ap (JArr.ap (JArr.ap (JArr.map (fun (link_length_i : α) (hinge_mass_i : α) (link_stiffness_i : α) (link_energy_i : α) (force_i : α) (temperature_i : α) => Polymers.C.physics_single_chain_ufjc_morse_thermodynamics_isotensional_asymptotic_reduced_legendre_helmholtz_free_energy_per_link link_length_i hinge_mass_i link_stiffness_i link_energy_i force_i temperature_i) link_length) hinge_mass) link_stiffness) link_energy) force) temperature

/-- `src/physics/single_chain/ufjc/morse/thermodynamics/isotensional/asymptotic/reduced/legendre/mod.jl` lines 175-212. -/
def relative_helmholtz_free_energy (number_of_links : JArr Nat) (link_length : JArr α) (link_stiffness : JArr α) (link_energy : JArr α) (force : JArr α) (temperature : JArr α) : Option (JArr α) :=
  JArr.ap (JArr.ap (JArr.ap (JArr.ap (JArr.ap (JArr.map (fun (number_of_links_i : Nat) (link_length_i : α) (link_stiffness_i : α) (link_energy_i : α) (force_i : α) (temperature_i : α) => Polymers.C.physics_single_chain_ufjc_morse_thermodynamics_isotensional_asymptotic_reduced_legendre_relative_helmholtz_free_energy number_of_links_i link_length_i link_stiffness_i link_energy_i force_i temperature_i) number_of_links) link_length) link_stiffness) link_energy) force) temperature

/-- `src/physics/single_chain/ufjc/morse/thermodynamics/isotensional/asymptotic/reduced/legendre/mod.jl` lines 220-247. -/
def relative_helmholtz_free_energy_per_link (link_length : JArr α) (link_stiffness : JArr α) (link_energy : JArr α) (force : JArr α) (temperature : JArr α) : Option (JArr α) :=
  JArr.ap (JArr.ap (JArr.ap (JArr.ap (JArr.map (fun (link_length_i : α) (link_stiffness_i : α) (link_energy_i : α) (force_i : α) (temperature_i : α) => Polymers.C.physics_single_chain_ufjc_morse_thermodynamics_isotensional_asymptotic_reduced_legendre_relative_helmholtz_free_energy_per_link link_length_i link_stiffness_i link_energy_i force_i temperature_i) link_length) link_stiffness) link_energy) force) temperature

/-- `src/physics/single_chain/ufjc/morse/thermodynamics/isotensional/asymptotic/reduced/legendre/mod.jl` lines 255-296. -/
def nondimensional_helmholtz_free_energy (number_of_links : JArr Nat) (link_length : JArr α) (hinge_mass : JArr α) (nondimensional_link_stiffness : JArr α) (nondimensional_link_energy : JArr α) (nondimensional_force : JArr α) (temperature : JArr α) : Option (JArr α) :=
  JArr.ap (JArr.ap (JArr.ap (JArr.ap (JArr.ap (JArr.ap (JArr.map (fun (number_of_links_i : Nat) (link_length_i : α) (hinge_mass_i : α) (nondimensional_link_stiffness_i : α) (nondimensional_link_energy_i : α) (nondimensional_force_i : α) (temperature_i : α) => Polymers.C.physics_single_chain_ufjc_morse_thermodynamics_isotensional_asymptotic_reduced_legendre_nondimensional_helmholtz_free_energy number_of_links_i link_length_i hinge_mass_i nondimensional_link_stiffness_i nondimensional_link_energy_i nondimensional_force_i temperature_i) number_of_links) link_length) hinge_mass) nondimensional_link_stiffness) nondimensional_link_energy) nondimensional_force) temperature

/-- `src/physics/single_chain/ufjc/morse/thermodynamics/isotensional/asymptotic/reduced/legendre/mod.jl` lines 304-341. -/
def nondimensional_helmholtz_free_energy_per_link (link_length : JArr α) (hinge_mass : JArr α) (nondimensional_link_stiffness : JArr α) (nondimensional_link_energy : JArr α) (nondimensional_force : JArr α) (temperature : JArr α) : Option (JArr α) :=
  JArr.ap (JArr.ap (JArr.ap (JArr.ap (JArr.ap (JArr.map (fun (link_length_i : α) (hinge_mass_i : α) (nondimensional_link_stiffness_i : α) (nondimensional_link_energy_i : α) (nondimensional_force_i : α) (temperature_i : α) => Polymers.C.physics_single_chain_ufjc_morse_thermodynamics_isotensional_asymptotic_reduced_legendre_nondimensional_helmholtz_free_energy_per_link link_length_i hinge_mass_i nondimensional_link_stiffness_i nondimensional_link_energy_i nondimensional_force_i temperature_i) link_length) hinge_mass) nondimensional_link_stiffness) nondimensional_link_energy) nondimensional_force) temperature

/-- `src/physics/single_chain/ufjc/morse/thermodynamics/isotensional/asymptotic/reduced/legendre/mod.jl` lines 349-378. -/
def nondimensional_relative_helmholtz_free_energy (number_of_links : JArr Nat) (nondimensional_link_stiffness : JArr α) (nondimensional_link_energy : JArr α) (nondimensional_force : JArr α) : Option (JArr α) :=
  JArr.ap (JArr.ap (JArr.ap (JArr.map (fun (number_of_links_i : Nat) (nondimensional_link_stiffness_i : α) (nondimensional_link_energy_i : α) (nondimensional_force_i : α) => Polymers.C.physics_single_chain_ufjc_morse_thermodynamics_isotensional_asymptotic_reduced_legendre_nondimensional_relative_helmholtz_free_energy number_of_links_i nondimensional_link_stiffness_i nondimensional_link_energy_i nondimensional_force_i) number_of_links) nondimensional_link_stiffness) nondimensional_link_energy) nondimensional_force

/-- `src/physics/single_chain/ufjc/morse/thermodynamics/isotensional/asymptotic/reduced/legendre/mod.jl` lines 386-411. -/
def nondimensional_relative_helmholtz_free_energy_per_link (nondimensional_link_stiffness : JArr α) (nondimensional_link_energy : JArr α) (nondimensional_force : JArr α) : Option (JArr α) :=
  JArr.ap (JArr.ap (JArr.map (fun (nondimensional_link_stiffness_i : α) (nondimensional_link_energy_i : α) (nondimensional_force_i : α) => Polymers.C.physics_single_chain_ufjc_morse_thermodynamics_isotensional_asymptotic_reduced_legendre_nondimensional_relative_helmholtz_free_energy_per_link nondimensional_link_stiffness_i nondimensional_link_energy_i nondimensional_force_i) nondimensional_link_stiffness) nondimensional_link_energy) nondimensional_force

/-- `src/physics/single_chain/ufjc/morse/thermodynamics/isotensional/asymptotic/reduced/legendre/mod.jl` lines 418-496. -/
def MORSEFJC.new (other : α → JArr α → Option (JArr α)) (number_of_links : Nat) (link_length : α) (hinge_mass : α) (link_stiffness : α) (link_energy : α) : Polymers.Julia.Ufjc.Morse.Thermodynamics.Isotensional.Asymptotic.Reduced.Legendre.MORSEFJC α :=
  let BOLTZMANN_CONSTANT : α := 8.314462618
  Polymers.Julia.Ufjc.Morse.Thermodynamics.Isotensional.Asymptotic.Reduced.Legendre.MORSEFJC.mk
    number_of_links
    link_length
    hinge_mass
    link_stiffness
    link_energy
    (fun (force : JArr α) (temperature : JArr α) => Polymers.Julia.Ufjc.Morse.Thermodynamics.Isotensional.Asymptotic.Reduced.Legendre.helmholtz_free_energy (JArr.scalar number_of_links) (JArr.scalar link_length) (JArr.scalar hinge_mass) (JArr.scalar link_stiffness) (JArr.scalar link_energy) force temperature)
    (fun (force : JArr α) (temperature : JArr α) => Polymers.Julia.Ufjc.Morse.Thermodynamics.Isotensional.Asymptotic.Reduced.Legendre.helmholtz_free_energy_per_link (JArr.scalar link_length) (JArr.scalar hinge_mass) (JArr.scalar link_stiffness) (JArr.scalar link_energy) force temperature)
    (fun (force : JArr α) (temperature : JArr α) => Polymers.Julia.Ufjc.Morse.Thermodynamics.Isotensional.Asymptotic.Reduced.Legendre.relative_helmholtz_free_energy (JArr.scalar number_of_links) (JArr.scalar link_length) (JArr.scalar link_stiffness) (JArr.scalar link_energy) force temperature)
    (fun (force : JArr α) (temperature : JArr α) => Polymers.Julia.Ufjc.Morse.Thermodynamics.Isotensional.Asymptotic.Reduced.Legendre.relative_helmholtz_free_energy_per_link (JArr.scalar link_length) (JArr.scalar link_stiffness) (JArr.scalar link_energy) force temperature)
    (fun (nondimensional_force : JArr α) (temperature : JArr α) => (JArr.quotient other (link_stiffness * Elem.powi link_length 2 / BOLTZMANN_CONSTANT) temperature).bind fun q3 => (JArr.quotient other (link_energy / BOLTZMANN_CONSTANT) temperature).bind fun q4 => Polymers.Julia.Ufjc.Morse.Thermodynamics.Isotensional.Asymptotic.Reduced.Legendre.nondimensional_helmholtz_free_energy (JArr.scalar number_of_links) (JArr.scalar link_length) (JArr.scalar hinge_mass) q3 q4 nondimensional_force temperature)
    (fun (nondimensional_force : JArr α) (temperature : JArr α) => (JArr.quotient other (link_stiffness * Elem.powi link_length 2 / BOLTZMANN_CONSTANT) temperature).bind fun q2 => (JArr.quotient other (link_energy / BOLTZMANN_CONSTANT) temperature).bind fun q3 => Polymers.Julia.Ufjc.Morse.Thermodynamics.Isotensional.Asymptotic.Reduced.Legendre.nondimensional_helmholtz_free_energy_per_link (JArr.scalar link_length) (JArr.scalar hinge_mass) q2 q3 nondimensional_force temperature)
    (fun (nondimensional_force : JArr α) (temperature : JArr α) => (JArr.quotient other (link_stiffness * Elem.powi link_length 2 / BOLTZMANN_CONSTANT) temperature).bind fun q1 => (JArr.quotient other (link_energy / BOLTZMANN_CONSTANT) temperature).bind fun q2 => Polymers.Julia.Ufjc.Morse.Thermodynamics.Isotensional.Asymptotic.Reduced.Legendre.nondimensional_relative_helmholtz_free_energy (JArr.scalar number_of_links) q1 q2 nondimensional_force)
    (fun (nondimensional_force : JArr α) (temperature : JArr α) => (JArr.quotient other (link_stiffness * Elem.powi link_length 2 / BOLTZMANN_CONSTANT) temperature).bind fun q0 => (JArr.quotient other (link_energy / BOLTZMANN_CONSTANT) temperature).bind fun q1 => Polymers.Julia.Ufjc.Morse.Thermodynamics.Isotensional.Asymptotic.Reduced.Legendre.nondimensional_relative_helmholtz_free_energy_per_link q0 q1 nondimensional_force)

end Polymers.Julia.Ufjc.Morse.Thermodynamics.Isotensional.Asymptotic.Reduced.Legendre

namespace Polymers.Julia.Ufjc.Morse.Thermodynamics.Isotensional.Asymptotic.Reduced

/-- `src/physics/single_chain/ufjc/morse/thermodynamics/isotensional/asymptotic/reduced/mod.jl` lines 104-141. -/
def end_to_end_length (number_of_links : JArr Nat) (link_length : JArr α) (link_stiffness : JArr α) (link_energy : JArr α) (force : JArr α) (temperature : JArr α) : Option (JArr α) :=
  JArr.ap (JArr.ap (JArr.ap (JArr.ap (JArr.ap (JArr.map (fun (number_of_links_i : Nat) (link_length_i : α) (link_stiffness_i : α) (link_energy_i : α) (force_i : α) (temperature_i : α) => Polymers.C.physics_single_chain_ufjc_morse_thermodynamics_isotensional_asymptotic_reduced_end_to_end_length number_of_links_i link_length_i link_stiffness_i link_energy_i force_i temperature_i) number_of_links) link_length) link_stiffness) link_energy) force) temperature

/-- `src/physics/single_chain/ufjc/morse/thermodynamics/isotensional/asymptotic/reduced/mod.jl` lines 149-176. -/
def end_to_end_length_per_link (link_length : JArr α) (link_stiffness : JArr α) (link_energy : JArr α) (force : JArr α) (temperature : JArr α) : Option (JArr α) :=
  JArr.ap (JArr.ap (JArr.ap (JArr.ap (JArr.map (fun (link_length_i : α) (link_stiffness_i : α) (link_energy_i : α) (force_i : α) (temperature_i : α) => Polymers.C.physics_single_chain_ufjc_morse_thermodynamics_isotensional_asymptotic_reduced_end_to_end_length_per_link link_length_i link_stiffness_i link_energy_i force_i temperature_i) link_length) link_stiffness) link_energy) force) temperature

/-- `src/physics/single_chain/ufjc/morse/thermodynamics/isotensional/asymptotic/reduced/mod.jl` lines 184-213. -/
def nondimensional_end_to_end_length (number_of_links : JArr Nat) (nondimensional_link_stiffness : JArr α) (nondimensional_link_energy : JArr α) (nondimensional_force : JArr α) : Option (JArr α) :=
  JArr.ap (JArr.ap (JArr.ap (JArr.map (fun (number_of_links_i : Nat) (nondimensional_link_stiffness_i : α) (nondimensional_link_energy_i : α) (nondimensional_force_i : α) => Polymers.C.physics_single_chain_ufjc_morse_thermodynamics_isotensional_asymptotic_reduced_nondimensional_end_to_end_length number_of_links_i nondimensional_link_stiffness_i nondimensional_link_energy_i nondimensional_force_i) number_of_links) nondimensional_link_stiffness) nondimensional_link_energy) nondimensional_force

/-- `src/physics/single_chain/ufjc/morse/thermodynamics/isotensional/asymptotic/reduced/mod.jl` lines 234-259. -/
def nondimensional_end_to_end_length_per_link (nondimensional_link_stiffness : JArr α) (nondimensional_link_energy : JArr α) (nondimensional_force : JArr α) : Option (JArr α) :=
  JArr.ap (JArr.ap (JArr.map (fun (nondimensional_link_stiffness_i : α) (nondimensional_link_energy_i : α) (nondimensional_force_i : α) => Polymers.C.physics_single_chain_ufjc_morse_thermodynamics_isotensional_asymptotic_reduced_nondimensional_end_to_end_length_per_link nondimensional_link_stiffness_i nondimensional_link_energy_i nondimensional_force_i) nondimensional_link_stiffness) nondimensional_link_energy) nondimensional_force

/-- `src/physics/single_chain/ufjc/morse/thermodynamics/isotensional/asymptotic/reduced/mod.jl` lines 271-312. -/
def gibbs_free_energy (number_of_links : JArr Nat) (link_length : JArr α) (hinge_mass : JArr α) (link_stiffness : JArr α) (link_energy : JArr α) (force : JArr α) (temperature : JArr α) : Option (JArr α) :=
  JArr.ap (JArr.ap (JArr.ap (JArr.ap (JArr.ap (JArr.ap (JArr.map (fun (number_of_links_i : Nat) (link_length_i : α) (hinge_mass_i : α) (link_stiffness_i : α) (link_energy_i : α) (force_i : α) (temperature_i : α) => Polymers.C.physics_single_chain_ufjc_morse_thermodynamics_isotensional_asymptotic_reduced_gibbs_free_energy number_of_links_i link_length_i hinge_mass_i link_stiffness_i link_energy_i force_i temperature_i) number_of_links) link_length) hinge_mass) link_stiffness) link_energy) force) temperature

/-- `src/physics/single_chain/ufjc/morse/thermodynamics/isotensional/asymptotic/reduced/mod.jl` lines 320-357. -/
def gibbs_free_energy_per_link (link_length : JArr α) (hinge_mass : JArr α) (link_stiffness : JArr α) (link_energy : JArr α) (force : JArr α) (temperature : JArr α) : Option (JArr α) :=
  JArr.ap (JArr.ap (JArr.ap (JArr.ap (JArr.ap (JArr.map (fun (link_length_i : α) (hinge_mass_i : α) (link_stiffness_i : α) (link_energy_i : α) (force_i : α) (temperature_i : α) => Polymers.C.physics_single_chain_ufjc_morse_thermodynamics_isotensional_asymptotic_reduced_gibbs_free_energy_per_link link_length_i hinge_mass_i link_stiffness_i link_energy_i force_i temperature_i) link_length) hinge_mass) link_stiffness) link_energy) force) temperature

/-- `src/physics/single_chain/ufjc/morse/thermodynamics/isotensional/asymptotic/reduced/mod.jl` lines 365-402. -/
def relative_gibbs_free_energy (number_of_links : JArr Nat) (link_length : JArr α) (link_stiffness : JArr α) (link_energy : JArr α) (force : JArr α) (temperature : JArr α) : Option (JArr α) :=
  JArr.ap (JArr.ap (JArr.ap (JArr.ap (JArr.ap (JArr.map (fun (number_of_links_i : Nat) (link_length_i : α) (link_stiffness_i : α) (link_energy_i : α) (force_i : α) (temperature_i : α) => Polymers.C.physics_single_chain_ufjc_morse_thermodynamics_isotensional_asymptotic_reduced_relative_gibbs_free_energy number_of_links_i link_length_i link_stiffness_i link_energy_i force_i temperature_i) number_of_links) link_length) link_stiffness) link_energy) force) temperature

/-- `src/physics/single_chain/ufjc/morse/thermodynamics/isotensional/asymptotic/reduced/mod.jl` lines 410-437. -/
def relative_gibbs_free_energy_per_link (link_length : JArr α) (link_stiffness : JArr α) (link_energy : JArr α) (force : JArr α) (temperature : JArr α) : Option (JArr α) :=
  JArr.ap (JArr.ap (JArr.ap (JArr.ap (JArr.map (fun (link_length_i : α) (link_stiffness_i : α) (link_energy_i : α) (force_i : α) (temperature_i : α) => Polymers.C.physics_single_chain_ufjc_morse_thermodynamics_isotensional_asymptotic_reduced_relative_gibbs_free_energy_per_link link_length_i link_stiffness_i link_energy_i force_i temperature_i) link_length) link_stiffness) link_energy) force) temperature

/-- `src/physics/single_chain/ufjc/morse/thermodynamics/isotensional/asymptotic/reduced/mod.jl` lines 445-486. -/
def nondimensional_gibbs_free_energy (number_of_links : JArr Nat) (link_length : JArr α) (hinge_mass : JArr α) (nondimensional_link_stiffness : JArr α) (nondimensional_link_energy : JArr α) (nondimensional_force : JArr α) (temperature : JArr α) : Option (JArr α) :=
  JArr.ap (JArr.ap (JArr.ap (JArr.ap (JArr.ap (JArr.ap (JArr.map (fun (number_of_links_i : Nat) (link_length_i : α) (hinge_mass_i : α) (nondimensional_link_stiffness_i : α) (nondimensional_link_energy_i : α) (nondimensional_force_i : α) (temperature_i : α) => Polymers.C.physics_single_chain_ufjc_morse_thermodynamics_isotensional_asymptotic_reduced_nondimensional_gibbs_free_energy number_of_links_i link_length_i hinge_mass_i nondimensional_link_stiffness_i nondimensional_link_energy_i nondimensional_force_i temperature_i) number_of_links) link_length) hinge_mass) nondimensional_link_stiffness) nondimensional_link_energy) nondimensional_force) temperature

/-- `src/physics/single_chain/ufjc/morse/thermodynamics/isotensional/asymptotic/reduced/mod.jl` lines 494-531. -/
def nondimensional_gibbs_free_energy_per_link (link_length : JArr α) (hinge_mass : JArr α) (nondimensional_link_stiffness : JArr α) (nondimensional_link_energy : JArr α) (nondimensional_force : JArr α) (temperature : JArr α) : Option (JArr α) :=
  JArr.ap (JArr.ap (JArr.ap (JArr.ap (JArr.ap (JArr.map (fun (link_length_i : α) (hinge_mass_i : α) (nondimensional_link_stiffness_i : α) (nondimensional_link_energy_i : α) (nondimensional_force_i : α) (temperature_i : α) => Polymers.C.physics_single_chain_ufjc_morse_thermodynamics_isotensional_asymptotic_reduced_nondimensional_gibbs_free_energy_per_link link_length_i hinge_mass_i nondimensional_link_stiffness_i nondimensional_link_energy_i nondimensional_force_i temperature_i) link_length) hinge_mass) nondimensional_link_stiffness) nondimensional_link_energy) nondimensional_force) temperature

/-- `src/physics/single_chain/ufjc/morse/thermodynamics/isotensional/asymptotic/reduced/mod.jl` lines 539-568. -/
def nondimensional_relative_gibbs_free_energy (number_of_links : JArr Nat) (nondimensional_link_stiffness : JArr α) (nondimensional_link_energy : JArr α) (nondimensional_force : JArr α) : Option (JArr α) :=
  JArr.ap (JArr.ap (JArr.ap (JArr.map (fun (number_of_links_i : Nat) (nondimensional_link_stiffness_i : α) (nondimensional_link_energy_i : α) (nondimensional_force_i : α) => Polymers.C.physics_single_chain_ufjc_morse_thermodynamics_isotensional_asymptotic_reduced_nondimensional_relative_gibbs_free_energy number_of_links_i nondimensional_link_stiffness_i nondimensional_link_energy_i nondimensional_force_i) number_of_links) nondimensional_link_stiffness) nondimensional_link_energy) nondimensional_force

/-- `src/physics/single_chain/ufjc/morse/thermodynamics/isotensional/asymptotic/reduced/mod.jl` lines 589-614. -/
def nondimensional_relative_gibbs_free_energy_per_link (nondimensional_link_stiffness : JArr α) (nondimensional_link_energy : JArr α) (nondimensional_force : JArr α) : Option (JArr α) :=
  JArr.ap (JArr.ap (JArr.map (fun (nondimensional_link_stiffness_i : α) (nondimensional_link_energy_i : α) (nondimensional_force_i : α) => Polymers.C.physics_single_chain_ufjc_morse_thermodynamics_isotensional_asymptotic_reduced_nondimensional_relative_gibbs_free_energy_per_link nondimensional_link_stiffness_i nondimensional_link_energy_i nondimensional_force_i) nondimensional_link_stiffness) nondimensional_link_energy) nondimensional_force

/-- `src/physics/single_chain/ufjc/morse/thermodynamics/isotensional/asymptotic/reduced/mod.jl` lines 621-730. -/
def MORSEFJC.new (other : α → JArr α → Option (JArr α)) (number_of_links : Nat) (link_length : α) (hinge_mass : α) (link_stiffness : α) (link_energy : α) : Polymers.Julia.Ufjc.Morse.Thermodynamics.Isotensional.Asymptotic.Reduced.MORSEFJC α :=
  let BOLTZMANN_CONSTANT : α := 8.314462618
  Polymers.Julia.Ufjc.Morse.Thermodynamics.Isotensional.Asymptotic.Reduced.MORSEFJC.mk
    number_of_links
    link_length
    hinge_mass
    link_stiffness
    link_energy
    (Polymers.Julia.Ufjc.Morse.Thermodynamics.Isotensional.Asymptotic.Reduced.Legendre.MORSEFJC.new other number_of_links link_length hinge_mass link_stiffness link_energy)
    (fun (force : JArr α) (temperature : JArr α) => Polymers.Julia.Ufjc.Morse.Thermodynamics.Isotensional.Asymptotic.Reduced.end_to_end_length (JArr.scalar number_of_links) (JArr.scalar link_length) (JArr.scalar link_stiffness) (JArr.scalar link_energy) force temperature)
    (fun (force : JArr α) (temperature : JArr α) => Polymers.Julia.Ufjc.Morse.Thermodynamics.Isotensional.Asymptotic.Reduced.end_to_end_length_per_link (JArr.scalar link_length) (JArr.scalar link_stiffness) (JArr.scalar link_energy) force temperature)
    (fun (nondimensional_force : JArr α) (temperature : JArr α) => (JArr.quotient other (link_stiffness * Elem.powi link_length 2 / BOLTZMANN_CONSTANT) temperature).bind fun q1 => (JArr.quotient other (link_energy / BOLTZMANN_CONSTANT) temperature).bind fun q2 => Polymers.Julia.Ufjc.Morse.Thermodynamics.Isotensional.Asymptotic.Reduced.nondimensional_end_to_end_length (JArr.scalar number_of_links) q1 q2 nondimensional_force)
    (fun (nondimensional_force : JArr α) (temperature : JArr α) => (JArr.quotient other (link_stiffness * Elem.powi link_length 2 / BOLTZMANN_CONSTANT) temperature).bind fun q0 => (JArr.quotient other (link_energy / BOLTZMANN_CONSTANT) temperature).bind fun q1 => Polymers.Julia.Ufjc.Morse.Thermodynamics.Isotensional.Asymptotic.Reduced.nondimensional_end_to_end_length_per_link q0 q1 nondimensional_force)
    (fun (force : JArr α) (temperature : JArr α) => Polymers.Julia.Ufjc.Morse.Thermodynamics.Isotensional.Asymptotic.Reduced.gibbs_free_energy (JArr.scalar number_of_links) (JArr.scalar link_length) (JArr.scalar hinge_mass) (JArr.scalar link_stiffness) (JArr.scalar link_energy) force temperature)
    (fun (force : JArr α) (temperature : JArr α) => Polymers.Julia.Ufjc.Morse.Thermodynamics.Isotensional.Asymptotic.Reduced.gibbs_free_energy_per_link (JArr.scalar link_length) (JArr.scalar hinge_mass) (JArr.scalar link_stiffness) (JArr.scalar link_energy) force temperature)
    (fun (force : JArr α) (temperature : JArr α) => Polymers.Julia.Ufjc.Morse.Thermodynamics.Isotensional.Asymptotic.Reduced.relative_gibbs_free_energy (JArr.scalar number_of_links) (JArr.scalar link_length) (JArr.scalar link_stiffness) (JArr.scalar link_energy) force temperature)
    (fun (force : JArr α) (temperature : JArr α) => Polymers.Julia.Ufjc.Morse.Thermodynamics.Isotensional.Asymptotic.Reduced.relative_gibbs_free_energy_per_link (JArr.scalar link_length) (JArr.scalar link_stiffness) (JArr.scalar link_energy) force temperature)
    (fun (nondimensional_force : JArr α) (temperature : JArr α) => (JArr.quotient other (link_stiffness * Elem.powi link_length 2 / BOLTZMANN_CONSTANT) temperature).bind fun q3 => (JArr.quotient other (link_energy / BOLTZMANN_CONSTANT) temperature).bind fun q4 => Polymers.Julia.Ufjc.Morse.Thermodynamics.Isotensional.Asymptotic.Reduced.nondimensional_gibbs_free_energy (JArr.scalar number_of_links) (JArr.scalar link_length) (JArr.scalar hinge_mass) q3 q4 nondimensional_force temperature)
    (fun (nondimensional_force : JArr α) (temperature : JArr α) => (JArr.quotient other (link_stiffness * Elem.powi link_length 2 / BOLTZMANN_CONSTANT) temperature).bind fun q2 => (JArr.quotient other (link_energy / BOLTZMANN_CONSTANT) temperature).bind fun q3 => Polymers.Julia.Ufjc.Morse.Thermodynamics.Isotensional.Asymptotic.Reduced.nondimensional_gibbs_free_energy_per_link (JArr.scalar link_length) (JArr.scalar hinge_mass) q2 q3 nondimensional_force temperature)
    (fun (nondimensional_force : JArr α) (temperature : JArr α) => (JArr.quotient other (link_stiffness * Elem.powi link_length 2 / BOLTZMANN_CONSTANT) temperature).bind fun q1 => (JArr.quotient other (link_energy / BOLTZMANN_CONSTANT) temperature).bind fun q2 => Polymers.Julia.Ufjc.Morse.Thermodynamics.Isotensional.Asymptotic.Reduced.nondimensional_relative_gibbs_free_energy (JArr.scalar number_of_links) q1 q2 nondimensional_force)
    (fun (nondimensional_force : JArr α) (temperature : JArr α) => (JArr.quotient other (link_stiffness * Elem.powi link_length 2 / BOLTZMANN_CONSTANT) temperature).bind fun q0 => (JArr.quotient other (link_energy / BOLTZMANN_CONSTANT) temperature).bind fun q1 => Polymers.Julia.Ufjc.Morse.Thermodynamics.Isotensional.Asymptotic.Reduced.nondimensional_relative_gibbs_free_energy_per_link q0 q1 nondimensional_force)

end Polymers.Julia.Ufjc.Morse.Thermodynamics.Isotensional.Asymptotic.Reduced

namespace Polymers.Julia.Ufjc.Morse.Thermodynamics.Isotensional.Asymptotic.Legendre

/-- `src/physics/single_chain/ufjc/morse/thermodynamics/isotensional/asymptotic/legendre/mod.jl` lines 81-122. -/
def helmholtz_free_energy (number_of_links : JArr Nat) (link_length : JArr α) (hinge_mass : JArr α) (link_stiffness : JArr α) (link_energy : JArr α) (force : JArr α) (temperature : JArr α) : Option (JArr α) :=
  JArr.ap (JArr.ap (JArr.ap (JArr.ap (JArr.ap (JArr.ap (JArr.map (fun (number_of_links_i : Nat) (link_length_i : α) (hinge_mass_i : α) (link_stiffness_i : α) (link_energy_i : α) (force_i : α) (temperature_i : α) => Polymers.C.physics_single_chain_ufjc_morse_thermodynamics_isotensional_asymptotic_legendre_helmholtz_free_energy number_of_links_i link_length_i hinge_mass_i link_stiffness_i link_energy_i force_i temperature_i) number_of_links) link_length) hinge_mass) link_stiffness) link_energy) force) temperature

/-- `src/physics/single_chain/ufjc/morse/thermodynamics/isotensional/asymptotic/legendre/mod.jl` lines 130-167. -/
def helmholtz_free_energy_per_link (link_length : JArr α) (hinge_mass : JArr α) (link_stiffness : JArr α) (link_energy : JArr α) (force : JArr α) (temperature : JArr α) : Option (JArr α) :=
  JArr.ap (JArr.ap (JArr.ap (JArr.ap (JArr.ap (JArr.map (fun (link_length_i : α) (hinge_mass_i : α) (link_stiffness_i : α) (link_energy_i : α) (force_i : α) (temperature_i : α) => Polymers.C.physics_single_chain_ufjc_morse_thermodynamics_isotensional_asymptotic_legendre_helmholtz_free_energy_per_link link_length_i hinge_mass_i link_stiffness_i link_energy_i force_i temperature_i) link_length) hinge_mass) link_stiffness) link_energy) force) temperature

/-- `src/physics/single_chain/ufjc/morse/thermodynamics/isotensional/asymptotic/legendre/mod.jl` lines 175-212. -/
def relative_helmholtz_free_energy (number_of_links : JArr Nat) (link_length : JArr α) (link_stiffness : JArr α) (link_energy : JArr α) (force : JArr α) (temperature : JArr α) : Option (JArr α) :=
  JArr.ap (JArr.ap (JArr.ap (JArr.ap (JArr.ap (JArr.map (fun (number_of_links_i : Nat) (link_length_i : α) (link_stiffness_i : α) (link_energy_i : α) (force_i : α) (temperature_i : α) => Polymers.C.physics_single_chain_ufjc_morse_thermodynamics_isotensional_asymptotic_legendre_relative_helmholtz_free_energy number_of_links_i link_length_i link_stiffness_i link_energy_i force_i temperature_i) number_of_links) link_length) link_stiffness) link_energy) force) temperature

/-- `src/physics/single_chain/ufjc/morse/thermodynamics/isotensional/asymptotic/legendre/mod.jl` lines 220-247. -/
def relative_helmholtz_free_energy_per_link (link_length : JArr α) (link_stiffness : JArr α) (link_energy : JArr α) (force : JArr α) (temperature : JArr α) : Option (JArr α) :=
  JArr.ap (JArr.ap (JArr.ap (JArr.ap (JArr.map (fun (link_length_i : α) (link_stiffness_i : α) (link_energy_i : α) (force_i : α) (temperature_i : α) => Polymers.C.physics_single_chain_ufjc_morse_thermodynamics_isotensional_asymptotic_legendre_relative_helmholtz_free_energy_per_link link_length_i link_stiffness_i link_energy_i force_i temperature_i) link_length) link_stiffness) link_energy) force) temperature

/-- `src/physics/single_chain/ufjc/morse/thermodynamics/isotensional/asymptotic/legendre/mod.jl` lines 255-296. -/
def nondimensional_helmholtz_free_energy (number_of_links : JArr Nat) (link_length : JArr α) (hinge_mass : JArr α) (nondimensional_link_stiffness : JArr α) (nondimensional_link_energy : JArr α) (nondimensional_force : JArr α) (temperature : JArr α) : Option (JArr α) :=
  JArr.ap (JArr.ap (JArr.ap (JArr.ap (JArr.ap (JArr.ap (JArr.map (fun (number_of_links_i : Nat) (link_length_i : α) (hinge_mass_i : α) (nondimensional_link_stiffness_i : α) (nondimensional_link_energy_i : α) (nondimensional_force_i : α) (temperature_i : α) => Polymers.C.physics_single_chain_ufjc_morse_thermodynamics_isotensional_asymptotic_legendre_nondimensional_helmholtz_free_energy number_of_links_i link_length_i hinge_mass_i nondimensional_link_stiffness_i nondimensional_link_energy_i nondimensional_force_i temperature_i) number_of_links) link_length) hinge_mass) nondimensional_link_stiffness) nondimensional_link_energy) nondimensional_force) temperature

/-- `src/physics/single_chain/ufjc/morse/thermodynamics/isotensional/asymptotic/legendre/mod.jl` lines 304-341. -/
def nondimensional_helmholtz_free_energy_per_link (link_length : JArr α) (hinge_mass : JArr α) (nondimensional_link_stiffness : JArr α) (nondimensional_link_energy : JArr α) (nondimensional_force : JArr α) (temperature : JArr α) : Option (JArr α) :=
  JArr.ap (JArr.ap (JArr.ap (JArr.ap (JArr.ap (JArr.map (fun (link_length_i : α) (hinge_mass_i : α) (nondimensional_link_stiffness_i : α) (nondimensional_link_energy_i : α) (nondimensional_force_i : α) (temperature_i : α) => Polymers.C.physics_single_chain_ufjc_morse_thermodynamics_isotensional_asymptotic_legendre_nondimensional_helmholtz_free_energy_per_link link_length_i hinge_mass_i nondimensional_link_stiffness_i nondimensional_link_energy_i nondimensional_force_i temperature_i) link_length) hinge_mass) nondimensional_link_stiffness) nondimensional_link_energy) nondimensional_force) temperature

/-- `src/physics/single_chain/ufjc/morse/thermodynamics/isotensional/asymptotic/legendre/mod.jl` lines 349-378. -/
def nondimensional_relative_helmholtz_free_energy (number_of_links : JArr Nat) (nondimensional_link_stiffness : JArr α) (nondimensional_link_energy : JArr α) (nondimensional_force : JArr α) : Option (JArr α) :=
  JArr.ap (JArr.ap (JArr.ap (JArr.map (fun (number_of_links_i : Nat) (nondimensional_link_stiffness_i : α) (nondimensional_link_energy_i : α) (nondimensional_force_i : α) => Polymers.C.physics_single_chain_ufjc_morse_thermodynamics_isotensional_asymptotic_legendre_nondimensional_relative_helmholtz_free_energy number_of_links_i nondimensional_link_stiffness_i nondimensional_link_energy_i nondimensional_force_i) number_of_links) nondimensional_link_stiffness) nondimensional_link_energy) nondimensional_force

/-- `src/physics/single_chain/ufjc/morse/thermodynamics/isotensional/asymptotic/legendre/mod.jl` lines 386-411. -/
def nondimensional_relative_helmholtz_free_energy_per_link (nondimensional_link_stiffness : JArr α) (nondimensional_link_energy : JArr α) (nondimensional_force : JArr α) : Option (JArr α) :=
  JArr.ap (JArr.ap (JArr.map (fun (nondimensional_link_stiffness_i : α) (nondimensional_link_energy_i : α) (nondimensional_force_i : α) => Polymers.C.physics_single_chain_ufjc_morse_thermodynamics_isotensional_asymptotic_legendre_nondimensional_relative_helmholtz_free_energy_per_link nondimensional_link_stiffness_i nondimensional_link_energy_i nondimensional_force_i) nondimensional_link_stiffness) nondimensional_link_energy) nondimensional_force

/-- `src/physics/single_chain/ufjc/morse/thermodynamics/isotensional/asymptotic/legendre/mod.jl` lines 418-496. -/
def MORSEFJC.new (other : α → JArr α → Option (JArr α)) (number_of_links : Nat) (link_length : α) (hinge_mass : α) (link_stiffness : α) (link_energy : α) : Polymers.Julia.Ufjc.Morse.Thermodynamics.Isotensional.Asymptotic.Legendre.MORSEFJC α :=
  let BOLTZMANN_CONSTANT : α := 8.314462618
  Polymers.Julia.Ufjc.Morse.Thermodynamics.Isotensional.Asymptotic.Legendre.MORSEFJC.mk
    number_of_links
    link_length
    hinge_mass
    link_stiffness
    link_energy
    (fun (force : JArr α) (temperature : JArr α) => Polymers.Julia.Ufjc.Morse.Thermodynamics.Isotensional.Asymptotic.Legendre.helmholtz_free_energy (JArr.scalar number_of_links) (JArr.scalar link_length) (JArr.scalar hinge_mass) (JArr.scalar link_stiffness) (JArr.scalar link_energy) force temperature)
    (fun (force : JArr α) (temperature : JArr α) => Polymers.Julia.Ufjc.Morse.Thermodynamics.Isotensional.Asymptotic.Legendre.helmholtz_free_energy_per_link (JArr.scalar link_length) (JArr.scalar hinge_mass) (JArr.scalar link_stiffness) (JArr.scalar link_energy) force temperature)
    (fun (force : JArr α) (temperature : JArr α) => Polymers.Julia.Ufjc.Morse.Thermodynamics.Isotensional.Asymptotic.Legendre.relative_helmholtz_free_energy (JArr.scalar number_of_links) (JArr.scalar link_length) (JArr.scalar link_stiffness) (JArr.scalar link_energy) force temperature)
    (fun (force : JArr α) (temperature : JArr α) => Polymers.Julia.Ufjc.Morse.Thermodynamics.Isotensional.Asymptotic.Legendre.relative_helmholtz_free_energy_per_link (JArr.scalar link_length) (JArr.scalar link_stiffness) (JArr.scalar link_energy) force temperature)
    (fun (nondimensional_force : JArr α) (temperature : JArr α) => (JArr.quotient other (link_stiffness * Elem.powi link_length 2 / BOLTZMANN_CONSTANT) temperature).bind fun q3 => (JArr.quotient other (link_energy / BOLTZMANN_CONSTANT) temperature).bind fun q4 => Polymers.Julia.Ufjc.Morse.Thermodynamics.Isotensional.Asymptotic.Legendre.nondimensional_helmholtz_free_energy (JArr.scalar number_of_links) (JArr.scalar link_length) (JArr.scalar hinge_mass) q3 q4 nondimensional_force temperature)
    (fun (nondimensional_force : JArr α) (temperature : JArr α) => (JArr.quotient other (link_stiffness * Elem.powi link_length 2 / BOLTZMANN_CONSTANT) temperature).bind fun q2 => (JArr.quotient other (link_energy / BOLTZMANN_CONSTANT) temperature).bind fun q3 => Polymers.Julia.Ufjc.Morse.Thermodynamics.Isotensional.Asymptotic.Legendre.nondimensional_helmholtz_free_energy_per_link (JArr.scalar link_length) (JArr.scalar hinge_mass) q2 q3 nondimensional_force temperature)
    (fun (nondimensional_force : JArr α) (temperature : JArr α) => (JArr.quotient other (link_stiffness * Elem.powi link_length 2 / BOLTZMANN_CONSTANT) temperature).bind fun q1 => (JArr.quotient other (link_energy / BOLTZMANN_CONSTANT) temperature).bind fun q2 => Polymers.Julia.Ufjc.Morse.Thermodynamics.Isotensional.Asymptotic.Legendre.nondimensional_relative_helmholtz_free_energy (JArr.scalar number_of_links) q1 q2 nondimensional_force)
    (fun (nondimensional_force : JArr α) (temperature : JArr α) => (JArr.quotient other (link_stiffness * Elem.powi link_length 2 / BOLTZMANN_CONSTANT) temperature).bind fun q0 => (JArr.quotient other (link_energy / BOLTZMANN_CONSTANT) temperature).bind fun q1 => Polymers.Julia.Ufjc.Morse.Thermodynamics.Isotensional.Asymptotic.Legendre.nondimensional_relative_helmholtz_free_energy_per_link q0 q1 nondimensional_force)

end Polymers.Julia.Ufjc.Morse.Thermodynamics.Isotensional.Asymptotic.Legendre

namespace Polymers.Julia.Ufjc.Morse.Thermodynamics.Isotensional.Asymptotic

/-- `src/physics/single_chain/ufjc/morse/thermodynamics/isotensional/asymptotic/mod.jl` lines 109-146. -/
def end_to_end_length (number_of_links : JArr Nat) (link_length : JArr α) (link_stiffness : JArr α) (link_energy : JArr α) (force : JArr α) (temperature : JArr α) : Option (JArr α) :=
  JArr.ap (JArr.ap (JArr.ap (JArr.ap (JArr.ap (JArr.map (fun (number_of_links_i : Nat) (link_length_i : α) (link_stiffness_i : α) (link_energy_i : α) (force_i : α) (temperature_i : α) => Polymers.C.physics_single_chain_ufjc_morse_thermodynamics_isotensional_asymptotic_end_to_end_length number_of_links_i link_length_i link_stiffness_i link_energy_i force_i temperature_i) number_of_links) link_length) link_stiffness) link_energy) force) temperature

/-- `src/physics/single_chain/ufjc/morse/thermodynamics/isotensional/asymptotic/mod.jl` lines 154-181. -/
def end_to_end_length_per_link (link_length : JArr α) (link_stiffness : JArr α) (link_energy : JArr α) (force : JArr α) (temperature : JArr α) : Option (JArr α) :=
  JArr.ap (JArr.ap (JArr.ap (JArr.ap (JArr.map (fun (link_length_i : α) (link_stiffness_i : α) (link_energy_i : α) (force_i : α) (temperature_i : α) => Polymers.C.physics_single_chain_ufjc_morse_thermodynamics_isotensional_asymptotic_end_to_end_length_per_link link_length_i link_stiffness_i link_energy_i force_i temperature_i) link_length) link_stiffness) link_energy) force) temperature

/-- `src/physics/single_chain/ufjc/morse/thermodynamics/isotensional/asymptotic/mod.jl` lines 189-218. -/
def nondimensional_end_to_end_length (number_of_links : JArr Nat) (nondimensional_link_stiffness : JArr α) (nondimensional_link_energy : JArr α) (nondimensional_force : JArr α) : Option (JArr α) :=
  JArr.ap (JArr.ap (JArr.ap (JArr.map (fun (number_of_links_i : Nat) (nondimensional_link_stiffness_i : α) (nondimensional_link_energy_i : α) (nondimensional_force_i : α) => Polymers.C.physics_single_chain_ufjc_morse_thermodynamics_isotensional_asymptotic_nondimensional_end_to_end_length number_of_links_i nondimensional_link_stiffness_i nondimensional_link_energy_i nondimensional_force_i) number_of_links) nondimensional_link_stiffness) nondimensional_link_energy) nondimensional_force

/-- `src/physics/single_chain/ufjc/morse/thermodynamics/isotensional/asymptotic/mod.jl` lines 240-265. -/
def nondimensional_end_to_end_length_per_link (nondimensional_link_stiffness : JArr α) (nondimensional_link_energy : JArr α) (nondimensional_force : JArr α) : Option (JArr α) :=
  JArr.ap (JArr.ap (JArr.map (fun (nondimensional_link_stiffness_i : α) (nondimensional_link_energy_i : α) (nondimensional_force_i : α) => Polymers.C.physics_single_chain_ufjc_morse_thermodynamics_isotensional_asymptotic_nondimensional_end_to_end_length_per_link nondimensional_link_stiffness_i nondimensional_link_energy_i nondimensional_force_i) nondimensional_link_stiffness) nondimensional_link_energy) nondimensional_force

/-- `src/physics/single_chain/ufjc/morse/thermodynamics/isotensional/asymptotic/mod.jl` lines 277-318. -/
def gibbs_free_energy (number_of_links : JArr Nat) (link_length : JArr α) (hinge_mass : JArr α) (link_stiffness : JArr α) (link_energy : JArr α) (force : JArr α) (temperature : JArr α) : Option (JArr α) :=
  JArr.ap (JArr.ap (JArr.ap (JArr.ap (JArr.ap (JArr.ap (JArr.map (fun (number_of_links_i : Nat) (link_length_i : α) (hinge_mass_i : α) (link_stiffness_i : α) (link_energy_i : α) (force_i : α) (temperature_i : α) => Polymers.C.physics_single_chain_ufjc_morse_thermodynamics_isotensional_asymptotic_gibbs_free_energy number_of_links_i link_length_i hinge_mass_i link_stiffness_i link_energy_i force_i temperature_i) number_of_links) link_length) hinge_mass) link_stiffness) link_energy) force) temperature

/-- `src/physics/single_chain/ufjc/morse/thermodynamics/isotensional/asymptotic/mod.jl` lines 326-363. -/
def gibbs_free_energy_per_link (link_length : JArr α) (hinge_mass : JArr α) (link_stiffness : JArr α) (link_energy : JArr α) (force : JArr α) (temperature : JArr α) : Option (JArr α) :=
  JArr.ap (JArr.ap (JArr.ap (JArr.ap (JArr.ap (JArr.map (fun (link_length_i : α) (hinge_mass_i : α) (link_stiffness_i : α) (link_energy_i : α) (force_i : α) (temperature_i : α) => Polymers.C.physics_single_chain_ufjc_morse_thermodynamics_isotensional_asymptotic_gibbs_free_energy_per_link link_length_i hinge_mass_i link_stiffness_i link_energy_i force_i temperature_i) link_length) hinge_mass) link_stiffness) link_energy) force) temperature

/-- `src/physics/single_chain/ufjc/morse/thermodynamics/isotensional/asymptotic/mod.jl` lines 371-408. -/
def relative_gibbs_free_energy (number_of_links : JArr Nat) (link_length : JArr α) (link_stiffness : JArr α) (link_energy : JArr α) (force : JArr α) (temperature : JArr α) : Option (JArr α) :=
  JArr.ap (JArr.ap (JArr.ap (JArr.ap (JArr.ap (JArr.map (fun (number_of_links_i : Nat) (link_length_i : α) (link_stiffness_i : α) (link_energy_i : α) (force_i : α) (temperature_i : α) => Polymers.C.physics_single_chain_ufjc_morse_thermodynamics_isotensional_asymptotic_relative_gibbs_free_energy number_of_links_i link_length_i link_stiffness_i link_energy_i force_i temperature_i) number_of_links) link_length) link_stiffness) link_energy) force) temperature

/-- `src/physics/single_chain/ufjc/morse/thermodynamics/isotensional/asymptotic/mod.jl` lines 416-443. -/
def relative_gibbs_free_energy_per_link (link_length : JArr α) (link_stiffness : JArr α) (link_energy : JArr α) (force : JArr α) (temperature : JArr α) : Option (JArr α) :=
  JArr.ap (JArr.ap (JArr.ap (JArr.ap (JArr.map (fun (link_length_i : α) (link_stiffness_i : α) (link_energy_i : α) (force_i : α) (temperature_i : α) => Polymers.C.physics_single_chain_ufjc_morse_thermodynamics_isotensional_asymptotic_relative_gibbs_free_energy_per_link link_length_i link_stiffness_i link_energy_i force_i temperature_i) link_length) link_stiffness) link_energy) force) temperature

/-- `src/physics/single_chain/ufjc/morse/thermodynamics/isotensional/asymptotic/mod.jl` lines 451-492. -/
def nondimensional_gibbs_free_energy (number_of_links : JArr Nat) (link_length : JArr α) (hinge_mass : JArr α) (nondimensional_link_stiffness : JArr α) (nondimensional_link_energy : JArr α) (nondimensional_force : JArr α) (temperature : JArr α) : Option (JArr α) :=
  JArr.ap (JArr.ap (JArr.ap (JArr.ap (JArr.ap (JArr.ap (JArr.map (fun (number_of_links_i : Nat) (link_length_i : α) (hinge_mass_i : α) (nondimensional_link_stiffness_i : α) (nondimensional_link_energy_i : α) (nondimensional_force_i : α) (temperature_i : α) => Polymers.C.physics_single_chain_ufjc_morse_thermodynamics_isotensional_asymptotic_nondimensional_gibbs_free_energy number_of_links_i link_length_i hinge_mass_i nondimensional_link_stiffness_i nondimensional_link_energy_i nondimensional_force_i temperature_i) number_of_links) link_length) hinge_mass) nondimensional_link_stiffness) nondimensional_link_energy) nondimensional_force) temperature

/-- `src/physics/single_chain/ufjc/morse/thermodynamics/isotensional/asymptotic/mod.jl` lines 500-537. -/
def nondimensional_gibbs_free_energy_per_link (link_length : JArr α) (hinge_mass : JArr α) (nondimensional_link_stiffness : JArr α) (nondimensional_link_energy : JArr α) (nondimensional_force : JArr α) (temperature : JArr α) : Option (JArr α) :=
  JArr.ap (JArr.ap (JArr.ap (JArr.ap (JArr.ap (JArr.map (fun (link_length_i : α) (hinge_mass_i : α) (nondimensional_link_stiffness_i : α) (nondimensional_link_energy_i : α) (nondimensional_force_i : α) (temperature_i : α) => Polymers.C.physics_single_chain_ufjc_morse_thermodynamics_isotensional_asymptotic_nondimensional_gibbs_free_energy_per_link link_length_i hinge_mass_i nondimensional_link_stiffness_i nondimensional_link_energy_i nondimensional_force_i temperature_i) link_length) hinge_mass) nondimensional_link_stiffness) nondimensional_link_energy) nondimensional_force) temperature

/-- `src/physics/single_chain/ufjc/morse/thermodynamics/isotensional/asymptotic/mod.jl` lines 545-574. -/
def nondimensional_relative_gibbs_free_energy (number_of_links : JArr Nat) (nondimensional_link_stiffness : JArr α) (nondimensional_link_energy : JArr α) (nondimensional_force : JArr α) : Option (JArr α) :=
  JArr.ap (JArr.ap (JArr.ap (JArr.map (fun (number_of_links_i : Nat) (nondimensional_link_stiffness_i : α) (nondimensional_link_energy_i : α) (nondimensional_force_i : α) => Polymers.C.physics_single_chain_ufjc_morse_thermodynamics_isotensional_asymptotic_nondimensional_relative_gibbs_free_energy number_of_links_i nondimensional_link_stiffness_i nondimensional_link_energy_i nondimensional_force_i) number_of_links) nondimensional_link_stiffness) nondimensional_link_energy) nondimensional_force

/-- `src/physics/single_chain/ufjc/morse/thermodynamics/isotensional/asymptotic/mod.jl` lines 595-620. -/
def nondimensional_relative_gibbs_free_energy_per_link (nondimensional_link_stiffness : JArr α) (nondimensional_link_energy : JArr α) (nondimensional_force : JArr α) : Option (JArr α) :=
  JArr.ap (JArr.ap (JArr.map (fun (nondimensional_link_stiffness_i : α) (nondimensional_link_energy_i : α) (nondimensional_force_i : α) => Polymers.C.physics_single_chain_ufjc_morse_thermodynamics_isotensional_asymptotic_nondimensional_relative_gibbs_free_energy_per_link nondimensional_link_stiffness_i nondimensional_link_energy_i nondimensional_force_i) nondimensional_link_stiffness) nondimensional_link_energy) nondimensional_force

/-- `src/physics/single_chain/ufjc/morse/thermodynamics/isotensional/asymptotic/mod.jl` lines 627-743. -/
def MORSEFJC.new (other : α → JArr α → Option (JArr α)) (number_of_links : Nat) (link_length : α) (hinge_mass : α) (link_stiffness : α) (link_energy : α) : Polymers.Julia.Ufjc.Morse.Thermodynamics.Isotensional.Asymptotic.MORSEFJC α :=
  let BOLTZMANN_CONSTANT : α := 8.314462618
  Polymers.Julia.Ufjc.Morse.Thermodynamics.Isotensional.Asymptotic.MORSEFJC.mk
    number_of_links
    link_length
    hinge_mass
    link_stiffness
    link_energy
    (Polymers.Julia.Ufjc.Morse.Thermodynamics.Isotensional.Asymptotic.Reduced.MORSEFJC.new other number_of_links link_length hinge_mass link_stiffness link_energy)
    (Polymers.Julia.Ufjc.Morse.Thermodynamics.Isotensional.Asymptotic.Legendre.MORSEFJC.new other number_of_links link_length hinge_mass link_stiffness link_energy)
    (fun (force : JArr α) (temperature : JArr α) => Polymers.Julia.Ufjc.Morse.Thermodynamics.Isotensional.Asymptotic.end_to_end_length (JArr.scalar number_of_links) (JArr.scalar link_length) (JArr.scalar link_stiffness) (JArr.scalar link_energy) force temperature)
    (fun (force : JArr α) (temperature : JArr α) => Polymers.Julia.Ufjc.Morse.Thermodynamics.Isotensional.Asymptotic.end_to_end_length_per_link (JArr.scalar link_length) (JArr.scalar link_stiffness) (JArr.scalar link_energy) force temperature)
    (fun (nondimensional_force : JArr α) (temperature : JArr α) => (JArr.quotient other (link_stiffness * Elem.powi link_length 2 / BOLTZMANN_CONSTANT) temperature).bind fun q1 => (JArr.quotient other (link_energy / BOLTZMANN_CONSTANT) temperature).bind fun q2 => Polymers.Julia.Ufjc.Morse.Thermodynamics.Isotensional.Asymptotic.nondimensional_end_to_end_length (JArr.scalar number_of_links) q1 q2 nondimensional_force)
    (fun (nondimensional_force : JArr α) (temperature : JArr α) => (JArr.quotient other (link_stiffness * Elem.powi link_length 2 / BOLTZMANN_CONSTANT) temperature).bind fun q0 => (JArr.quotient other (link_energy / BOLTZMANN_CONSTANT) temperature).bind fun q1 => Polymers.Julia.Ufjc.Morse.Thermodynamics.Isotensional.Asymptotic.nondimensional_end_to_end_length_per_link q0 q1 nondimensional_force)
    (fun (force : JArr α) (temperature : JArr α) => Polymers.Julia.Ufjc.Morse.Thermodynamics.Isotensional.Asymptotic.gibbs_free_energy (JArr.scalar number_of_links) (JArr.scalar link_length) (JArr.scalar hinge_mass) (JArr.scalar link_stiffness) (JArr.scalar link_energy) force temperature)
    (fun (force : JArr α) (temperature : JArr α) => Polymers.Julia.Ufjc.Morse.Thermodynamics.Isotensional.Asymptotic.gibbs_free_energy_per_link (JArr.scalar link_length) (JArr.scalar hinge_mass) (JArr.scalar link_stiffness) (JArr.scalar link_energy) force temperature)
    (fun (force : JArr α) (temperature : JArr α) => Polymers.Julia.Ufjc.Morse.Thermodynamics.Isotensional.Asymptotic.relative_gibbs_free_energy (JArr.scalar number_of_links) (JArr.scalar link_length) (JArr.scalar link_stiffness) (JArr.scalar link_energy) force temperature)
    (fun (force : JArr α) (temperature : JArr α) => Polymers.Julia.Ufjc.Morse.Thermodynamics.Isotensional.Asymptotic.relative_gibbs_free_energy_per_link (JArr.scalar link_length) (JArr.scalar link_stiffness) (JArr.scalar link_energy) force temperature)
    (fun (nondimensional_force : JArr α) (temperature : JArr α) => (JArr.quotient other (link_stiffness * Elem.powi link_length 2 / BOLTZMANN_CONSTANT) temperature).bind fun q3 => (JArr.quotient other (link_energy / BOLTZMANN_CONSTANT) temperature).bind fun q4 => Polymers.Julia.Ufjc.Morse.Thermodynamics.Isotensional.Asymptotic.nondimensional_gibbs_free_energy (JArr.scalar number_of_links) (JArr.scalar link_length) (JArr.scalar hinge_mass) q3 q4 nondimensional_force temperature)
    (fun (nondimensional_force : JArr α) (temperature : JArr α) => (JArr.quotient other (link_stiffness * Elem.powi link_length 2 / BOLTZMANN_CONSTANT) temperature).bind fun q2 => (JArr.quotient other (link_energy / BOLTZMANN_CONSTANT) temperature).bind fun q3 => Polymers.Julia.Ufjc.Morse.Thermodynamics.Isotensional.Asymptotic.nondimensional_gibbs_free_energy_per_link (JArr.scalar link_length) (JArr.scalar hinge_mass) q2 q3 nondimensional_force temperature)
    (fun (nondimensional_force : JArr α) (temperature : JArr α) => (JArr.quotient other (link_stiffness * Elem.powi link_length 2 / BOLTZMANN_CONSTANT) temperature).bind fun q1 => (JArr.quotient other (link_energy / BOLTZMANN_CONSTANT) temperature).bind fun q2 => Polymers.Julia.Ufjc.Morse.Thermodynamics.Isotensional.Asymptotic.nondimensional_relative_gibbs_free_energy (JArr.scalar number_of_links) q1 q2 nondimensional_force)
    (fun (nondimensional_force : JArr α) (temperature : JArr α) => (JArr.quotient other (link_stiffness * Elem.powi link_length 2 / BOLTZMANN_CONSTANT) temperature).bind fun q0 => (JArr.quotient other (link_energy / BOLTZMANN_CONSTANT) temperature).bind fun q1 => Polymers.Julia.Ufjc.Morse.Thermodynamics.Isotensional.Asymptotic.nondimensional_relative_gibbs_free_energy_per_link q0 q1 nondimensional_force)

end Polymers.Julia.Ufjc.Morse.Thermodynamics.Isotensional.Asymptotic

namespace Polymers.Julia.Ufjc.Morse.Thermodynamics.Isotensional.Legendre

/-- `src/physics/single_chain/ufjc/morse/thermodynamics/isotensional/legendre/mod.jl` lines 81-122. -/
def helmholtz_free_energy (number_of_links : JArr Nat) (link_length : JArr α) (hinge_mass : JArr α) (link_stiffness : JArr α) (link_energy : JArr α) (force : JArr α) (temperature : JArr α) : Option (JArr α) :=
  JArr.ap (JArr.ap (JArr.ap (JArr.ap (JArr.ap (JArr.ap (JArr.map (fun (number_of_links_i : Nat) (link_length_i : α) (hinge_mass_i : α) (link_stiffness_i : α) (link_energy_i : α) (force_i : α) (temperature_i : α) => Polymers.C.physics_single_chain_ufjc_morse_thermodynamics_isotensional_legendre_helmholtz_free_energy number_of_links_i link_length_i hinge_mass_i link_stiffness_i link_energy_i force_i temperature_i) number_of_links) link_length) hinge_mass) link_stiffness) link_energy) force) temperature

/-- `src/physics/single_chain/ufjc/morse/thermodynamics/isotensional/legendre/mod.jl` lines 130-167. -/
def helmholtz_free_energy_per_link (link_length : JArr α) (hinge_mass : JArr α) (link_stiffness : JArr α) (link_energy : JArr α) (force : JArr α) (temperature : JArr α) : Option (JArr α) :=
  JArr.ap (JArr.ap (JArr.ap (JArr.ap (JArr.ap (JArr.map (fun (link_length_i : α) (hinge_mass_i : α) (link_stiffness_i : α) (link_energy_i : α) (force_i : α) (temperature_i : α) => Polymers.C.physics_single_chain_ufjc_morse_thermodynamics_isotensional_legendre_helmholtz_free_energy_per_link link_length_i hinge_mass_i link_stiffness_i link_energy_i force_i temperature_i) link_length) hinge_mass) link_stiffness) link_energy) force) temperature

/-- `src/physics/single_chain/ufjc/morse/thermodynamics/isotensional/legendre/mod.jl` lines 175-212. -/
def relative_helmholtz_free_energy (number_of_links : JArr Nat) (link_length : JArr α) (link_stiffness : JArr α) (link_energy : JArr α) (force : JArr α) (temperature : JArr α) : Option (JArr α) :=
  JArr.ap (JArr.ap (JArr.ap (JArr.ap (JArr.ap (JArr.map (fun (number_of_links_i : Nat) (link_length_i : α) (link_stiffness_i : α) (link_energy_i : α) (force_i : α) (temperature_i : α) => Polymers.C.physics_single_chain_ufjc_morse_thermodynamics_isotensional_legendre_relative_helmholtz_free_energy number_of_links_i link_length_i link_stiffness_i link_energy_i force_i temperature_i) number_of_links) link_length) link_stiffness) link_energy) force) temperature

/-- `src/physics/single_chain/ufjc/morse/thermodynamics/isotensional/legendre/mod.jl` lines 220-247. -/
def relative_helmholtz_free_energy_per_link (link_length : JArr α) (link_stiffness : JArr α) (link_energy : JArr α) (force : JArr α) (temperature : JArr α) : Option (JArr α) :=
  JArr.ap (JArr.ap (JArr.ap (JArr.ap (JArr.map (fun (link_length_i : α) (link_stiffness_i : α) (link_energy_i : α) (force_i : α) (temperature_i : α) => Polymers.C.physics_single_chain_ufjc_morse_thermodynamics_isotensional_legendre_relative_helmholtz_free_energy_per_link link_length_i link_stiffness_i link_energy_i force_i temperature_i) link_length) link_stiffness) link_energy) force) temperature

/-- `src/physics/single_chain/ufjc/morse/thermodynamics/isotensional/legendre/mod.jl` lines 255-296. -/
def nondimensional_helmholtz_free_energy (number_of_links : JArr Nat) (link_length : JArr α) (hinge_mass : JArr α) (nondimensional_link_stiffness : JArr α) (nondimensional_link_energy : JArr α) (nondimensional_force : JArr α) (temperature : JArr α) : Option (JArr α) :=
  JArr.ap (JArr.ap (JArr.ap (JArr.ap (JArr.ap (JArr.ap (JArr.map (fun (number_of_links_i : Nat) (link_length_i : α) (hinge_mass_i : α) (nondimensional_link_stiffness_i : α) (nondimensional_link_energy_i : α) (nondimensional_force_i : α) (temperature_i : α) => Polymers.C.physics_single_chain_ufjc_morse_thermodynamics_isotensional_legendre_nondimensional_helmholtz_free_energy number_of_links_i link_length_i hinge_mass_i nondimensional_link_stiffness_i nondimensional_link_energy_i nondimensional_force_i temperature_i) number_of_links) link_length) hinge_mass) nondimensional_link_stiffness) nondimensional_link_energy) nondimensional_force) temperature

/-- `src/physics/single_chain/ufjc/morse/thermodynamics/isotensional/legendre/mod.jl` lines 304-341. -/
def nondimensional_helmholtz_free_energy_per_link (link_length : JArr α) (hinge_mass : JArr α) (nondimensional_link_stiffness : JArr α) (nondimensional_link_energy : JArr α) (nondimensional_force : JArr α) (temperature : JArr α) : Option (JArr α) :=
  JArr.ap (JArr.ap (JArr.ap (JArr.ap (JArr.ap (JArr.map (fun (link_length_i : α) (hinge_mass_i : α) (nondimensional_link_stiffness_i : α) (nondimensional_link_energy_i : α) (nondimensional_force_i : α) (temperature_i : α) => Polymers.C.physics_single_chain_ufjc_morse_thermodynamics_isotensional_legendre_nondimensional_helmholtz_free_energy_per_link link_length_i hinge_mass_i nondimensional_link_stiffness_i nondimensional_link_energy_i nondimensional_force_i temperature_i) link_length) hinge_mass) nondimensional_link_stiffness) nondimensional_link_energy) nondimensional_force) temperature

/-- `src/physics/single_chain/ufjc/morse/thermodynamics/isotensional/legendre/mod.jl` lines 349-378. -/
def nondimensional_relative_helmholtz_free_energy (number_of_links : JArr Nat) (nondimensional_link_stiffness : JArr α) (nondimensional_link_energy : JArr α) (nondimensional_force : JArr α) : Option (JArr α) :=
  JArr.ap (JArr.ap (JArr.ap (JArr.map (fun (number_of_links_i : Nat) (nondimensional_link_stiffness_i : α) (nondimensional_link_energy_i : α) (nondimensional_force_i : α) => Polymers.C.physics_single_chain_ufjc_morse_thermodynamics_isotensional_legendre_nondimensional_relative_helmholtz_free_energy number_of_links_i nondimensional_link_stiffness_i nondimensional_link_energy_i nondimensional_force_i) number_of_links) nondimensional_link_stiffness) nondimensional_link_energy) nondimensional_force

/-- `src/physics/single_chain/ufjc/morse/thermodynamics/isotensional/legendre/mod.jl` lines 386-411. -/
def nondimensional_relative_helmholtz_free_energy_per_link (nondimensional_link_stiffness : JArr α) (nondimensional_link_energy : JArr α) (nondimensional_force : JArr α) : Option (JArr α) :=
  JArr.ap (JArr.ap (JArr.map (fun (nondimensional_link_stiffness_i : α) (nondimensional_link_energy_i : α) (nondimensional_force_i : α) => Polymers.C.physics_single_chain_ufjc_morse_thermodynamics_isotensional_legendre_nondimensional_relative_helmholtz_free_energy_per_link nondimensional_link_stiffness_i nondimensional_link_energy_i nondimensional_force_i) nondimensional_link_stiffness) nondimensional_link_energy) nondimensional_force

/-- `src/physics/single_chain/ufjc/morse/thermodynamics/isotensional/legendre/mod.jl` lines 418-496. -/
def MORSEFJC.new (other : α → JArr α → Option (JArr α)) (number_of_links : Nat) (link_length : α) (hinge_mass : α) (link_stiffness : α) (link_energy : α) : Polymers.Julia.Ufjc.Morse.Thermodynamics.Isotensional.Legendre.MORSEFJC α :=
  let BOLTZMANN_CONSTANT : α := 8.314462618
  Polymers.Julia.Ufjc.Morse.Thermodynamics.Isotensional.Legendre.MORSEFJC.mk
    number_of_links
    link_length
    hinge_mass
    link_stiffness
    link_energy
    (fun (force : JArr α) (temperature : JArr α) => Polymers.Julia.Ufjc.Morse.Thermodynamics.Isotensional.Legendre.helmholtz_free_energy (JArr.scalar number_of_links) (JArr.scalar link_length) (JArr.scalar hinge_mass) (JArr.scalar link_stiffness) (JArr.scalar link_energy) force temperature)
    (fun (force : JArr α) (temperature : JArr α) => Polymers.Julia.Ufjc.Morse.Thermodynamics.Isotensional.Legendre.helmholtz_free_energy_per_link (JArr.scalar link_length) (JArr.scalar hinge_mass) (JArr.scalar link_stiffness) (JArr.scalar link_energy) force temperature)
    (fun (force : JArr α) (temperature : JArr α) => Polymers.Julia.Ufjc.Morse.Thermodynamics.Isotensional.Legendre.relative_helmholtz_free_energy (JArr.scalar number_of_links) (JArr.scalar link_length) (JArr.scalar link_stiffness) (JArr.scalar link_energy) force temperature)
    (fun (force : JArr α) (temperature : JArr α) => Polymers.Julia.Ufjc.Morse.Thermodynamics.Isotensional.Legendre.relative_helmholtz_free_energy_per_link (JArr.scalar link_length) (JArr.scalar link_stiffness) (JArr.scalar link_energy) force temperature)
    (fun (nondimensional_force : JArr α) (temperature : JArr α) => (JArr.quotient other (link_stiffness * Elem.powi link_length 2 / BOLTZMANN_CONSTANT) temperature).bind fun q3 => (JArr.quotient other (link_energy / BOLTZMANN_CONSTANT) temperature).bind fun q4 => Polymers.Julia.Ufjc.Morse.Thermodynamics.Isotensional.Legendre.nondimensional_helmholtz_free_energy (JArr.scalar number_of_links) (JArr.scalar link_length) (JArr.scalar hinge_mass) q3 q4 nondimensional_force temperature)
    (fun (nondimensional_force : JArr α) (temperature : JArr α) => (JArr.quotient other (link_stiffness * Elem.powi link_length 2 / BOLTZMANN_CONSTANT) temperature).bind fun q2 => (JArr.quotient other (link_energy / BOLTZMANN_CONSTANT) temperature).bind fun q3 => Polymers.Julia.Ufjc.Morse.Thermodynamics.Isotensional.Legendre.nondimensional_helmholtz_free_energy_per_link (JArr.scalar link_length) (JArr.scalar hinge_mass) q2 q3 nondimensional_force temperature)
    (fun (nondimensional_force : JArr α) (temperature : JArr α) => (JArr.quotient other (link_stiffness * Elem.powi link_length 2 / BOLTZMANN_CONSTANT) temperature).bind fun q1 => (JArr.quotient other (link_energy / BOLTZMANN_CONSTANT) temperature).bind fun q2 => Polymers.Julia.Ufjc.Morse.Thermodynamics.Isotensional.Legendre.nondimensional_relative_helmholtz_free_energy (JArr.scalar number_of_links) q1 q2 nondimensional_force)
    (fun (nondimensional_force : JArr α) (temperature : JArr α) => (JArr.quotient other (link_stiffness * Elem.powi link_length 2 / BOLTZMANN_CONSTANT) temperature).bind fun q0 => (JArr.quotient other (link_energy / BOLTZMANN_CONSTANT) temperature).bind fun q1 => Polymers.Julia.Ufjc.Morse.Thermodynamics.Isotensional.Legendre.nondimensional_relative_helmholtz_free_energy_per_link q0 q1 nondimensional_force)

end Polymers.Julia.Ufjc.Morse.Thermodynamics.Isotensional.Legendre

namespace Polymers.Julia.Ufjc.Morse.Thermodynamics.Isotensional

/-- `src/physics/single_chain/ufjc/morse/thermodynamics/isotensional/mod.jl` lines 109-146. -/
def end_to_end_length (number_of_links : JArr Nat) (link_length : JArr α) (link_stiffness : JArr α) (link_energy : JArr α) (force : JArr α) (temperature : JArr α) : Option (JArr α) :=
  JArr.ap (JArr.ap (JArr.ap (JArr.ap (JArr.ap (JArr.map (fun (number_of_links_i : Nat) (link_length_i : α) (link_stiffness_i : α) (link_energy_i : α) (force_i : α) (temperature_i : α) => Polymers.C.physics_single_chain_ufjc_morse_thermodynamics_isotensional_end_to_end_length number_of_links_i link_length_i link_stiffness_i link_energy_i force_i temperature_i) number_of_links) link_length) link_stiffness) link_energy) force) temperature

/-- `src/physics/single_chain/ufjc/morse/thermodynamics/isotensional/mod.jl` lines 154-181. -/
def end_to_end_length_per_link (link_length : JArr α) (link_stiffness : JArr α) (link_energy : JArr α) (force : JArr α) (temperature : JArr α) : Option (JArr α) :=
  JArr.ap (JArr.ap (JArr.ap (JArr.ap (JArr.map (fun (link_length_i : α) (link_stiffness_i : α) (link_energy_i : α) (force_i : α) (temperature_i : α) => Polymers.C.physics_single_chain_ufjc_morse_thermodynamics_isotensional_end_to_end_length_per_link link_length_i link_stiffness_i link_energy_i force_i temperature_i) link_length) link_stiffness) link_energy) force) temperature

/-- `src/physics/single_chain/ufjc/morse/thermodynamics/isotensional/mod.jl` lines 189-218. -/
def nondimensional_end_to_end_length (number_of_links : JArr Nat) (nondimensional_link_stiffness : JArr α) (nondimensional_link_energy : JArr α) (nondimensional_force : JArr α) : Option (JArr α) :=
  JArr.ap (JArr.ap (JArr.ap (JArr.map (fun (number_of_links_i : Nat) (nondimensional_link_stiffness_i : α) (nondimensional_link_energy_i : α) (nondimensional_force_i : α) => Polymers.C.physics_single_chain_ufjc_morse_thermodynamics_isotensional_nondimensional_end_to_end_length number_of_links_i nondimensional_link_stiffness_i nondimensional_link_energy_i nondimensional_force_i) number_of_links) nondimensional_link_stiffness) nondimensional_link_energy) nondimensional_force

/-- `src/physics/single_chain/ufjc/morse/thermodynamics/isotensional/mod.jl` lines 231-256. -/
def nondimensional_end_to_end_length_per_link (nondimensional_link_stiffness : JArr α) (nondimensional_link_energy : JArr α) (nondimensional_force : JArr α) : Option (JArr α) :=
  JArr.ap (JArr.ap (JArr.map (fun (nondimensional_link_stiffness_i : α) (nondimensional_link_energy_i : α) (nondimensional_force_i : α) => Polymers.C.physics_single_chain_ufjc_morse_thermodynamics_isotensional_nondimensional_end_to_end_length_per_link nondimensional_link_stiffness_i nondimensional_link_energy_i nondimensional_force_i) nondimensional_link_stiffness) nondimensional_link_energy) nondimensional_force

/-- `src/physics/single_chain/ufjc/morse/thermodynamics/isotensional/mod.jl` lines 268-309. -/
def gibbs_free_energy (number_of_links : JArr Nat) (link_length : JArr α) (hinge_mass : JArr α) (link_stiffness : JArr α) (link_energy : JArr α) (force : JArr α) (temperature : JArr α) : Option (JArr α) :=
  JArr.ap (JArr.ap (JArr.ap (JArr.ap (JArr.ap (JArr.ap (JArr.map (fun (number_of_links_i : Nat) (link_length_i : α) (hinge_mass_i : α) (link_stiffness_i : α) (link_energy_i : α) (force_i : α) (temperature_i : α) => Polymers.C.physics_single_chain_ufjc_morse_thermodynamics_isotensional_gibbs_free_energy number_of_links_i link_length_i hinge_mass_i link_stiffness_i link_energy_i force_i temperature_i) number_of_links) link_length) hinge_mass) link_stiffness) link_energy) force) temperature

/-- `src/physics/single_chain/ufjc/morse/thermodynamics/isotensional/mod.jl` lines 317-354. -/
def gibbs_free_energy_per_link (link_length : JArr α) (hinge_mass : JArr α) (link_stiffness : JArr α) (link_energy : JArr α) (force : JArr α) (temperature : JArr α) : Option (JArr α) :=
  JArr.ap (JArr.ap (JArr.ap (JArr.ap (JArr.ap (JArr.map (fun (link_length_i : α) (hinge_mass_i : α) (link_stiffness_i : α) (link_energy_i : α) (force_i : α) (temperature_i : α) => Polymers.C.physics_single_chain_ufjc_morse_thermodynamics_isotensional_gibbs_free_energy_per_link link_length_i hinge_mass_i link_stiffness_i link_energy_i force_i temperature_i) link_length) hinge_mass) link_stiffness) link_energy) force) temperature

/-- `src/physics/single_chain/ufjc/morse/thermodynamics/isotensional/mod.jl` lines 362-399. -/
def relative_gibbs_free_energy (number_of_links : JArr Nat) (link_length : JArr α) (link_stiffness : JArr α) (link_energy : JArr α) (force : JArr α) (temperature : JArr α) : Option (JArr α) :=
  JArr.ap (JArr.ap (JArr.ap (JArr.ap (JArr.ap (JArr.map (fun (number_of_links_i : Nat) (link_length_i : α) (link_stiffness_i : α) (link_energy_i : α) (force_i : α) (temperature_i : α) => Polymers.C.physics_single_chain_ufjc_morse_thermodynamics_isotensional_relative_gibbs_free_energy number_of_links_i link_length_i link_stiffness_i link_energy_i force_i temperature_i) number_of_links) link_length) link_stiffness) link_energy) force) temperature

/-- `src/physics/single_chain/ufjc/morse/thermodynamics/isotensional/mod.jl` lines 407-434. -/
def relative_gibbs_free_energy_per_link (link_length : JArr α) (link_stiffness : JArr α) (link_energy : JArr α) (force : JArr α) (temperature : JArr α) : Option (JArr α) :=
  JArr.ap (JArr.ap (JArr.ap (JArr.ap (JArr.map (fun (link_length_i : α) (link_stiffness_i : α) (link_energy_i : α) (force_i : α) (temperature_i : α) => Polymers.C.physics_single_chain_ufjc_morse_thermodynamics_isotensional_relative_gibbs_free_energy_per_link link_length_i link_stiffness_i link_energy_i force_i temperature_i) link_length) link_stiffness) link_energy) force) temperature

/-- `src/physics/single_chain/ufjc/morse/thermodynamics/isotensional/mod.jl` lines 442-483. -/
def nondimensional_gibbs_free_energy (number_of_links : JArr Nat) (link_length : JArr α) (hinge_mass : JArr α) (nondimensional_link_stiffness : JArr α) (nondimensional_link_energy : JArr α) (nondimensional_force : JArr α) (temperature : JArr α) : Option (JArr α) :=
  JArr.ap (JArr.ap (JArr.ap (JArr.ap (JArr.ap (JArr.ap (JArr.map (fun (number_of_links_i : Nat) (link_length_i : α) (hinge_mass_i : α) (nondimensional_link_stiffness_i : α) (nondimensional_link_energy_i : α) (nondimensional_force_i : α) (temperature_i : α) => Polymers.C.physics_single_chain_ufjc_morse_thermodynamics_isotensional_nondimensional_gibbs_free_energy number_of_links_i link_length_i hinge_mass_i nondimensional_link_stiffness_i nondimensional_link_energy_i nondimensional_force_i temperature_i) number_of_links) link_length) hinge_mass) nondimensional_link_stiffness) nondimensional_link_energy) nondimensional_force) temperature

/-- `src/physics/single_chain/ufjc/morse/thermodynamics/isotensional/mod.jl` lines 491-528. -/
def nondimensional_gibbs_free_energy_per_link (link_length : JArr α) (hinge_mass : JArr α) (nondimensional_link_stiffness : JArr α) (nondimensional_link_energy : JArr α) (nondimensional_force : JArr α) (temperature : JArr α) : Option (JArr α) :=
  JArr.ap (JArr.ap (JArr.ap (JArr.ap (JArr.ap (JArr.map (fun (link_length_i : α) (hinge_mass_i : α) (nondimensional_link_stiffness_i : α) (nondimensional_link_energy_i : α) (nondimensional_force_i : α) (temperature_i : α) => Polymers.C.physics_single_chain_ufjc_morse_thermodynamics_isotensional_nondimensional_gibbs_free_energy_per_link link_length_i hinge_mass_i nondimensional_link_stiffness_i nondimensional_link_energy_i nondimensional_force_i temperature_i) link_length) hinge_mass) nondimensional_link_stiffness) nondimensional_link_energy) nondimensional_force) temperature

/-- `src/physics/single_chain/ufjc/morse/thermodynamics/isotensional/mod.jl` lines 536-565. -/
def nondimensional_relative_gibbs_free_energy (number_of_links : JArr Nat) (nondimensional_link_stiffness : JArr α) (nondimensional_link_energy : JArr α) (nondimensional_force : JArr α) : Option (JArr α) :=
  JArr.ap (JArr.ap (JArr.ap (JArr.map (fun (number_of_links_i : Nat) (nondimensional_link_stiffness_i : α) (nondimensional_link_energy_i : α) (nondimensional_force_i : α) => Polymers.C.physics_single_chain_ufjc_morse_thermodynamics_isotensional_nondimensional_relative_gibbs_free_energy number_of_links_i nondimensional_link_stiffness_i nondimensional_link_energy_i nondimensional_force_i) number_of_links) nondimensional_link_stiffness) nondimensional_link_energy) nondimensional_force

/-- `src/physics/single_chain/ufjc/morse/thermodynamics/isotensional/mod.jl` lines 586-611. -/
def nondimensional_relative_gibbs_free_energy_per_link (nondimensional_link_stiffness : JArr α) (nondimensional_link_energy : JArr α) (nondimensional_force : JArr α) : Option (JArr α) :=
  JArr.ap (JArr.ap (JArr.map (fun (nondimensional_link_stiffness_i : α) (nondimensional_link_energy_i : α) (nondimensional_force_i : α) => Polymers.C.physics_single_chain_ufjc_morse_thermodynamics_isotensional_nondimensional_relative_gibbs_free_energy_per_link nondimensional_link_stiffness_i nondimensional_link_energy_i nondimensional_force_i) nondimensional_link_stiffness) nondimensional_link_energy) nondimensional_force

/-- `src/physics/single_chain/ufjc/morse/thermodynamics/isotensional/mod.jl` lines 618-734. -/
def MORSEFJC.new (other : α → JArr α → Option (JArr α)) (number_of_links : Nat) (link_length : α) (hinge_mass : α) (link_stiffness : α) (link_energy : α) : Polymers.Julia.Ufjc.Morse.Thermodynamics.Isotensional.MORSEFJC α :=
  let BOLTZMANN_CONSTANT : α := 8.314462618
  Polymers.Julia.Ufjc.Morse.Thermodynamics.Isotensional.MORSEFJC.mk
    number_of_links
    link_length
    hinge_mass
    link_stiffness
    link_energy
    (Polymers.Julia.Ufjc.Morse.Thermodynamics.Isotensional.Asymptotic.MORSEFJC.new other number_of_links link_length hinge_mass link_stiffness link_energy)
    (Polymers.Julia.Ufjc.Morse.Thermodynamics.Isotensional.Legendre.MORSEFJC.new other number_of_links link_length hinge_mass link_stiffness link_energy)
    (fun (force : JArr α) (temperature : JArr α) => Polymers.Julia.Ufjc.Morse.Thermodynamics.Isotensional.end_to_end_length (JArr.scalar number_of_links) (JArr.scalar link_length) (JArr.scalar link_stiffness) (JArr.scalar link_energy) force temperature)
    (fun (force : JArr α) (temperature : JArr α) => Polymers.Julia.Ufjc.Morse.Thermodynamics.Isotensional.end_to_end_length_per_link (JArr.scalar link_length) (JArr.scalar link_stiffness) (JArr.scalar link_energy) force temperature)
    (fun (nondimensional_force : JArr α) (temperature : JArr α) => (JArr.quotient other (link_stiffness * Elem.powi link_length 2 / BOLTZMANN_CONSTANT) temperature).bind fun q1 => (JArr.quotient other (link_energy / BOLTZMANN_CONSTANT) temperature).bind fun q2 => Polymers.Julia.Ufjc.Morse.Thermodynamics.Isotensional.nondimensional_end_to_end_length (JArr.scalar number_of_links) q1 q2 nondimensional_force)
    (fun (nondimensional_force : JArr α) (temperature : JArr α) => (JArr.quotient other (link_stiffness * Elem.powi link_length 2 / BOLTZMANN_CONSTANT) temperature).bind fun q0 => (JArr.quotient other (link_energy / BOLTZMANN_CONSTANT) temperature).bind fun q1 => Polymers.Julia.Ufjc.Morse.Thermodynamics.Isotensional.nondimensional_end_to_end_length_per_link q0 q1 nondimensional_force)
    (fun (force : JArr α) (temperature : JArr α) => Polymers.Julia.Ufjc.Morse.Thermodynamics.Isotensional.gibbs_free_energy (JArr.scalar number_of_links) (JArr.scalar link_length) (JArr.scalar hinge_mass) (JArr.scalar link_stiffness) (JArr.scalar link_energy) force temperature)
    (fun (force : JArr α) (temperature : JArr α) => Polymers.Julia.Ufjc.Morse.Thermodynamics.Isotensional.gibbs_free_energy_per_link (JArr.scalar link_length) (JArr.scalar hinge_mass) (JArr.scalar link_stiffness) (JArr.scalar link_energy) force temperature)
    (fun (force : JArr α) (temperature : JArr α) => Polymers.Julia.Ufjc.Morse.Thermodynamics.Isotensional.relative_gibbs_free_energy (JArr.scalar number_of_links) (JArr.scalar link_length) (JArr.scalar link_stiffness) (JArr.scalar link_energy) force temperature)
    (fun (force : JArr α) (temperature : JArr α) => Polymers.Julia.Ufjc.Morse.Thermodynamics.Isotensional.relative_gibbs_free_energy_per_link (JArr.scalar link_length) (JArr.scalar link_stiffness) (JArr.scalar link_energy) force temperature)
    (fun (nondimensional_force : JArr α) (temperature : JArr α) => (JArr.quotient other (link_stiffness * Elem.powi link_length 2 / BOLTZMANN_CONSTANT) temperature).bind fun q3 => (JArr.quotient other (link_energy / BOLTZMANN_CONSTANT) temperature).bind fun q4 => Polymers.Julia.Ufjc.Morse.Thermodynamics.Isotensional.nondimensional_gibbs_free_energy (JArr.scalar number_of_links) (JArr.scalar link_length) (JArr.scalar hinge_mass) q3 q4 nondimensional_force temperature)
    (fun (nondimensional_force : JArr α) (temperature : JArr α) => (JArr.quotient other (link_stiffness * Elem.powi link_length 2 / BOLTZMANN_CONSTANT) temperature).bind fun q2 => (JArr.quotient other (link_energy / BOLTZMANN_CONSTANT) temperature).bind fun q3 => Polymers.Julia.Ufjc.Morse.Thermodynamics.Isotensional.nondimensional_gibbs_free_energy_per_link (JArr.scalar link_length) (JArr.scalar hinge_mass) q2 q3 nondimensional_force temperature)
    (fun (nondimensional_force : JArr α) (temperature : JArr α) => (JArr.quotient other (link_stiffness * Elem.powi link_length 2 / BOLTZMANN_CONSTANT) temperature).bind fun q1 => (JArr.quotient other (link_energy / BOLTZMANN_CONSTANT) temperature).bind fun q2 => Polymers.Julia.Ufjc.Morse.Thermodynamics.Isotensional.nondimensional_relative_gibbs_free_energy (JArr.scalar number_of_links) q1 q2 nondimensional_force)
    (fun (nondimensional_force : JArr α) (temperature : JArr α) => (JArr.quotient other (link_stiffness * Elem.powi link_length 2 / BOLTZMANN_CONSTANT) temperature).bind fun q0 => (JArr.quotient other (link_energy / BOLTZMANN_CONSTANT) temperature).bind fun q1 => Polymers.Julia.Ufjc.Morse.Thermodynamics.Isotensional.nondimensional_relative_gibbs_free_energy_per_link q0 q1 nondimensional_force)

end Polymers.Julia.Ufjc.Morse.Thermodynamics.Isotensional

namespace Polymers.Julia.Ufjc.Morse.Thermodynamics

/-- `src/physics/single_chain/ufjc/morse/thermodynamics/mod.jl` lines 52-80. -/
def MORSEFJC.new (other : α → JArr α → Option (JArr α)) (number_of_links : Nat) (link_length : α) (hinge_mass : α) (link_stiffness : α) (link_energy : α) : Polymers.Julia.Ufjc.Morse.Thermodynamics.MORSEFJC α :=
  Polymers.Julia.Ufjc.Morse.Thermodynamics.MORSEFJC.mk
    number_of_links
    link_length
    hinge_mass
    link_stiffness
    link_energy
    (Polymers.Julia.Ufjc.Morse.Thermodynamics.Isometric.MORSEFJC.new other number_of_links link_length hinge_mass link_stiffness link_energy)
    (Polymers.Julia.Ufjc.Morse.Thermodynamics.Isotensional.MORSEFJC.new other number_of_links link_length hinge_mass link_stiffness link_energy)

end Polymers.Julia.Ufjc.Morse.Thermodynamics

namespace Polymers.Julia.Ufjc.Morse

/-- `src/physics/single_chain/ufjc/morse/mod.jl` lines 47-68. -/
def MORSEFJC.new (other : α → JArr α → Option (JArr α)) (number_of_links : Nat) (link_length : α) (hinge_mass : α) (link_stiffness : α) (link_energy : α) : Polymers.Julia.Ufjc.Morse.MORSEFJC α :=
  Polymers.Julia.Ufjc.Morse.MORSEFJC.mk
    number_of_links
    link_length
    hinge_mass
    link_stiffness
    link_energy
    (Polymers.Julia.Ufjc.Morse.Thermodynamics.MORSEFJC.new other number_of_links link_length hinge_mass link_stiffness link_energy)

end Polymers.Julia.Ufjc.Morse
