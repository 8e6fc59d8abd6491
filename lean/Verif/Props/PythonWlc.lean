/- Generated by tools/gen_bindings.py ; do not edit by hand. -/
import Verif.Model.PythonWlc

/-! Property C59.  Over any number type, so in particular over floating-point numbers. -/

namespace Polymers.Props

set_option linter.unusedSectionVars false

variable {α : Type} [Add α] [Sub α] [Mul α] [Div α] [Neg α] [OfScientific α] [NatCast α] [Elem α]

/-- C59: the Python class of `src/physics/single_chain/wlc/thermodynamics/isometric/legendre/py.rs`, as reached from `WLC(number_of_links, link_length, hinge_mass, persistance_length)`. -/
theorem C59_python_wlc_isometric_legendre (N : Nat) (ℓ : α) (m : α) (p : α) :
    let py := (Polymers.Python.wlc.WLC.init N ℓ m p).thermodynamics.isometric.legendre
    let s := (Polymers.wlc.WLC.init N ℓ m p).thermodynamics.isometric.legendre
    py.hinge_mass = m ∧
      py.link_length = ℓ ∧
      py.number_of_links = N ∧
      py.persistance_length = p ∧
      (∀ (xs : NdArray α) (temperature : α), py.gibbs_free_energy xs temperature =
        ⟨xs.shape, xs.data.map fun end_to_end_length => s.gibbs_free_energy end_to_end_length temperature⟩) ∧
      (∀ (xs : NdArray α) (temperature : α), py.gibbs_free_energy_per_link xs temperature =
        ⟨xs.shape, xs.data.map fun end_to_end_length => s.gibbs_free_energy_per_link end_to_end_length temperature⟩) ∧
      (∀ (xs : NdArray α) (temperature : α), py.relative_gibbs_free_energy xs temperature =
        ⟨xs.shape, xs.data.map fun end_to_end_length => s.relative_gibbs_free_energy end_to_end_length temperature⟩) ∧
      (∀ (xs : NdArray α) (temperature : α), py.relative_gibbs_free_energy_per_link xs temperature =
        ⟨xs.shape, xs.data.map fun end_to_end_length => s.relative_gibbs_free_energy_per_link end_to_end_length temperature⟩) ∧
      (∀ (xs : NdArray α) (temperature : α), py.nondimensional_gibbs_free_energy xs temperature =
        ⟨xs.shape, xs.data.map fun nondimensional_end_to_end_length_per_link => s.nondimensional_gibbs_free_energy nondimensional_end_to_end_length_per_link temperature⟩) ∧
      (∀ (xs : NdArray α) (temperature : α), py.nondimensional_gibbs_free_energy_per_link xs temperature =
        ⟨xs.shape, xs.data.map fun nondimensional_end_to_end_length_per_link => s.nondimensional_gibbs_free_energy_per_link nondimensional_end_to_end_length_per_link temperature⟩) ∧
      (∀ (xs : NdArray α), py.nondimensional_relative_gibbs_free_energy xs =
        ⟨xs.shape, xs.data.map fun nondimensional_end_to_end_length_per_link => s.nondimensional_relative_gibbs_free_energy nondimensional_end_to_end_length_per_link⟩) ∧
      (∀ (xs : NdArray α), py.nondimensional_relative_gibbs_free_energy_per_link xs =
        ⟨xs.shape, xs.data.map fun nondimensional_end_to_end_length_per_link => s.nondimensional_relative_gibbs_free_energy_per_link nondimensional_end_to_end_length_per_link⟩) := by
  exact ⟨rfl, rfl, rfl, rfl, fun _ _ => rfl, fun _ _ => rfl, fun _ _ => rfl, fun _ _ => rfl, fun _ _ => rfl, fun _ _ => rfl, fun _ => rfl, fun _ => rfl⟩

/-- C59: the Python class of `src/physics/single_chain/wlc/thermodynamics/isotensional/legendre/py.rs`, as reached from `WLC(number_of_links, link_length, hinge_mass, persistance_length)`. -/
theorem C59_python_wlc_isotensional_legendre (N : Nat) (ℓ : α) (m : α) (p : α) :
    let py := (Polymers.Python.wlc.WLC.init N ℓ m p).thermodynamics.isotensional.legendre
    let s := (Polymers.wlc.WLC.init N ℓ m p).thermodynamics.isotensional.legendre
    py.hinge_mass = m ∧
      py.link_length = ℓ ∧
      py.number_of_links = N ∧
      py.persistance_length = p ∧
      (∀ (xs : NdArray α) (temperature : α), py.helmholtz_free_energy xs temperature =
        ⟨xs.shape, xs.data.map fun force => s.helmholtz_free_energy force temperature⟩) ∧
      (∀ (xs : NdArray α) (temperature : α), py.helmholtz_free_energy_per_link xs temperature =
        ⟨xs.shape, xs.data.map fun force => s.helmholtz_free_energy_per_link force temperature⟩) ∧
      (∀ (xs : NdArray α) (temperature : α), py.relative_helmholtz_free_energy xs temperature =
        ⟨xs.shape, xs.data.map fun force => s.relative_helmholtz_free_energy force temperature⟩) ∧
      (∀ (xs : NdArray α) (temperature : α), py.relative_helmholtz_free_energy_per_link xs temperature =
        ⟨xs.shape, xs.data.map fun force => s.relative_helmholtz_free_energy_per_link force temperature⟩) ∧
      (∀ (xs : NdArray α) (temperature : α), py.nondimensional_helmholtz_free_energy xs temperature =
        ⟨xs.shape, xs.data.map fun nondimensional_force => s.nondimensional_helmholtz_free_energy nondimensional_force temperature⟩) ∧
      (∀ (xs : NdArray α) (temperature : α), py.nondimensional_helmholtz_free_energy_per_link xs temperature =
        ⟨xs.shape, xs.data.map fun nondimensional_force => s.nondimensional_helmholtz_free_energy_per_link nondimensional_force temperature⟩) ∧
      (∀ (xs : NdArray α), py.nondimensional_relative_helmholtz_free_energy xs =
        ⟨xs.shape, xs.data.map fun nondimensional_force => s.nondimensional_relative_helmholtz_free_energy nondimensional_force⟩) ∧
      (∀ (xs : NdArray α), py.nondimensional_relative_helmholtz_free_energy_per_link xs =
        ⟨xs.shape, xs.data.map fun nondimensional_force => s.nondimensional_relative_helmholtz_free_energy_per_link nondimensional_force⟩) := by
  exact ⟨rfl, rfl, rfl, rfl, fun _ _ => rfl, fun _ _ => rfl, fun _ _ => rfl, fun _ _ => rfl, fun _ _ => rfl, fun _ _ => rfl, fun _ => rfl, fun _ => rfl⟩

/-- C59: the Python class of `src/physics/single_chain/wlc/thermodynamics/isometric/py.rs`, as reached from `WLC(number_of_links, link_length, hinge_mass, persistance_length)`. -/
theorem C59_python_wlc_isometric (N : Nat) (ℓ : α) (m : α) (p : α) :
    let py := (Polymers.Python.wlc.WLC.init N ℓ m p).thermodynamics.isometric
    let s := (Polymers.wlc.WLC.init N ℓ m p).thermodynamics.isometric
    py.hinge_mass = m ∧
      py.link_length = ℓ ∧
      py.number_of_links = N ∧
      py.persistance_length = p ∧
      (∀ (xs : NdArray α) (temperature : α), py.force xs temperature =
        ⟨xs.shape, xs.data.map fun end_to_end_length => s.force end_to_end_length temperature⟩) ∧
      (∀ (xs : NdArray α), py.nondimensional_force xs =
        ⟨xs.shape, xs.data.map fun nondimensional_end_to_end_length_per_link => s.nondimensional_force nondimensional_end_to_end_length_per_link⟩) ∧
      (∀ (xs : NdArray α) (temperature : α), py.helmholtz_free_energy xs temperature =
        ⟨xs.shape, xs.data.map fun end_to_end_length => s.helmholtz_free_energy end_to_end_length temperature⟩) ∧
      (∀ (xs : NdArray α) (temperature : α), py.helmholtz_free_energy_per_link xs temperature =
        ⟨xs.shape, xs.data.map fun end_to_end_length => s.helmholtz_free_energy_per_link end_to_end_length temperature⟩) ∧
      (∀ (xs : NdArray α) (temperature : α), py.relative_helmholtz_free_energy xs temperature =
        ⟨xs.shape, xs.data.map fun end_to_end_length => s.relative_helmholtz_free_energy end_to_end_length temperature⟩) ∧
      (∀ (xs : NdArray α) (temperature : α), py.relative_helmholtz_free_energy_per_link xs temperature =
        ⟨xs.shape, xs.data.map fun end_to_end_length => s.relative_helmholtz_free_energy_per_link end_to_end_length temperature⟩) ∧
      (∀ (xs : NdArray α) (temperature : α), py.nondimensional_helmholtz_free_energy xs temperature =
        ⟨xs.shape, xs.data.map fun nondimensional_end_to_end_length_per_link => s.nondimensional_helmholtz_free_energy nondimensional_end_to_end_length_per_link temperature⟩) ∧
      (∀ (xs : NdArray α) (temperature : α), py.nondimensional_helmholtz_free_energy_per_link xs temperature =
        ⟨xs.shape, xs.data.map fun nondimensional_end_to_end_length_per_link => s.nondimensional_helmholtz_free_energy_per_link nondimensional_end_to_end_length_per_link temperature⟩) ∧
      (∀ (xs : NdArray α), py.nondimensional_relative_helmholtz_free_energy xs =
        ⟨xs.shape, xs.data.map fun nondimensional_end_to_end_length_per_link => s.nondimensional_relative_helmholtz_free_energy nondimensional_end_to_end_length_per_link⟩) ∧
      (∀ (xs : NdArray α), py.nondimensional_relative_helmholtz_free_energy_per_link xs =
        ⟨xs.shape, xs.data.map fun nondimensional_end_to_end_length_per_link => s.nondimensional_relative_helmholtz_free_energy_per_link nondimensional_end_to_end_length_per_link⟩) ∧
      (∀ (xs : NdArray α), py.equilibrium_distribution xs =
        ⟨xs.shape, xs.data.map fun end_to_end_length => s.equilibrium_distribution end_to_end_length⟩) ∧
      (∀ (xs : NdArray α), py.nondimensional_equilibrium_distribution xs =
        ⟨xs.shape, xs.data.map fun nondimensional_end_to_end_length_per_link => s.nondimensional_equilibrium_distribution nondimensional_end_to_end_length_per_link⟩) ∧
      (∀ (xs : NdArray α), py.equilibrium_radial_distribution xs =
        ⟨xs.shape, xs.data.map fun end_to_end_length => s.equilibrium_radial_distribution end_to_end_length⟩) ∧
      (∀ (xs : NdArray α), py.nondimensional_equilibrium_radial_distribution xs =
        ⟨xs.shape, xs.data.map fun nondimensional_end_to_end_length_per_link => s.nondimensional_equilibrium_radial_distribution nondimensional_end_to_end_length_per_link⟩) := by
  exact ⟨rfl, rfl, rfl, rfl, fun _ _ => rfl, fun _ => rfl, fun _ _ => rfl, fun _ _ => rfl, fun _ _ => rfl, fun _ _ => rfl, fun _ _ => rfl, fun _ _ => rfl, fun _ => rfl, fun _ => rfl, fun _ => rfl, fun _ => rfl, fun _ => rfl, fun _ => rfl⟩

/-- C59: the Python class of `src/physics/single_chain/wlc/thermodynamics/isotensional/py.rs`, as reached from `WLC(number_of_links, link_length, hinge_mass, persistance_length)`. -/
theorem C59_python_wlc_isotensional (N : Nat) (ℓ : α) (m : α) (p : α) :
    let py := (Polymers.Python.wlc.WLC.init N ℓ m p).thermodynamics.isotensional
    let s := (Polymers.wlc.WLC.init N ℓ m p).thermodynamics.isotensional
    py.hinge_mass = m ∧
      py.link_length = ℓ ∧
      py.number_of_links = N ∧
      py.persistance_length = p ∧
      (∀ (xs : NdArray α) (temperature : α), py.end_to_end_length xs temperature =
        ⟨xs.shape, xs.data.map fun force => s.end_to_end_length force temperature⟩) ∧
      (∀ (xs : NdArray α) (temperature : α), py.end_to_end_length_per_link xs temperature =
        ⟨xs.shape, xs.data.map fun force => s.end_to_end_length_per_link force temperature⟩) ∧
      (∀ (xs : NdArray α), py.nondimensional_end_to_end_length xs =
        ⟨xs.shape, xs.data.map fun nondimensional_force => s.nondimensional_end_to_end_length nondimensional_force⟩) ∧
      (∀ (xs : NdArray α), py.nondimensional_end_to_end_length_per_link xs =
        ⟨xs.shape, xs.data.map fun nondimensional_force => s.nondimensional_end_to_end_length_per_link nondimensional_force⟩) ∧
      (∀ (xs : NdArray α) (temperature : α), py.gibbs_free_energy xs temperature =
        ⟨xs.shape, xs.data.map fun force => s.gibbs_free_energy force temperature⟩) ∧
      (∀ (xs : NdArray α) (temperature : α), py.gibbs_free_energy_per_link xs temperature =
        ⟨xs.shape, xs.data.map fun force => s.gibbs_free_energy_per_link force temperature⟩) ∧
      (∀ (xs : NdArray α) (temperature : α), py.relative_gibbs_free_energy xs temperature =
        ⟨xs.shape, xs.data.map fun force => s.relative_gibbs_free_energy force temperature⟩) ∧
      (∀ (xs : NdArray α) (temperature : α), py.relative_gibbs_free_energy_per_link xs temperature =
        ⟨xs.shape, xs.data.map fun force => s.relative_gibbs_free_energy_per_link force temperature⟩) ∧
      (∀ (xs : NdArray α) (temperature : α), py.nondimensional_gibbs_free_energy xs temperature =
        ⟨xs.shape, xs.data.map fun nondimensional_force => s.nondimensional_gibbs_free_energy nondimensional_force temperature⟩) ∧
      (∀ (xs : NdArray α) (temperature : α), py.nondimensional_gibbs_free_energy_per_link xs temperature =
        ⟨xs.shape, xs.data.map fun nondimensional_force => s.nondimensional_gibbs_free_energy_per_link nondimensional_force temperature⟩) ∧
      (∀ (xs : NdArray α), py.nondimensional_relative_gibbs_free_energy xs =
        ⟨xs.shape, xs.data.map fun nondimensional_force => s.nondimensional_relative_gibbs_free_energy nondimensional_force⟩) ∧
      (∀ (xs : NdArray α), py.nondimensional_relative_gibbs_free_energy_per_link xs =
        ⟨xs.shape, xs.data.map fun nondimensional_force => s.nondimensional_relative_gibbs_free_energy_per_link nondimensional_force⟩) := by
  exact ⟨rfl, rfl, rfl, rfl, fun _ _ => rfl, fun _ _ => rfl, fun _ => rfl, fun _ => rfl, fun _ _ => rfl, fun _ _ => rfl, fun _ _ => rfl, fun _ _ => rfl, fun _ _ => rfl, fun _ _ => rfl, fun _ => rfl, fun _ => rfl⟩

/-- C59: the Python class of `src/physics/single_chain/wlc/thermodynamics/py.rs`, as reached from `WLC(number_of_links, link_length, hinge_mass, persistance_length)`. -/
theorem C59_python_wlc_thermodynamics (N : Nat) (ℓ : α) (m : α) (p : α) :
    let py := (Polymers.Python.wlc.WLC.init N ℓ m p).thermodynamics
    py.hinge_mass = m ∧
      py.link_length = ℓ ∧
      py.number_of_links = N ∧
      py.persistance_length = p := by
  exact ⟨rfl, rfl, rfl, rfl⟩

/-- C59: the Python class of `src/physics/single_chain/wlc/py.rs`, as reached from `WLC(number_of_links, link_length, hinge_mass, persistance_length)`. -/
theorem C59_python_wlc (N : Nat) (ℓ : α) (m : α) (p : α) :
    let py := (Polymers.Python.wlc.WLC.init N ℓ m p)
    py.hinge_mass = m ∧
      py.link_length = ℓ ∧
      py.number_of_links = N ∧
      py.persistance_length = p := by
  exact ⟨rfl, rfl, rfl, rfl⟩

end Polymers.Props
