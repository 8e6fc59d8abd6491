/- Generated by tools/gen_bindings.py ; do not edit by hand. -/
import Verif.Model.PythonFjc

/-! Property C59.  Over any number type, so in particular over floating-point numbers. -/

namespace Polymers.Props

set_option linter.unusedSectionVars false

variable {α : Type} [Add α] [Sub α] [Mul α] [Div α] [Neg α] [OfScientific α] [NatCast α] [Elem α]

/-- C59: the Python class of `src/physics/single_chain/fjc/thermodynamics/modified_canonical/asymptotic/strong_potential/py.rs`, as reached from `FJC(number_of_links, link_length, hinge_mass)`. -/
theorem C59_python_fjc_modified_canonical_asymptotic_strong_potential (N : Nat) (ℓ : α) (m : α) :
    let py := (Polymers.Python.fjc.FJC.init N ℓ m).thermodynamics.modified_canonical.asymptotic.strong_potential
    let s := (Polymers.fjc.FJC.init N ℓ m).thermodynamics.modified_canonical.asymptotic.strong_potential
    py.hinge_mass = m ∧
      py.link_length = ℓ ∧
      py.number_of_links = N ∧
      (∀ (xs : NdArray α) (potential_stiffness temperature : α), py.force xs potential_stiffness temperature =
        ⟨xs.shape, xs.data.map fun potential_distance => s.force potential_distance potential_stiffness temperature⟩) ∧
      (∀ (xs : NdArray α) (nondimensional_potential_stiffness : α), py.nondimensional_force xs nondimensional_potential_stiffness =
        ⟨xs.shape, xs.data.map fun nondimensional_potential_distance => s.nondimensional_force nondimensional_potential_distance nondimensional_potential_stiffness⟩) ∧
      (∀ (xs : NdArray α) (potential_stiffness temperature : α), py.helmholtz_free_energy xs potential_stiffness temperature =
        ⟨xs.shape, xs.data.map fun potential_distance => s.helmholtz_free_energy potential_distance potential_stiffness temperature⟩) ∧
      (∀ (xs : NdArray α) (potential_stiffness temperature : α), py.helmholtz_free_energy_per_link xs potential_stiffness temperature =
        ⟨xs.shape, xs.data.map fun potential_distance => s.helmholtz_free_energy_per_link potential_distance potential_stiffness temperature⟩) ∧
      (∀ (xs : NdArray α) (potential_stiffness temperature : α), py.relative_helmholtz_free_energy xs potential_stiffness temperature =
        ⟨xs.shape, xs.data.map fun potential_distance => s.relative_helmholtz_free_energy potential_distance potential_stiffness temperature⟩) ∧
      (∀ (xs : NdArray α) (potential_stiffness temperature : α), py.relative_helmholtz_free_energy_per_link xs potential_stiffness temperature =
        ⟨xs.shape, xs.data.map fun potential_distance => s.relative_helmholtz_free_energy_per_link potential_distance potential_stiffness temperature⟩) ∧
      (∀ (xs : NdArray α) (nondimensional_potential_stiffness temperature : α), py.nondimensional_helmholtz_free_energy xs nondimensional_potential_stiffness temperature =
        ⟨xs.shape, xs.data.map fun nondimensional_potential_distance => s.nondimensional_helmholtz_free_energy nondimensional_potential_distance nondimensional_potential_stiffness temperature⟩) ∧
      (∀ (xs : NdArray α) (nondimensional_potential_stiffness temperature : α), py.nondimensional_helmholtz_free_energy_per_link xs nondimensional_potential_stiffness temperature =
        ⟨xs.shape, xs.data.map fun nondimensional_potential_distance => s.nondimensional_helmholtz_free_energy_per_link nondimensional_potential_distance nondimensional_potential_stiffness temperature⟩) ∧
      (∀ (xs : NdArray α) (nondimensional_potential_stiffness : α), py.nondimensional_relative_helmholtz_free_energy xs nondimensional_potential_stiffness =
        ⟨xs.shape, xs.data.map fun nondimensional_potential_distance => s.nondimensional_relative_helmholtz_free_energy nondimensional_potential_distance nondimensional_potential_stiffness⟩) ∧
      (∀ (xs : NdArray α) (nondimensional_potential_stiffness : α), py.nondimensional_relative_helmholtz_free_energy_per_link xs nondimensional_potential_stiffness =
        ⟨xs.shape, xs.data.map fun nondimensional_potential_distance => s.nondimensional_relative_helmholtz_free_energy_per_link nondimensional_potential_distance nondimensional_potential_stiffness⟩) := by
  exact ⟨rfl, rfl, rfl, fun _ _ _ => rfl, fun _ _ => rfl, fun _ _ _ => rfl, fun _ _ _ => rfl, fun _ _ _ => rfl, fun _ _ _ => rfl, fun _ _ _ => rfl, fun _ _ _ => rfl, fun _ _ => rfl, fun _ _ => rfl⟩

/-- C59: the Python class of `src/physics/single_chain/fjc/thermodynamics/modified_canonical/asymptotic/weak_potential/py.rs`, as reached from `FJC(number_of_links, link_length, hinge_mass)`. -/
theorem C59_python_fjc_modified_canonical_asymptotic_weak_potential (N : Nat) (ℓ : α) (m : α) :
    let py := (Polymers.Python.fjc.FJC.init N ℓ m).thermodynamics.modified_canonical.asymptotic.weak_potential
    let s := (Polymers.fjc.FJC.init N ℓ m).thermodynamics.modified_canonical.asymptotic.weak_potential
    py.hinge_mass = m ∧
      py.link_length = ℓ ∧
      py.number_of_links = N ∧
      (∀ (xs : NdArray α) (potential_stiffness temperature : α), py.end_to_end_length xs potential_stiffness temperature =
        ⟨xs.shape, xs.data.map fun potential_distance => s.end_to_end_length potential_distance potential_stiffness temperature⟩) ∧
      (∀ (xs : NdArray α) (potential_stiffness temperature : α), py.end_to_end_length_per_link xs potential_stiffness temperature =
        ⟨xs.shape, xs.data.map fun potential_distance => s.end_to_end_length_per_link potential_distance potential_stiffness temperature⟩) ∧
      (∀ (xs : NdArray α) (nondimensional_potential_stiffness : α), py.nondimensional_end_to_end_length xs nondimensional_potential_stiffness =
        ⟨xs.shape, xs.data.map fun nondimensional_potential_distance => s.nondimensional_end_to_end_length nondimensional_potential_distance nondimensional_potential_stiffness⟩) ∧
      (∀ (xs : NdArray α) (nondimensional_potential_stiffness : α), py.nondimensional_end_to_end_length_per_link xs nondimensional_potential_stiffness =
        ⟨xs.shape, xs.data.map fun nondimensional_potential_distance => s.nondimensional_end_to_end_length_per_link nondimensional_potential_distance nondimensional_potential_stiffness⟩) ∧
      (∀ (xs : NdArray α) (potential_stiffness : α), py.force xs potential_stiffness =
        ⟨xs.shape, xs.data.map fun potential_distance => s.force potential_distance potential_stiffness⟩) ∧
      (∀ (xs : NdArray α) (nondimensional_potential_stiffness : α), py.nondimensional_force xs nondimensional_potential_stiffness =
        ⟨xs.shape, xs.data.map fun nondimensional_potential_distance => s.nondimensional_force nondimensional_potential_distance nondimensional_potential_stiffness⟩) ∧
      (∀ (xs : NdArray α) (potential_stiffness temperature : α), py.gibbs_free_energy xs potential_stiffness temperature =
        ⟨xs.shape, xs.data.map fun potential_distance => s.gibbs_free_energy potential_distance potential_stiffness temperature⟩) ∧
      (∀ (xs : NdArray α) (potential_stiffness temperature : α), py.gibbs_free_energy_per_link xs potential_stiffness temperature =
        ⟨xs.shape, xs.data.map fun potential_distance => s.gibbs_free_energy_per_link potential_distance potential_stiffness temperature⟩) ∧
      (∀ (xs : NdArray α) (potential_stiffness temperature : α), py.relative_gibbs_free_energy xs potential_stiffness temperature =
        ⟨xs.shape, xs.data.map fun potential_distance => s.relative_gibbs_free_energy potential_distance potential_stiffness temperature⟩) ∧
      (∀ (xs : NdArray α) (potential_stiffness temperature : α), py.relative_gibbs_free_energy_per_link xs potential_stiffness temperature =
        ⟨xs.shape, xs.data.map fun potential_distance => s.relative_gibbs_free_energy_per_link potential_distance potential_stiffness temperature⟩) ∧
      (∀ (xs : NdArray α) (nondimensional_potential_stiffness temperature : α), py.nondimensional_gibbs_free_energy xs nondimensional_potential_stiffness temperature =
        ⟨xs.shape, xs.data.map fun nondimensional_potential_distance => s.nondimensional_gibbs_free_energy nondimensional_potential_distance nondimensional_potential_stiffness temperature⟩) ∧
      (∀ (xs : NdArray α) (nondimensional_potential_stiffness temperature : α), py.nondimensional_gibbs_free_energy_per_link xs nondimensional_potential_stiffness temperature =
        ⟨xs.shape, xs.data.map fun nondimensional_potential_distance => s.nondimensional_gibbs_free_energy_per_link nondimensional_potential_distance nondimensional_potential_stiffness temperature⟩) ∧
      (∀ (xs : NdArray α) (nondimensional_potential_stiffness : α), py.nondimensional_relative_gibbs_free_energy xs nondimensional_potential_stiffness =
        ⟨xs.shape, xs.data.map fun nondimensional_potential_distance => s.nondimensional_relative_gibbs_free_energy nondimensional_potential_distance nondimensional_potential_stiffness⟩) ∧
      (∀ (xs : NdArray α) (nondimensional_potential_stiffness : α), py.nondimensional_relative_gibbs_free_energy_per_link xs nondimensional_potential_stiffness =
        ⟨xs.shape, xs.data.map fun nondimensional_potential_distance => s.nondimensional_relative_gibbs_free_energy_per_link nondimensional_potential_distance nondimensional_potential_stiffness⟩) := by
  exact ⟨rfl, rfl, rfl, fun _ _ _ => rfl, fun _ _ _ => rfl, fun _ _ => rfl, fun _ _ => rfl, fun _ _ => rfl, fun _ _ => rfl, fun _ _ _ => rfl, fun _ _ _ => rfl, fun _ _ _ => rfl, fun _ _ _ => rfl, fun _ _ _ => rfl, fun _ _ _ => rfl, fun _ _ => rfl, fun _ _ => rfl⟩

/-- C59: the Python class of `src/physics/single_chain/fjc/thermodynamics/isometric/legendre/py.rs`, as reached from `FJC(number_of_links, link_length, hinge_mass)`. -/
theorem C59_python_fjc_isometric_legendre (N : Nat) (ℓ : α) (m : α) :
    let py := (Polymers.Python.fjc.FJC.init N ℓ m).thermodynamics.isometric.legendre
    let s := (Polymers.fjc.FJC.init N ℓ m).thermodynamics.isometric.legendre
    py.hinge_mass = m ∧
      py.link_length = ℓ ∧
      py.number_of_links = N ∧
      (∀ (xs : NdArray α) (temperature : α), py.force xs temperature =
        ⟨xs.shape, xs.data.map fun end_to_end_length => s.force end_to_end_length temperature⟩) ∧
      (∀ (xs : NdArray α), py.nondimensional_force xs =
        ⟨xs.shape, xs.data.map fun nondimensional_end_to_end_length_per_link => s.nondimensional_force nondimensional_end_to_end_length_per_link⟩) ∧
      (∀ (xs : NdArray α) (temperature : α), py.helmholtz_free_energy xs temperature =
        ⟨xs.shape, xs.data.map fun end_to_end_length => s.helmholtz_free_energy end_to_end_length temperature⟩) ∧
      (∀ (xs : NdArray α) (temperature : α), py.helmholtz_free_energy_per_link xs temperature =
        ⟨xs.shape, xs.data.map fun end_to_end_length => s.helmholtz_free_energy_per_link end_to_end_length temperature⟩) ∧
      (∀ (xs : NdArray α) (temperature : α), py.relative_helmholtz_free_energy xs temperature =
        ⟨xs.shape, xs.data.map fun end_to_end_length => s.relative_helmholtz_free_energy end_to_end_length temperature⟩) ∧
      (∀ (xs : NdArray α) (temperature : α), py.relative_helmholtz_free_energy_per_link xs temperature =
        ⟨xs.shape, xs.data.map fun end_to_end_length => s.relative_helmholtz_free_energy_per_link end_to_end_length temperature⟩) ∧
      (∀ (xs : NdArray α) (temperature : α), py.nondimensional_helmholtz_free_energy xs temperature =
        ⟨xs.shape, xs.data.map fun nondimensional_end_to_end_length_per_link => s.nondimensional_helmholtz_free_energy nondimensional_end_to_end_length_per_link temperature⟩) ∧
      (∀ (xs : NdArray α) (temperature : α), py.nondimensional_helmholtz_free_energy_per_link xs temperature =
        ⟨xs.shape, xs.data.map fun nondimensional_end_to_end_length_per_link => s.nondimensional_helmholtz_free_energy_per_link nondimensional_end_to_end_length_per_link temperature⟩) ∧
      (∀ (xs : NdArray α), py.nondimensional_relative_helmholtz_free_energy xs =
        ⟨xs.shape, xs.data.map fun nondimensional_end_to_end_length_per_link => s.nondimensional_relative_helmholtz_free_energy nondimensional_end_to_end_length_per_link⟩) ∧
      (∀ (xs : NdArray α), py.nondimensional_relative_helmholtz_free_energy_per_link xs =
        ⟨xs.shape, xs.data.map fun nondimensional_end_to_end_length_per_link => s.nondimensional_relative_helmholtz_free_energy_per_link nondimensional_end_to_end_length_per_link⟩) ∧
      (∀ (xs : NdArray α), py.equilibrium_distribution xs =
        ⟨xs.shape, xs.data.map fun end_to_end_length => s.equilibrium_distribution end_to_end_length⟩) ∧
      (∀ (xs : NdArray α), py.nondimensional_equilibrium_distribution xs =
        ⟨xs.shape, xs.data.map fun nondimensional_end_to_end_length_per_link => s.nondimensional_equilibrium_distribution nondimensional_end_to_end_length_per_link⟩) ∧
      (∀ (xs : NdArray α), py.equilibrium_radial_distribution xs =
        ⟨xs.shape, xs.data.map fun end_to_end_length => s.equilibrium_radial_distribution end_to_end_length⟩) ∧
      (∀ (xs : NdArray α), py.nondimensional_equilibrium_radial_distribution xs =
        ⟨xs.shape, xs.data.map fun nondimensional_end_to_end_length_per_link => s.nondimensional_equilibrium_radial_distribution nondimensional_end_to_end_length_per_link⟩) ∧
      (∀ (xs : NdArray α) (temperature : α), py.gibbs_free_energy xs temperature =
        ⟨xs.shape, xs.data.map fun end_to_end_length => s.gibbs_free_energy end_to_end_length temperature⟩) ∧
      (∀ (xs : NdArray α) (temperature : α), py.gibbs_free_energy_per_link xs temperature =
        ⟨xs.shape, xs.data.map fun end_to_end_length => s.gibbs_free_energy_per_link end_to_end_length temperature⟩) ∧
      (∀ (xs : NdArray α) (temperature : α), py.relative_gibbs_free_energy xs temperature =
        ⟨xs.shape, xs.data.map fun end_to_end_length => s.relative_gibbs_free_energy end_to_end_length temperature⟩) ∧
      (∀ (xs : NdArray α) (temperature : α), py.relative_gibbs_free_energy_per_link xs temperature =
        ⟨xs.shape, xs.data.map fun end_to_end_length => s.relative_gibbs_free_energy_per_link end_to_end_length temperature⟩) ∧
      (∀ (xs : NdArray α) (temperature : α), py.nondimensional_gibbs_free_energy xs temperature =
        ⟨xs.shape, xs.data.map fun nondimensional_end_to_end_length_per_link => s.nondimensional_gibbs_free_energy nondimensional_end_to_end_length_per_link temperature⟩) ∧
      (∀ (xs : NdArray α) (temperature : α), py.nondimensional_gibbs_free_energy_per_link xs temperature =
        ⟨xs.shape, xs.data.map fun nondimensional_end_to_end_length_per_link => s.nondimensional_gibbs_free_energy_per_link nondimensional_end_to_end_length_per_link temperature⟩) ∧
      (∀ (xs : NdArray α), py.nondimensional_relative_gibbs_free_energy xs =
        ⟨xs.shape, xs.data.map fun nondimensional_end_to_end_length_per_link => s.nondimensional_relative_gibbs_free_energy nondimensional_end_to_end_length_per_link⟩) ∧
      (∀ (xs : NdArray α), py.nondimensional_relative_gibbs_free_energy_per_link xs =
        ⟨xs.shape, xs.data.map fun nondimensional_end_to_end_length_per_link => s.nondimensional_relative_gibbs_free_energy_per_link nondimensional_end_to_end_length_per_link⟩) := by
  exact ⟨rfl, rfl, rfl, fun _ _ => rfl, fun _ => rfl, fun _ _ => rfl, fun _ _ => rfl, fun _ _ => rfl, fun _ _ => rfl, fun _ _ => rfl, fun _ _ => rfl, fun _ => rfl, fun _ => rfl, fun _ => rfl, fun _ => rfl, fun _ => rfl, fun _ => rfl, fun _ _ => rfl, fun _ _ => rfl, fun _ _ => rfl, fun _ _ => rfl, fun _ _ => rfl, fun _ _ => rfl, fun _ => rfl, fun _ => rfl⟩

/-- C59: the Python class of `src/physics/single_chain/fjc/thermodynamics/isotensional/legendre/py.rs`, as reached from `FJC(number_of_links, link_length, hinge_mass)`. -/
theorem C59_python_fjc_isotensional_legendre (N : Nat) (ℓ : α) (m : α) :
    let py := (Polymers.Python.fjc.FJC.init N ℓ m).thermodynamics.isotensional.legendre
    let s := (Polymers.fjc.FJC.init N ℓ m).thermodynamics.isotensional.legendre
    py.hinge_mass = m ∧
      py.link_length = ℓ ∧
      py.number_of_links = N ∧
      (∀ (xs : NdArray α) (temperature : α), py.helmholtz_free_energy xs temperature =
        ⟨xs.shape, xs.data.map fun force => s.helmholtz_free_energy force temperature⟩) ∧
      (∀ (xs : NdArray α) (temperature : α), py.helmholtz_free_energy_per_link xs temperature =
        ⟨xs.shape, xs.data.map fun force => s.helmholtz_free_energy_per_link force temperature⟩) ∧
      (∀ (xs : NdArray α) (temperature : α), py.relative_helmholtz_free_energy xs temperature =
        ⟨xs.shape, xs.data.map fun force => s.relative_helmholtz_free_energy force temperature⟩) ∧
      (∀ (xs : NdArray α) (temperature : α), py.relative_helmholtz_free_energy_per_link xs temperature =
        ⟨xs.shape, xs.data.map fun force => s.relative_helmholtz_free_energy_per_link force temperature⟩) ∧
      (∀ (xs : NdArray α) (temperature : α), py.nondimensional_helmholtz_free_energy xs temperature =
        ⟨xs.shape, xs.data.map fun nondimensional_force => s.nondimensional_helmholtz_free_energy nondimensional_force temperature⟩) ∧
      (∀ (xs : NdArray α) (temperature : α), py.nondimensional_helmholtz_free_energy_per_link xs temperature =
        ⟨xs.shape, xs.data.map fun nondimensional_force => s.nondimensional_helmholtz_free_energy_per_link nondimensional_force temperature⟩) ∧
      (∀ (xs : NdArray α), py.nondimensional_relative_helmholtz_free_energy xs =
        ⟨xs.shape, xs.data.map fun nondimensional_force => s.nondimensional_relative_helmholtz_free_energy nondimensional_force⟩) ∧
      (∀ (xs : NdArray α), py.nondimensional_relative_helmholtz_free_energy_per_link xs =
        ⟨xs.shape, xs.data.map fun nondimensional_force => s.nondimensional_relative_helmholtz_free_energy_per_link nondimensional_force⟩) := by
  exact ⟨rfl, rfl, rfl, fun _ _ => rfl, fun _ _ => rfl, fun _ _ => rfl, fun _ _ => rfl, fun _ _ => rfl, fun _ _ => rfl, fun _ => rfl, fun _ => rfl⟩

/-- C59: the Python class of `src/physics/single_chain/fjc/thermodynamics/modified_canonical/asymptotic/py.rs`, as reached from `FJC(number_of_links, link_length, hinge_mass)`. -/
theorem C59_python_fjc_modified_canonical_asymptotic (N : Nat) (ℓ : α) (m : α) :
    let py := (Polymers.Python.fjc.FJC.init N ℓ m).thermodynamics.modified_canonical.asymptotic
    py.hinge_mass = m ∧
      py.link_length = ℓ ∧
      py.number_of_links = N := by
  exact ⟨rfl, rfl, rfl⟩

/-- C59: the Python class of `src/physics/single_chain/fjc/thermodynamics/isometric/py.rs`, as reached from `FJC(number_of_links, link_length, hinge_mass)`. -/
theorem C59_python_fjc_isometric (N : Nat) (ℓ : α) (m : α) :
    let py := (Polymers.Python.fjc.FJC.init N ℓ m).thermodynamics.isometric
    let s := (Polymers.fjc.FJC.init N ℓ m).thermodynamics.isometric
    py.hinge_mass = m ∧
      py.link_length = ℓ ∧
      py.number_of_links = N ∧
      (∀ (xs : NdArray α) (temperature : α), py.force xs temperature =
        ⟨xs.shape, xs.data.map fun end_to_end_length => s.force end_to_end_length temperature⟩) ∧
      (∀ (xs : NdArray α), py.nondimensional_force xs =
        ⟨xs.shape, xs.data.map fun nondimensional_end_to_end_length_per_link => s.nondimensional_force nondimensional_end_to_end_length_per_link⟩) ∧
      (∀ (xs : NdArray α) (temperature : α), py.helmholtz_free_energy xs temperature =
        ⟨xs.shape, xs.data.map fun end_to_end_length => s.helmholtz_free_energy end_to_end_length temperature⟩) ∧
      (∀ (xs : NdArray α) (temperature : α), py.helmholtz_free_energy_per_link xs temperature =
        ⟨xs.shape, xs.data.map fun end_to_end_length => s.helmholtz_free_energy_per_link end_to_end_length temperature⟩) ∧
      (∀ (xs : NdArray α) (temperature : α), py.relative_helmholtz_free_energy xs temperature =
        ⟨xs.shape, xs.data.map fun end_to_end_length => s.relative_helmholtz_free_energy end_to_end_length temperature⟩) ∧
      (∀ (xs : NdArray α) (temperature : α), py.relative_helmholtz_free_energy_per_link xs temperature =
        ⟨xs.shape, xs.data.map fun end_to_end_length => s.relative_helmholtz_free_energy_per_link end_to_end_length temperature⟩) ∧
      (∀ (xs : NdArray α) (temperature : α), py.nondimensional_helmholtz_free_energy xs temperature =
        ⟨xs.shape, xs.data.map fun nondimensional_end_to_end_length_per_link => s.nondimensional_helmholtz_free_energy nondimensional_end_to_end_length_per_link temperature⟩) ∧
      (∀ (xs : NdArray α) (temperature : α), py.nondimensional_helmholtz_free_energy_per_link xs temperature =
        ⟨xs.shape, xs.data.map fun nondimensional_end_to_end_length_per_link => s.nondimensional_helmholtz_free_energy_per_link nondimensional_end_to_end_length_per_link temperature⟩) ∧
      (∀ (xs : NdArray α), py.nondimensional_relative_helmholtz_free_energy xs =
        ⟨xs.shape, xs.data.map fun nondimensional_end_to_end_length_per_link => s.nondimensional_relative_helmholtz_free_energy nondimensional_end_to_end_length_per_link⟩) ∧
      (∀ (xs : NdArray α), py.nondimensional_relative_helmholtz_free_energy_per_link xs =
        ⟨xs.shape, xs.data.map fun nondimensional_end_to_end_length_per_link => s.nondimensional_relative_helmholtz_free_energy_per_link nondimensional_end_to_end_length_per_link⟩) ∧
      (∀ (xs : NdArray α), py.equilibrium_distribution xs =
        ⟨xs.shape, xs.data.map fun end_to_end_length => s.equilibrium_distribution end_to_end_length⟩) ∧
      (∀ (xs : NdArray α), py.nondimensional_equilibrium_distribution xs =
        ⟨xs.shape, xs.data.map fun nondimensional_end_to_end_length_per_link => s.nondimensional_equilibrium_distribution nondimensional_end_to_end_length_per_link⟩) ∧
      (∀ (xs : NdArray α), py.equilibrium_radial_distribution xs =
        ⟨xs.shape, xs.data.map fun end_to_end_length => s.equilibrium_radial_distribution end_to_end_length⟩) ∧
      (∀ (xs : NdArray α), py.nondimensional_equilibrium_radial_distribution xs =
        ⟨xs.shape, xs.data.map fun nondimensional_end_to_end_length_per_link => s.nondimensional_equilibrium_radial_distribution nondimensional_end_to_end_length_per_link⟩) := by
  exact ⟨rfl, rfl, rfl, fun _ _ => rfl, fun _ => rfl, fun _ _ => rfl, fun _ _ => rfl, fun _ _ => rfl, fun _ _ => rfl, fun _ _ => rfl, fun _ _ => rfl, fun _ => rfl, fun _ => rfl, fun _ => rfl, fun _ => rfl, fun _ => rfl, fun _ => rfl⟩

/-- C59: the Python class of `src/physics/single_chain/fjc/thermodynamics/isotensional/py.rs`, as reached from `FJC(number_of_links, link_length, hinge_mass)`. -/
theorem C59_python_fjc_isotensional (N : Nat) (ℓ : α) (m : α) :
    let py := (Polymers.Python.fjc.FJC.init N ℓ m).thermodynamics.isotensional
    let s := (Polymers.fjc.FJC.init N ℓ m).thermodynamics.isotensional
    py.hinge_mass = m ∧
      py.link_length = ℓ ∧
      py.number_of_links = N ∧
      (∀ (xs : NdArray α) (temperature : α), py.end_to_end_length xs temperature =
        ⟨xs.shape, xs.data.map fun force => s.end_to_end_length force temperature⟩) ∧
      (∀ (xs : NdArray α) (temperature : α), py.end_to_end_length_per_link xs temperature =
        ⟨xs.shape, xs.data.map fun force => s.end_to_end_length_per_link force temperature⟩) ∧
      (∀ (xs : NdArray α), py.nondimensional_end_to_end_length xs =
        ⟨xs.shape, xs.data.map fun nondimensional_force => s.nondimensional_end_to_end_length nondimensional_force⟩) ∧
      (∀ (xs : NdArray α), py.nondimensional_end_to_end_length_per_link xs =
        ⟨xs.shape, xs.data.map fun nondimensional_force => s.nondimensional_end_to_end_length_per_link nondimensional_force⟩) ∧
      (∀ (xs : NdArray α) (temperature : α), py.gibbs_free_energy xs temperature =
        ⟨xs.shape, xs.data.map fun force => s.gibbs_free_energy force temperature⟩) ∧
      (∀ (xs : NdArray α) (temperature : α), py.gibbs_free_energy_per_link xs temperature =
        ⟨xs.shape, xs.data.map fun force => s.gibbs_free_energy_per_link force temperature⟩) ∧
      (∀ (xs : NdArray α) (temperature : α), py.relative_gibbs_free_energy xs temperature =
        ⟨xs.shape, xs.data.map fun force => s.relative_gibbs_free_energy force temperature⟩) ∧
      (∀ (xs : NdArray α) (temperature : α), py.relative_gibbs_free_energy_per_link xs temperature =
        ⟨xs.shape, xs.data.map fun force => s.relative_gibbs_free_energy_per_link force temperature⟩) ∧
      (∀ (xs : NdArray α) (temperature : α), py.nondimensional_gibbs_free_energy xs temperature =
        ⟨xs.shape, xs.data.map fun nondimensional_force => s.nondimensional_gibbs_free_energy nondimensional_force temperature⟩) ∧
      (∀ (xs : NdArray α) (temperature : α), py.nondimensional_gibbs_free_energy_per_link xs temperature =
        ⟨xs.shape, xs.data.map fun nondimensional_force => s.nondimensional_gibbs_free_energy_per_link nondimensional_force temperature⟩) ∧
      (∀ (xs : NdArray α), py.nondimensional_relative_gibbs_free_energy xs =
        ⟨xs.shape, xs.data.map fun nondimensional_force => s.nondimensional_relative_gibbs_free_energy nondimensional_force⟩) ∧
      (∀ (xs : NdArray α), py.nondimensional_relative_gibbs_free_energy_per_link xs =
        ⟨xs.shape, xs.data.map fun nondimensional_force => s.nondimensional_relative_gibbs_free_energy_per_link nondimensional_force⟩) := by
  exact ⟨rfl, rfl, rfl, fun _ _ => rfl, fun _ _ => rfl, fun _ => rfl, fun _ => rfl, fun _ _ => rfl, fun _ _ => rfl, fun _ _ => rfl, fun _ _ => rfl, fun _ _ => rfl, fun _ _ => rfl, fun _ => rfl, fun _ => rfl⟩

/-- C59: the Python class of `src/physics/single_chain/fjc/thermodynamics/modified_canonical/py.rs`, as reached from `FJC(number_of_links, link_length, hinge_mass)`. -/
theorem C59_python_fjc_modified_canonical (N : Nat) (ℓ : α) (m : α) :
    let py := (Polymers.Python.fjc.FJC.init N ℓ m).thermodynamics.modified_canonical
    let s := (Polymers.fjc.FJC.init N ℓ m).thermodynamics.modified_canonical
    py.hinge_mass = m ∧
      py.link_length = ℓ ∧
      py.number_of_links = N ∧
      (∀ (xs : NdArray α) (potential_stiffness temperature : α), py.end_to_end_length xs potential_stiffness temperature =
        ⟨xs.shape, xs.data.map fun potential_distance => s.end_to_end_length potential_distance potential_stiffness temperature⟩) ∧
      (∀ (xs : NdArray α) (potential_stiffness temperature : α), py.end_to_end_length_per_link xs potential_stiffness temperature =
        ⟨xs.shape, xs.data.map fun potential_distance => s.end_to_end_length_per_link potential_distance potential_stiffness temperature⟩) ∧
      (∀ (xs : NdArray α) (nondimensional_potential_stiffness : α), py.nondimensional_end_to_end_length xs nondimensional_potential_stiffness =
        ⟨xs.shape, xs.data.map fun nondimensional_potential_distance => s.nondimensional_end_to_end_length nondimensional_potential_distance nondimensional_potential_stiffness⟩) ∧
      (∀ (xs : NdArray α) (nondimensional_potential_stiffness : α), py.nondimensional_end_to_end_length_per_link xs nondimensional_potential_stiffness =
        ⟨xs.shape, xs.data.map fun nondimensional_potential_distance => s.nondimensional_end_to_end_length_per_link nondimensional_potential_distance nondimensional_potential_stiffness⟩) ∧
      (∀ (xs : NdArray α) (potential_stiffness temperature : α), py.force xs potential_stiffness temperature =
        ⟨xs.shape, xs.data.map fun potential_distance => s.force potential_distance potential_stiffness temperature⟩) ∧
      (∀ (xs : NdArray α) (nondimensional_potential_stiffness : α), py.nondimensional_force xs nondimensional_potential_stiffness =
        ⟨xs.shape, xs.data.map fun nondimensional_potential_distance => s.nondimensional_force nondimensional_potential_distance nondimensional_potential_stiffness⟩) ∧
      (∀ (xs : NdArray α) (potential_stiffness temperature : α), py.helmholtz_free_energy xs potential_stiffness temperature =
        ⟨xs.shape, xs.data.map fun potential_distance => s.helmholtz_free_energy potential_distance potential_stiffness temperature⟩) ∧
      (∀ (xs : NdArray α) (potential_stiffness temperature : α), py.helmholtz_free_energy_per_link xs potential_stiffness temperature =
        ⟨xs.shape, xs.data.map fun potential_distance => s.helmholtz_free_energy_per_link potential_distance potential_stiffness temperature⟩) ∧
      (∀ (xs : NdArray α) (potential_stiffness temperature : α), py.relative_helmholtz_free_energy xs potential_stiffness temperature =
        ⟨xs.shape, xs.data.map fun potential_distance => s.relative_helmholtz_free_energy potential_distance potential_stiffness temperature⟩) ∧
      (∀ (xs : NdArray α) (potential_stiffness temperature : α), py.relative_helmholtz_free_energy_per_link xs potential_stiffness temperature =
        ⟨xs.shape, xs.data.map fun potential_distance => s.relative_helmholtz_free_energy_per_link potential_distance potential_stiffness temperature⟩) ∧
      (∀ (xs : NdArray α) (nondimensional_potential_stiffness temperature : α), py.nondimensional_helmholtz_free_energy xs nondimensional_potential_stiffness temperature =
        ⟨xs.shape, xs.data.map fun nondimensional_potential_distance => s.nondimensional_helmholtz_free_energy nondimensional_potential_distance nondimensional_potential_stiffness temperature⟩) ∧
      (∀ (xs : NdArray α) (nondimensional_potential_stiffness temperature : α), py.nondimensional_helmholtz_free_energy_per_link xs nondimensional_potential_stiffness temperature =
        ⟨xs.shape, xs.data.map fun nondimensional_potential_distance => s.nondimensional_helmholtz_free_energy_per_link nondimensional_potential_distance nondimensional_potential_stiffness temperature⟩) ∧
      (∀ (xs : NdArray α) (nondimensional_potential_stiffness : α), py.nondimensional_relative_helmholtz_free_energy xs nondimensional_potential_stiffness =
        ⟨xs.shape, xs.data.map fun nondimensional_potential_distance => s.nondimensional_relative_helmholtz_free_energy nondimensional_potential_distance nondimensional_potential_stiffness⟩) ∧
      (∀ (xs : NdArray α) (nondimensional_potential_stiffness : α), py.nondimensional_relative_helmholtz_free_energy_per_link xs nondimensional_potential_stiffness =
        ⟨xs.shape, xs.data.map fun nondimensional_potential_distance => s.nondimensional_relative_helmholtz_free_energy_per_link nondimensional_potential_distance nondimensional_potential_stiffness⟩) ∧
      (∀ (xs : NdArray α) (potential_stiffness temperature : α), py.gibbs_free_energy xs potential_stiffness temperature =
        ⟨xs.shape, xs.data.map fun potential_distance => s.gibbs_free_energy potential_distance potential_stiffness temperature⟩) ∧
      (∀ (xs : NdArray α) (potential_stiffness temperature : α), py.gibbs_free_energy_per_link xs potential_stiffness temperature =
        ⟨xs.shape, xs.data.map fun potential_distance => s.gibbs_free_energy_per_link potential_distance potential_stiffness temperature⟩) ∧
      (∀ (xs : NdArray α) (potential_stiffness temperature : α), py.relative_gibbs_free_energy xs potential_stiffness temperature =
        ⟨xs.shape, xs.data.map fun potential_distance => s.relative_gibbs_free_energy potential_distance potential_stiffness temperature⟩) ∧
      (∀ (xs : NdArray α) (potential_stiffness temperature : α), py.relative_gibbs_free_energy_per_link xs potential_stiffness temperature =
        ⟨xs.shape, xs.data.map fun potential_distance => s.relative_gibbs_free_energy_per_link potential_distance potential_stiffness temperature⟩) ∧
      (∀ (xs : NdArray α) (nondimensional_potential_stiffness temperature : α), py.nondimensional_gibbs_free_energy xs nondimensional_potential_stiffness temperature =
        ⟨xs.shape, xs.data.map fun nondimensional_potential_distance => s.nondimensional_gibbs_free_energy nondimensional_potential_distance nondimensional_potential_stiffness temperature⟩) ∧
      (∀ (xs : NdArray α) (nondimensional_potential_stiffness temperature : α), py.nondimensional_gibbs_free_energy_per_link xs nondimensional_potential_stiffness temperature =
        ⟨xs.shape, xs.data.map fun nondimensional_potential_distance => s.nondimensional_gibbs_free_energy_per_link nondimensional_potential_distance nondimensional_potential_stiffness temperature⟩) ∧
      (∀ (xs : NdArray α) (nondimensional_potential_stiffness : α), py.nondimensional_relative_gibbs_free_energy xs nondimensional_potential_stiffness =
        ⟨xs.shape, xs.data.map fun nondimensional_potential_distance => s.nondimensional_relative_gibbs_free_energy nondimensional_potential_distance nondimensional_potential_stiffness⟩) ∧
      (∀ (xs : NdArray α) (nondimensional_potential_stiffness : α), py.nondimensional_relative_gibbs_free_energy_per_link xs nondimensional_potential_stiffness =
        ⟨xs.shape, xs.data.map fun nondimensional_potential_distance => s.nondimensional_relative_gibbs_free_energy_per_link nondimensional_potential_distance nondimensional_potential_stiffness⟩) := by
  exact ⟨rfl, rfl, rfl, fun _ _ _ => rfl, fun _ _ _ => rfl, fun _ _ => rfl, fun _ _ => rfl, fun _ _ _ => rfl, fun _ _ => rfl, fun _ _ _ => rfl, fun _ _ _ => rfl, fun _ _ _ => rfl, fun _ _ _ => rfl, fun _ _ _ => rfl, fun _ _ _ => rfl, fun _ _ => rfl, fun _ _ => rfl, fun _ _ _ => rfl, fun _ _ _ => rfl, fun _ _ _ => rfl, fun _ _ _ => rfl, fun _ _ _ => rfl, fun _ _ _ => rfl, fun _ _ => rfl, fun _ _ => rfl⟩

/-- C59: the Python class of `src/physics/single_chain/fjc/thermodynamics/py.rs`, as reached from `FJC(number_of_links, link_length, hinge_mass)`. -/
theorem C59_python_fjc_thermodynamics (N : Nat) (ℓ : α) (m : α) :
    let py := (Polymers.Python.fjc.FJC.init N ℓ m).thermodynamics
    py.hinge_mass = m ∧
      py.link_length = ℓ ∧
      py.number_of_links = N := by
  exact ⟨rfl, rfl, rfl⟩

/-- C59: the Python class of `src/physics/single_chain/fjc/py.rs`, as reached from `FJC(number_of_links, link_length, hinge_mass)`. -/
theorem C59_python_fjc (N : Nat) (ℓ : α) (m : α) :
    let py := (Polymers.Python.fjc.FJC.init N ℓ m)
    py.hinge_mass = m ∧
      py.link_length = ℓ ∧
      py.number_of_links = N := by
  exact ⟨rfl, rfl, rfl⟩

end Polymers.Props
