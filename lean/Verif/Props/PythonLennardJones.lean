/- Generated by tools/gen_bindings.py ; do not edit by hand. -/
import Verif.Model.PythonLennardJones

/-! Property C59.  Over any number type, so in particular over floating-point numbers. -/

namespace Polymers.Props

set_option linter.unusedSectionVars false

variable {α : Type} [Add α] [Sub α] [Mul α] [Div α] [Neg α] [OfScientific α] [NatCast α] [Elem α]

/-- C59: the Python class of `src/physics/single_chain/ufjc/lennard_jones/thermodynamics/isometric/asymptotic/reduced/legendre/py.rs`, as reached from `LENNARDJONESFJC(number_of_links, link_length, hinge_mass, link_stiffness)`. -/
theorem C59_python_lennard_jones_isometric_asymptotic_reduced_legendre (N : Nat) (ℓ : α) (m : α) (k : α) :
    let py := (Polymers.Python.ufjc.lennard_jones.LENNARDJONESFJC.init N ℓ m k).thermodynamics.isometric.asymptotic.reduced.legendre
    let s := (Polymers.ufjc.lennard_jones.LENNARDJONESFJC.init N ℓ m k).thermodynamics.isometric.asymptotic.reduced.legendre
    py.hinge_mass = m ∧
      py.link_length = ℓ ∧
      py.number_of_links = N ∧
      py.link_stiffness = k ∧
      (∀ (xs : NdArray α) (temperature : α), py.force xs temperature =
        ⟨xs.shape, xs.data.map fun end_to_end_length => s.force end_to_end_length temperature⟩) ∧
      (∀ (xs : NdArray α) (temperature : α), py.nondimensional_force xs temperature =
        ⟨xs.shape, xs.data.map fun nondimensional_end_to_end_length_per_link => s.nondimensional_force nondimensional_end_to_end_length_per_link temperature⟩) ∧
      (∀ (xs : NdArray α) (temperature : α), py.helmholtz_free_energy xs temperature =
        ⟨xs.shape, xs.data.map fun end_to_end_length => s.helmholtz_free_energy end_to_end_length temperature⟩) ∧
      (∀ (xs : NdArray α) (temperature : α), py.helmholtz_free_energy_per_link xs temperature =
        ⟨xs.shape, xs.data.map fun end_to_end_length => s.helmholtz_free_energy_per_link end_to_end_length temperature⟩) ∧
      (∀ (xs : NdArray α) (temperature : α), py.relative_helmholtz_free_energy xs temperature =
        ⟨xs.shape, xs.data.map fun end_to_end_length => s.relative_helmholtz_free_energy end_to_end_length temperature⟩) ∧
      (∀ (xs : NdArray α) (temperature : α), py.relative_helmholtz_free_energy_per_link xs temperature =
        ⟨xs.shape, xs.data.map fun end_to_end_length => s.relative_helmholtz_free_energy_per_link end_to_end_length temperature⟩) ∧
      (∀ (xs : NdArray α) (temperature : α), py.nondimensional_helmholtz_free_energy xs temperature =
        ⟨xs.shape, xs.data.map fun nondimensional_end_to_end_length_per_link => s.nondimensional_helmholtz_free_energy nondimensional_end_to_end_length_per_link temperature⟩) ∧
      (∀ (xs : NdArray α) (temperature : α), py.nondimensional_helmholtz_free_energy_per_link xs temperature =
        ⟨xs.shape, xs.data.map fun nondimensional_end_to_end_length_per_link => s.nondimensional_helmholtz_free_energy_per_link nondimensional_end_to_end_length_per_link temperature⟩) ∧
      (∀ (xs : NdArray α) (temperature : α), py.nondimensional_relative_helmholtz_free_energy xs temperature =
        ⟨xs.shape, xs.data.map fun nondimensional_end_to_end_length_per_link => s.nondimensional_relative_helmholtz_free_energy nondimensional_end_to_end_length_per_link temperature⟩) ∧
      (∀ (xs : NdArray α) (temperature : α), py.nondimensional_relative_helmholtz_free_energy_per_link xs temperature =
        ⟨xs.shape, xs.data.map fun nondimensional_end_to_end_length_per_link => s.nondimensional_relative_helmholtz_free_energy_per_link nondimensional_end_to_end_length_per_link temperature⟩) := by
  exact ⟨rfl, rfl, rfl, rfl, fun _ _ => rfl, fun _ _ => rfl, fun _ _ => rfl, fun _ _ => rfl, fun _ _ => rfl, fun _ _ => rfl, fun _ _ => rfl, fun _ _ => rfl, fun _ _ => rfl, fun _ _ => rfl⟩

/-- C59: the Python class of `src/physics/single_chain/ufjc/lennard_jones/thermodynamics/isotensional/asymptotic/reduced/legendre/py.rs`, as reached from `LENNARDJONESFJC(number_of_links, link_length, hinge_mass, link_stiffness)`. -/
theorem C59_python_lennard_jones_isotensional_asymptotic_reduced_legendre (N : Nat) (ℓ : α) (m : α) (k : α) :
    let py := (Polymers.Python.ufjc.lennard_jones.LENNARDJONESFJC.init N ℓ m k).thermodynamics.isotensional.asymptotic.reduced.legendre
    let s := (Polymers.ufjc.lennard_jones.LENNARDJONESFJC.init N ℓ m k).thermodynamics.isotensional.asymptotic.reduced.legendre
    py.hinge_mass = m ∧
      py.link_length = ℓ ∧
      py.number_of_links = N ∧
      py.link_stiffness = k ∧
      (∀ (xs : NdArray α) (temperature : α), py.helmholtz_free_energy xs temperature =
        ⟨xs.shape, xs.data.map fun force => s.helmholtz_free_energy force temperature⟩) ∧
      (∀ (xs : NdArray α) (temperature : α), py.helmholtz_free_energy_per_link xs temperature =
        ⟨xs.shape, xs.data.map fun force => s.helmholtz_free_energy_per_link force temperature⟩) ∧
      (∀ (xs : NdArray α) (temperature : α), py.relative_helmholtz_free_energy xs temperature =
        ⟨xs.shape, xs.data.map fun force => s.relative_helmholtz_free_energy force temperature⟩) ∧
      (∀ (xs : NdArray α) (temperature : α), py.relative_helmholtz_free_energy_per_link xs temperature =
        ⟨xs.shape, xs.data.map fun force => s.relative_helmholtz_free_energy_per_link force temperature⟩) ∧
      (∀ (xs : NdArray α) (temperature : α), py.nondimensional_helmholtz_free_energy xs temperature =
        ⟨xs.shape, xs.data.map fun nondimensional_force => s.nondimensional_helmholtz_free_energy nondimensional_force temperature⟩) ∧
      (∀ (xs : NdArray α) (temperature : α), py.nondimensional_helmholtz_free_energy_per_link xs temperature =
        ⟨xs.shape, xs.data.map fun nondimensional_force => s.nondimensional_helmholtz_free_energy_per_link nondimensional_force temperature⟩) ∧
      (∀ (xs : NdArray α) (temperature : α), py.nondimensional_relative_helmholtz_free_energy xs temperature =
        ⟨xs.shape, xs.data.map fun nondimensional_force => s.nondimensional_relative_helmholtz_free_energy nondimensional_force temperature⟩) ∧
      (∀ (xs : NdArray α) (temperature : α), py.nondimensional_relative_helmholtz_free_energy_per_link xs temperature =
        ⟨xs.shape, xs.data.map fun nondimensional_force => s.nondimensional_relative_helmholtz_free_energy_per_link nondimensional_force temperature⟩) := by
  exact ⟨rfl, rfl, rfl, rfl, fun _ _ => rfl, fun _ _ => rfl, fun _ _ => rfl, fun _ _ => rfl, fun _ _ => rfl, fun _ _ => rfl, fun _ _ => rfl, fun _ _ => rfl⟩

/-- C59: the Python class of `src/physics/single_chain/ufjc/lennard_jones/thermodynamics/isometric/asymptotic/legendre/py.rs`, as reached from `LENNARDJONESFJC(number_of_links, link_length, hinge_mass, link_stiffness)`. -/
theorem C59_python_lennard_jones_isometric_asymptotic_legendre (N : Nat) (ℓ : α) (m : α) (k : α) :
    let py := (Polymers.Python.ufjc.lennard_jones.LENNARDJONESFJC.init N ℓ m k).thermodynamics.isometric.asymptotic.legendre
    let s := (Polymers.ufjc.lennard_jones.LENNARDJONESFJC.init N ℓ m k).thermodynamics.isometric.asymptotic.legendre
    py.hinge_mass = m ∧
      py.link_length = ℓ ∧
      py.number_of_links = N ∧
      py.link_stiffness = k ∧
      (∀ (xs : NdArray α) (temperature : α), py.force xs temperature =
        ⟨xs.shape, xs.data.map fun end_to_end_length => s.force end_to_end_length temperature⟩) ∧
      (∀ (xs : NdArray α) (temperature : α), py.nondimensional_force xs temperature =
        ⟨xs.shape, xs.data.map fun nondimensional_end_to_end_length_per_link => s.nondimensional_force nondimensional_end_to_end_length_per_link temperature⟩) ∧
      (∀ (xs : NdArray α) (temperature : α), py.helmholtz_free_energy xs temperature =
        ⟨xs.shape, xs.data.map fun end_to_end_length => s.helmholtz_free_energy end_to_end_length temperature⟩) ∧
      (∀ (xs : NdArray α) (temperature : α), py.helmholtz_free_energy_per_link xs temperature =
        ⟨xs.shape, xs.data.map fun end_to_end_length => s.helmholtz_free_energy_per_link end_to_end_length temperature⟩) ∧
      (∀ (xs : NdArray α) (temperature : α), py.relative_helmholtz_free_energy xs temperature =
        ⟨xs.shape, xs.data.map fun end_to_end_length => s.relative_helmholtz_free_energy end_to_end_length temperature⟩) ∧
      (∀ (xs : NdArray α) (temperature : α), py.relative_helmholtz_free_energy_per_link xs temperature =
        ⟨xs.shape, xs.data.map fun end_to_end_length => s.relative_helmholtz_free_energy_per_link end_to_end_length temperature⟩) ∧
      (∀ (xs : NdArray α) (temperature : α), py.nondimensional_helmholtz_free_energy xs temperature =
        ⟨xs.shape, xs.data.map fun nondimensional_end_to_end_length_per_link => s.nondimensional_helmholtz_free_energy nondimensional_end_to_end_length_per_link temperature⟩) ∧
      (∀ (xs : NdArray α) (temperature : α), py.nondimensional_helmholtz_free_energy_per_link xs temperature =
        ⟨xs.shape, xs.data.map fun nondimensional_end_to_end_length_per_link => s.nondimensional_helmholtz_free_energy_per_link nondimensional_end_to_end_length_per_link temperature⟩) ∧
      (∀ (xs : NdArray α) (temperature : α), py.nondimensional_relative_helmholtz_free_energy xs temperature =
        ⟨xs.shape, xs.data.map fun nondimensional_end_to_end_length_per_link => s.nondimensional_relative_helmholtz_free_energy nondimensional_end_to_end_length_per_link temperature⟩) ∧
      (∀ (xs : NdArray α) (temperature : α), py.nondimensional_relative_helmholtz_free_energy_per_link xs temperature =
        ⟨xs.shape, xs.data.map fun nondimensional_end_to_end_length_per_link => s.nondimensional_relative_helmholtz_free_energy_per_link nondimensional_end_to_end_length_per_link temperature⟩) := by
  exact ⟨rfl, rfl, rfl, rfl, fun _ _ => rfl, fun _ _ => rfl, fun _ _ => rfl, fun _ _ => rfl, fun _ _ => rfl, fun _ _ => rfl, fun _ _ => rfl, fun _ _ => rfl, fun _ _ => rfl, fun _ _ => rfl⟩

/-- C59: the Python class of `src/physics/single_chain/ufjc/lennard_jones/thermodynamics/isometric/asymptotic/reduced/py.rs`, as reached from `LENNARDJONESFJC(number_of_links, link_length, hinge_mass, link_stiffness)`. -/
theorem C59_python_lennard_jones_isometric_asymptotic_reduced (N : Nat) (ℓ : α) (m : α) (k : α) :
    let py := (Polymers.Python.ufjc.lennard_jones.LENNARDJONESFJC.init N ℓ m k).thermodynamics.isometric.asymptotic.reduced
    py.hinge_mass = m ∧
      py.link_length = ℓ ∧
      py.number_of_links = N ∧
      py.link_stiffness = k := by
  exact ⟨rfl, rfl, rfl, rfl⟩

/-- C59: the Python class of `src/physics/single_chain/ufjc/lennard_jones/thermodynamics/isotensional/asymptotic/legendre/py.rs`, as reached from `LENNARDJONESFJC(number_of_links, link_length, hinge_mass, link_stiffness)`. -/
theorem C59_python_lennard_jones_isotensional_asymptotic_legendre (N : Nat) (ℓ : α) (m : α) (k : α) :
    let py := (Polymers.Python.ufjc.lennard_jones.LENNARDJONESFJC.init N ℓ m k).thermodynamics.isotensional.asymptotic.legendre
    let s := (Polymers.ufjc.lennard_jones.LENNARDJONESFJC.init N ℓ m k).thermodynamics.isotensional.asymptotic.legendre
    py.hinge_mass = m ∧
      py.link_length = ℓ ∧
      py.number_of_links = N ∧
      py.link_stiffness = k ∧
      (∀ (xs : NdArray α) (temperature : α), py.helmholtz_free_energy xs temperature =
        ⟨xs.shape, xs.data.map fun force => s.helmholtz_free_energy force temperature⟩) ∧
      (∀ (xs : NdArray α) (temperature : α), py.helmholtz_free_energy_per_link xs temperature =
        ⟨xs.shape, xs.data.map fun force => s.helmholtz_free_energy_per_link force temperature⟩) ∧
      (∀ (xs : NdArray α) (temperature : α), py.relative_helmholtz_free_energy xs temperature =
        ⟨xs.shape, xs.data.map fun force => s.relative_helmholtz_free_energy force temperature⟩) ∧
      (∀ (xs : NdArray α) (temperature : α), py.relative_helmholtz_free_energy_per_link xs temperature =
        ⟨xs.shape, xs.data.map fun force => s.relative_helmholtz_free_energy_per_link force temperature⟩) ∧
      (∀ (xs : NdArray α) (temperature : α), py.nondimensional_helmholtz_free_energy xs temperature =
        ⟨xs.shape, xs.data.map fun nondimensional_force => s.nondimensional_helmholtz_free_energy nondimensional_force temperature⟩) ∧
      (∀ (xs : NdArray α) (temperature : α), py.nondimensional_helmholtz_free_energy_per_link xs temperature =
        ⟨xs.shape, xs.data.map fun nondimensional_force => s.nondimensional_helmholtz_free_energy_per_link nondimensional_force temperature⟩) ∧
      (∀ (xs : NdArray α) (temperature : α), py.nondimensional_relative_helmholtz_free_energy xs temperature =
        ⟨xs.shape, xs.data.map fun nondimensional_force => s.nondimensional_relative_helmholtz_free_energy nondimensional_force temperature⟩) ∧
      (∀ (xs : NdArray α) (temperature : α), py.nondimensional_relative_helmholtz_free_energy_per_link xs temperature =
        ⟨xs.shape, xs.data.map fun nondimensional_force => s.nondimensional_relative_helmholtz_free_energy_per_link nondimensional_force temperature⟩) := by
  exact ⟨rfl, rfl, rfl, rfl, fun _ _ => rfl, fun _ _ => rfl, fun _ _ => rfl, fun _ _ => rfl, fun _ _ => rfl, fun _ _ => rfl, fun _ _ => rfl, fun _ _ => rfl⟩

/-- C59: the Python class of `src/physics/single_chain/ufjc/lennard_jones/thermodynamics/isotensional/asymptotic/reduced/py.rs`, as reached from `LENNARDJONESFJC(number_of_links, link_length, hinge_mass, link_stiffness)`. -/
theorem C59_python_lennard_jones_isotensional_asymptotic_reduced (N : Nat) (ℓ : α) (m : α) (k : α) :
    let py := (Polymers.Python.ufjc.lennard_jones.LENNARDJONESFJC.init N ℓ m k).thermodynamics.isotensional.asymptotic.reduced
    let s := (Polymers.ufjc.lennard_jones.LENNARDJONESFJC.init N ℓ m k).thermodynamics.isotensional.asymptotic.reduced
    py.hinge_mass = m ∧
      py.link_length = ℓ ∧
      py.number_of_links = N ∧
      py.link_stiffness = k ∧
      (∀ (xs : NdArray α) (temperature : α), py.end_to_end_length xs temperature =
        ⟨xs.shape, xs.data.map fun force => s.end_to_end_length force temperature⟩) ∧
      (∀ (xs : NdArray α) (temperature : α), py.end_to_end_length_per_link xs temperature =
        ⟨xs.shape, xs.data.map fun force => s.end_to_end_length_per_link force temperature⟩) ∧
      (∀ (xs : NdArray α) (temperature : α), py.nondimensional_end_to_end_length xs temperature =
        ⟨xs.shape, xs.data.map fun nondimensional_force => s.nondimensional_end_to_end_length nondimensional_force temperature⟩) ∧
      (∀ (xs : NdArray α) (temperature : α), py.nondimensional_end_to_end_length_per_link xs temperature =
        ⟨xs.shape, xs.data.map fun nondimensional_force => s.nondimensional_end_to_end_length_per_link nondimensional_force temperature⟩) ∧
      (∀ (xs : NdArray α) (temperature : α), py.gibbs_free_energy xs temperature =
        ⟨xs.shape, xs.data.map fun force => s.gibbs_free_energy force temperature⟩) ∧
      (∀ (xs : NdArray α) (temperature : α), py.gibbs_free_energy_per_link xs temperature =
        ⟨xs.shape, xs.data.map fun force => s.gibbs_free_energy_per_link force temperature⟩) ∧
      (∀ (xs : NdArray α) (temperature : α), py.relative_gibbs_free_energy xs temperature =
        ⟨xs.shape, xs.data.map fun force => s.relative_gibbs_free_energy force temperature⟩) ∧
      (∀ (xs : NdArray α) (temperature : α), py.relative_gibbs_free_energy_per_link xs temperature =
        ⟨xs.shape, xs.data.map fun force => s.relative_gibbs_free_energy_per_link force temperature⟩) ∧
      (∀ (xs : NdArray α) (temperature : α), py.nondimensional_gibbs_free_energy xs temperature =
        ⟨xs.shape, xs.data.map fun nondimensional_force => s.nondimensional_gibbs_free_energy nondimensional_force temperature⟩) ∧
      (∀ (xs : NdArray α) (temperature : α), py.nondimensional_gibbs_free_energy_per_link xs temperature =
        ⟨xs.shape, xs.data.map fun nondimensional_force => s.nondimensional_gibbs_free_energy_per_link nondimensional_force temperature⟩) ∧
      (∀ (xs : NdArray α) (temperature : α), py.nondimensional_relative_gibbs_free_energy xs temperature =
        ⟨xs.shape, xs.data.map fun nondimensional_force => s.nondimensional_relative_gibbs_free_energy nondimensional_force temperature⟩) ∧
      (∀ (xs : NdArray α) (temperature : α), py.nondimensional_relative_gibbs_free_energy_per_link xs temperature =
        ⟨xs.shape, xs.data.map fun nondimensional_force => s.nondimensional_relative_gibbs_free_energy_per_link nondimensional_force temperature⟩) := by
  exact ⟨rfl, rfl, rfl, rfl, fun _ _ => rfl, fun _ _ => rfl, fun _ _ => rfl, fun _ _ => rfl, fun _ _ => rfl, fun _ _ => rfl, fun _ _ => rfl, fun _ _ => rfl, fun _ _ => rfl, fun _ _ => rfl, fun _ _ => rfl, fun _ _ => rfl⟩

/-- C59: the Python class of `src/physics/single_chain/ufjc/lennard_jones/thermodynamics/isometric/asymptotic/py.rs`, as reached from `LENNARDJONESFJC(number_of_links, link_length, hinge_mass, link_stiffness)`. -/
theorem C59_python_lennard_jones_isometric_asymptotic (N : Nat) (ℓ : α) (m : α) (k : α) :
    let py := (Polymers.Python.ufjc.lennard_jones.LENNARDJONESFJC.init N ℓ m k).thermodynamics.isometric.asymptotic
    py.hinge_mass = m ∧
      py.link_length = ℓ ∧
      py.number_of_links = N ∧
      py.link_stiffness = k := by
  exact ⟨rfl, rfl, rfl, rfl⟩

/-- C59: the Python class of `src/physics/single_chain/ufjc/lennard_jones/thermodynamics/isotensional/asymptotic/py.rs`, as reached from `LENNARDJONESFJC(number_of_links, link_length, hinge_mass, link_stiffness)`. -/
theorem C59_python_lennard_jones_isotensional_asymptotic (N : Nat) (ℓ : α) (m : α) (k : α) :
    let py := (Polymers.Python.ufjc.lennard_jones.LENNARDJONESFJC.init N ℓ m k).thermodynamics.isotensional.asymptotic
    let s := (Polymers.ufjc.lennard_jones.LENNARDJONESFJC.init N ℓ m k).thermodynamics.isotensional.asymptotic
    py.hinge_mass = m ∧
      py.link_length = ℓ ∧
      py.number_of_links = N ∧
      py.link_stiffness = k ∧
      (∀ (xs : NdArray α) (temperature : α), py.end_to_end_length xs temperature =
        ⟨xs.shape, xs.data.map fun force => s.end_to_end_length force temperature⟩) ∧
      (∀ (xs : NdArray α) (temperature : α), py.end_to_end_length_per_link xs temperature =
        ⟨xs.shape, xs.data.map fun force => s.end_to_end_length_per_link force temperature⟩) ∧
      (∀ (xs : NdArray α) (temperature : α), py.nondimensional_end_to_end_length xs temperature =
        ⟨xs.shape, xs.data.map fun nondimensional_force => s.nondimensional_end_to_end_length nondimensional_force temperature⟩) ∧
      (∀ (xs : NdArray α) (temperature : α), py.nondimensional_end_to_end_length_per_link xs temperature =
        ⟨xs.shape, xs.data.map fun nondimensional_force => s.nondimensional_end_to_end_length_per_link nondimensional_force temperature⟩) ∧
      (∀ (xs : NdArray α) (temperature : α), py.gibbs_free_energy xs temperature =
        ⟨xs.shape, xs.data.map fun force => s.gibbs_free_energy force temperature⟩) ∧
      (∀ (xs : NdArray α) (temperature : α), py.gibbs_free_energy_per_link xs temperature =
        ⟨xs.shape, xs.data.map fun force => s.gibbs_free_energy_per_link force temperature⟩) ∧
      (∀ (xs : NdArray α) (temperature : α), py.relative_gibbs_free_energy xs temperature =
        ⟨xs.shape, xs.data.map fun force => s.relative_gibbs_free_energy force temperature⟩) ∧
      (∀ (xs : NdArray α) (temperature : α), py.relative_gibbs_free_energy_per_link xs temperature =
        ⟨xs.shape, xs.data.map fun force => s.relative_gibbs_free_energy_per_link force temperature⟩) ∧
      (∀ (xs : NdArray α) (temperature : α), py.nondimensional_gibbs_free_energy xs temperature =
        ⟨xs.shape, xs.data.map fun nondimensional_force => s.nondimensional_gibbs_free_energy nondimensional_force temperature⟩) ∧
      (∀ (xs : NdArray α) (temperature : α), py.nondimensional_gibbs_free_energy_per_link xs temperature =
        ⟨xs.shape, xs.data.map fun nondimensional_force => s.nondimensional_gibbs_free_energy_per_link nondimensional_force temperature⟩) ∧
      (∀ (xs : NdArray α) (temperature : α), py.nondimensional_relative_gibbs_free_energy xs temperature =
        ⟨xs.shape, xs.data.map fun nondimensional_force => s.nondimensional_relative_gibbs_free_energy nondimensional_force temperature⟩) ∧
      (∀ (xs : NdArray α) (temperature : α), py.nondimensional_relative_gibbs_free_energy_per_link xs temperature =
        ⟨xs.shape, xs.data.map fun nondimensional_force => s.nondimensional_relative_gibbs_free_energy_per_link nondimensional_force temperature⟩) := by
  exact ⟨rfl, rfl, rfl, rfl, fun _ _ => rfl, fun _ _ => rfl, fun _ _ => rfl, fun _ _ => rfl, fun _ _ => rfl, fun _ _ => rfl, fun _ _ => rfl, fun _ _ => rfl, fun _ _ => rfl, fun _ _ => rfl, fun _ _ => rfl, fun _ _ => rfl⟩

/-- C59: the Python class of `src/physics/single_chain/ufjc/lennard_jones/thermodynamics/isotensional/legendre/py.rs`, as reached from `LENNARDJONESFJC(number_of_links, link_length, hinge_mass, link_stiffness)`. -/
theorem C59_python_lennard_jones_isotensional_legendre (N : Nat) (ℓ : α) (m : α) (k : α) :
    let py := (Polymers.Python.ufjc.lennard_jones.LENNARDJONESFJC.init N ℓ m k).thermodynamics.isotensional.legendre
    let s := (Polymers.ufjc.lennard_jones.LENNARDJONESFJC.init N ℓ m k).thermodynamics.isotensional.legendre
    py.hinge_mass = m ∧
      py.link_length = ℓ ∧
      py.number_of_links = N ∧
      py.link_stiffness = k ∧
      (∀ (xs : NdArray α) (temperature : α), py.helmholtz_free_energy xs temperature =
        ⟨xs.shape, xs.data.map fun force => s.helmholtz_free_energy force temperature⟩) ∧
      (∀ (xs : NdArray α) (temperature : α), py.helmholtz_free_energy_per_link xs temperature =
        ⟨xs.shape, xs.data.map fun force => s.helmholtz_free_energy_per_link force temperature⟩) ∧
      (∀ (xs : NdArray α) (temperature : α), py.relative_helmholtz_free_energy xs temperature =
        ⟨xs.shape, xs.data.map fun force => s.relative_helmholtz_free_energy force temperature⟩) ∧
      (∀ (xs : NdArray α) (temperature : α), py.relative_helmholtz_free_energy_per_link xs temperature =
        ⟨xs.shape, xs.data.map fun force => s.relative_helmholtz_free_energy_per_link force temperature⟩) ∧
      (∀ (xs : NdArray α) (temperature : α), py.nondimensional_helmholtz_free_energy xs temperature =
        ⟨xs.shape, xs.data.map fun nondimensional_force => s.nondimensional_helmholtz_free_energy nondimensional_force temperature⟩) ∧
      (∀ (xs : NdArray α) (temperature : α), py.nondimensional_helmholtz_free_energy_per_link xs temperature =
        ⟨xs.shape, xs.data.map fun nondimensional_force => s.nondimensional_helmholtz_free_energy_per_link nondimensional_force temperature⟩) ∧
      (∀ (xs : NdArray α) (temperature : α), py.nondimensional_relative_helmholtz_free_energy xs temperature =
        ⟨xs.shape, xs.data.map fun nondimensional_force => s.nondimensional_relative_helmholtz_free_energy nondimensional_force temperature⟩) ∧
      (∀ (xs : NdArray α) (temperature : α), py.nondimensional_relative_helmholtz_free_energy_per_link xs temperature =
        ⟨xs.shape, xs.data.map fun nondimensional_force => s.nondimensional_relative_helmholtz_free_energy_per_link nondimensional_force temperature⟩) := by
  exact ⟨rfl, rfl, rfl, rfl, fun _ _ => rfl, fun _ _ => rfl, fun _ _ => rfl, fun _ _ => rfl, fun _ _ => rfl, fun _ _ => rfl, fun _ _ => rfl, fun _ _ => rfl⟩

/-- C59: the Python class of `src/physics/single_chain/ufjc/lennard_jones/thermodynamics/isometric/py.rs`, as reached from `LENNARDJONESFJC(number_of_links, link_length, hinge_mass, link_stiffness)`. -/
theorem C59_python_lennard_jones_isometric (N : Nat) (ℓ : α) (m : α) (k : α) :
    let py := (Polymers.Python.ufjc.lennard_jones.LENNARDJONESFJC.init N ℓ m k).thermodynamics.isometric
    py.hinge_mass = m ∧
      py.link_length = ℓ ∧
      py.number_of_links = N ∧
      py.link_stiffness = k := by
  exact ⟨rfl, rfl, rfl, rfl⟩

/-- C59: the Python class of `src/physics/single_chain/ufjc/lennard_jones/thermodynamics/isotensional/py.rs`, as reached from `LENNARDJONESFJC(number_of_links, link_length, hinge_mass, link_stiffness)`. -/
theorem C59_python_lennard_jones_isotensional (N : Nat) (ℓ : α) (m : α) (k : α) :
    let py := (Polymers.Python.ufjc.lennard_jones.LENNARDJONESFJC.init N ℓ m k).thermodynamics.isotensional
    let s := (Polymers.ufjc.lennard_jones.LENNARDJONESFJC.init N ℓ m k).thermodynamics.isotensional
    py.hinge_mass = m ∧
      py.link_length = ℓ ∧
      py.number_of_links = N ∧
      py.link_stiffness = k ∧
      (∀ (xs : NdArray α) (temperature : α), py.end_to_end_length xs temperature =
        ⟨xs.shape, xs.data.map fun force => s.end_to_end_length force temperature⟩) ∧
      (∀ (xs : NdArray α) (temperature : α), py.end_to_end_length_per_link xs temperature =
        ⟨xs.shape, xs.data.map fun force => s.end_to_end_length_per_link force temperature⟩) ∧
      (∀ (xs : NdArray α) (temperature : α), py.nondimensional_end_to_end_length xs temperature =
        ⟨xs.shape, xs.data.map fun nondimensional_force => s.nondimensional_end_to_end_length nondimensional_force temperature⟩) ∧
      (∀ (xs : NdArray α) (temperature : α), py.nondimensional_end_to_end_length_per_link xs temperature =
        ⟨xs.shape, xs.data.map fun nondimensional_force => s.nondimensional_end_to_end_length_per_link nondimensional_force temperature⟩) ∧
      (∀ (xs : NdArray α) (temperature : α), py.gibbs_free_energy xs temperature =
        ⟨xs.shape, xs.data.map fun force => s.gibbs_free_energy force temperature⟩) ∧
      (∀ (xs : NdArray α) (temperature : α), py.gibbs_free_energy_per_link xs temperature =
        ⟨xs.shape, xs.data.map fun force => s.gibbs_free_energy_per_link force temperature⟩) ∧
      (∀ (xs : NdArray α) (temperature : α), py.relative_gibbs_free_energy xs temperature =
        ⟨xs.shape, xs.data.map fun force => s.relative_gibbs_free_energy force temperature⟩) ∧
      (∀ (xs : NdArray α) (temperature : α), py.relative_gibbs_free_energy_per_link xs temperature =
        ⟨xs.shape, xs.data.map fun force => s.relative_gibbs_free_energy_per_link force temperature⟩) ∧
      (∀ (xs : NdArray α) (temperature : α), py.nondimensional_gibbs_free_energy xs temperature =
        ⟨xs.shape, xs.data.map fun nondimensional_force => s.nondimensional_gibbs_free_energy nondimensional_force temperature⟩) ∧
      (∀ (xs : NdArray α) (temperature : α), py.nondimensional_gibbs_free_energy_per_link xs temperature =
        ⟨xs.shape, xs.data.map fun nondimensional_force => s.nondimensional_gibbs_free_energy_per_link nondimensional_force temperature⟩) ∧
      (∀ (xs : NdArray α) (temperature : α), py.nondimensional_relative_gibbs_free_energy xs temperature =
        ⟨xs.shape, xs.data.map fun nondimensional_force => s.nondimensional_relative_gibbs_free_energy nondimensional_force temperature⟩) ∧
      (∀ (xs : NdArray α) (temperature : α), py.nondimensional_relative_gibbs_free_energy_per_link xs temperature =
        ⟨xs.shape, xs.data.map fun nondimensional_force => s.nondimensional_relative_gibbs_free_energy_per_link nondimensional_force temperature⟩) := by
  exact ⟨rfl, rfl, rfl, rfl, fun _ _ => rfl, fun _ _ => rfl, fun _ _ => rfl, fun _ _ => rfl, fun _ _ => rfl, fun _ _ => rfl, fun _ _ => rfl, fun _ _ => rfl, fun _ _ => rfl, fun _ _ => rfl, fun _ _ => rfl, fun _ _ => rfl⟩

/-- C59: the Python class of `src/physics/single_chain/ufjc/lennard_jones/thermodynamics/py.rs`, as reached from `LENNARDJONESFJC(number_of_links, link_length, hinge_mass, link_stiffness)`. -/
theorem C59_python_lennard_jones_thermodynamics (N : Nat) (ℓ : α) (m : α) (k : α) :
    let py := (Polymers.Python.ufjc.lennard_jones.LENNARDJONESFJC.init N ℓ m k).thermodynamics
    py.hinge_mass = m ∧
      py.link_length = ℓ ∧
      py.number_of_links = N ∧
      py.link_stiffness = k := by
  exact ⟨rfl, rfl, rfl, rfl⟩

/-- C59: the Python class of `src/physics/single_chain/ufjc/lennard_jones/py.rs`, as reached from `LENNARDJONESFJC(number_of_links, link_length, hinge_mass, link_stiffness)`. -/
theorem C59_python_lennard_jones (N : Nat) (ℓ : α) (m : α) (k : α) :
    let py := (Polymers.Python.ufjc.lennard_jones.LENNARDJONESFJC.init N ℓ m k)
    py.hinge_mass = m ∧
      py.link_length = ℓ ∧
      py.number_of_links = N ∧
      py.link_stiffness = k := by
  exact ⟨rfl, rfl, rfl, rfl⟩

end Polymers.Props
