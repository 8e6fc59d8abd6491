/- Generated by tools/gen_bindings.py ; do not edit by hand. -/
import Verif.Model.CMorse

/-! Property C58.  Over any number type, so in particular over floating-point numbers. -/

namespace Polymers.Props

set_option linter.unusedSectionVars false

variable {α : Type} [Add α] [Sub α] [Mul α] [Div α] [Neg α] [OfScientific α] [NatCast α] [Elem α]

/-- C58: the functions exported by `src/physics/single_chain/ufjc/morse/thermodynamics/isometric/asymptotic/reduced/legendre/ex.rs` against the methods of `MORSEFJC::init(number_of_links, link_length, hinge_mass, link_stiffness, link_energy).thermodynamics.isometric.asymptotic.reduced.legendre`. -/
theorem C58_c_morse_isometric_asymptotic_reduced_legendre (N : Nat) (ℓ : α) (m : α) (k : α) (ε : α) :
    let s := (Polymers.ufjc.morse.MORSEFJC.init N ℓ m k ε).thermodynamics.isometric.asymptotic.reduced.legendre
    (∀ end_to_end_length temperature : α, Polymers.C.physics_single_chain_ufjc_morse_thermodynamics_isometric_asymptotic_reduced_legendre_force
          N ℓ k ε end_to_end_length temperature =
        s.force end_to_end_length temperature) ∧
      (∀ nondimensional_end_to_end_length_per_link temperature : α, Polymers.C.physics_single_chain_ufjc_morse_thermodynamics_isometric_asymptotic_reduced_legendre_nondimensional_force
          (k * Elem.powi ℓ 2 / BOLTZMANN_CONSTANT / temperature) (ε / BOLTZMANN_CONSTANT / temperature) nondimensional_end_to_end_length_per_link =
        s.nondimensional_force nondimensional_end_to_end_length_per_link temperature) ∧
      (∀ end_to_end_length temperature : α, Polymers.C.physics_single_chain_ufjc_morse_thermodynamics_isometric_asymptotic_reduced_legendre_helmholtz_free_energy
          N ℓ m k ε end_to_end_length temperature =
        s.helmholtz_free_energy end_to_end_length temperature) ∧
      (∀ end_to_end_length temperature : α, Polymers.C.physics_single_chain_ufjc_morse_thermodynamics_isometric_asymptotic_reduced_legendre_helmholtz_free_energy_per_link
          N ℓ m k ε end_to_end_length temperature =
        s.helmholtz_free_energy_per_link end_to_end_length temperature) ∧
      (∀ end_to_end_length temperature : α, Polymers.C.physics_single_chain_ufjc_morse_thermodynamics_isometric_asymptotic_reduced_legendre_relative_helmholtz_free_energy
          N ℓ k ε end_to_end_length temperature =
        s.relative_helmholtz_free_energy end_to_end_length temperature) ∧
      (∀ end_to_end_length temperature : α, Polymers.C.physics_single_chain_ufjc_morse_thermodynamics_isometric_asymptotic_reduced_legendre_relative_helmholtz_free_energy_per_link
          N ℓ k ε end_to_end_length temperature =
        s.relative_helmholtz_free_energy_per_link end_to_end_length temperature) ∧
      (∀ nondimensional_end_to_end_length_per_link temperature : α, Polymers.C.physics_single_chain_ufjc_morse_thermodynamics_isometric_asymptotic_reduced_legendre_nondimensional_helmholtz_free_energy
          N ℓ m (k * Elem.powi ℓ 2 / BOLTZMANN_CONSTANT / temperature) (ε / BOLTZMANN_CONSTANT / temperature) nondimensional_end_to_end_length_per_link temperature =
        s.nondimensional_helmholtz_free_energy nondimensional_end_to_end_length_per_link temperature) ∧
      (∀ nondimensional_end_to_end_length_per_link temperature : α, Polymers.C.physics_single_chain_ufjc_morse_thermodynamics_isometric_asymptotic_reduced_legendre_nondimensional_helmholtz_free_energy_per_link
          N ℓ m (k * Elem.powi ℓ 2 / BOLTZMANN_CONSTANT / temperature) (ε / BOLTZMANN_CONSTANT / temperature) nondimensional_end_to_end_length_per_link temperature =
        s.nondimensional_helmholtz_free_energy_per_link nondimensional_end_to_end_length_per_link temperature) ∧
      (∀ nondimensional_end_to_end_length_per_link temperature : α, Polymers.C.physics_single_chain_ufjc_morse_thermodynamics_isometric_asymptotic_reduced_legendre_nondimensional_relative_helmholtz_free_energy
          N (k * Elem.powi ℓ 2 / BOLTZMANN_CONSTANT / temperature) (ε / BOLTZMANN_CONSTANT / temperature) nondimensional_end_to_end_length_per_link =
        s.nondimensional_relative_helmholtz_free_energy nondimensional_end_to_end_length_per_link temperature) ∧
      (∀ nondimensional_end_to_end_length_per_link temperature : α, Polymers.C.physics_single_chain_ufjc_morse_thermodynamics_isometric_asymptotic_reduced_legendre_nondimensional_relative_helmholtz_free_energy_per_link
          (k * Elem.powi ℓ 2 / BOLTZMANN_CONSTANT / temperature) (ε / BOLTZMANN_CONSTANT / temperature) nondimensional_end_to_end_length_per_link =
        s.nondimensional_relative_helmholtz_free_energy_per_link nondimensional_end_to_end_length_per_link temperature) := by
  exact ⟨fun _ _ => rfl, fun _ _ => rfl, fun _ _ => rfl, fun _ _ => rfl, fun _ _ => rfl, fun _ _ => rfl, fun _ _ => rfl, fun _ _ => rfl, fun _ _ => rfl, fun _ _ => rfl⟩

/-- C58: the functions exported by `src/physics/single_chain/ufjc/morse/thermodynamics/isotensional/asymptotic/reduced/legendre/ex.rs` against the methods of `MORSEFJC::init(number_of_links, link_length, hinge_mass, link_stiffness, link_energy).thermodynamics.isotensional.asymptotic.reduced.legendre`. -/
theorem C58_c_morse_isotensional_asymptotic_reduced_legendre (N : Nat) (ℓ : α) (m : α) (k : α) (ε : α) :
    let s := (Polymers.ufjc.morse.MORSEFJC.init N ℓ m k ε).thermodynamics.isotensional.asymptotic.reduced.legendre
    (∀ force temperature : α, Polymers.C.physics_single_chain_ufjc_morse_thermodynamics_isotensional_asymptotic_reduced_legendre_helmholtz_free_energy
          N ℓ m k ε force temperature =
        s.helmholtz_free_energy force temperature) ∧
      (∀ force temperature : α, Polymers.C.physics_single_chain_ufjc_morse_thermodynamics_isotensional_asymptotic_reduced_legendre_helmholtz_free_energy_per_link
          ℓ m k ε force temperature =
        s.helmholtz_free_energy_per_link force temperature) ∧
      (∀ force temperature : α, Polymers.C.physics_single_chain_ufjc_morse_thermodynamics_isotensional_asymptotic_reduced_legendre_relative_helmholtz_free_energy
          N ℓ k ε force temperature =
        s.relative_helmholtz_free_energy force temperature) ∧
      (∀ force temperature : α, Polymers.C.physics_single_chain_ufjc_morse_thermodynamics_isotensional_asymptotic_reduced_legendre_relative_helmholtz_free_energy_per_link
          ℓ k ε force temperature =
        s.relative_helmholtz_free_energy_per_link force temperature) ∧
      (∀ nondimensional_force temperature : α, Polymers.C.physics_single_chain_ufjc_morse_thermodynamics_isotensional_asymptotic_reduced_legendre_nondimensional_helmholtz_free_energy
          N ℓ m (k * Elem.powi ℓ 2 / BOLTZMANN_CONSTANT / temperature) (ε / BOLTZMANN_CONSTANT / temperature) nondimensional_force temperature =
        s.nondimensional_helmholtz_free_energy nondimensional_force temperature) ∧
      (∀ nondimensional_force temperature : α, Polymers.C.physics_single_chain_ufjc_morse_thermodynamics_isotensional_asymptotic_reduced_legendre_nondimensional_helmholtz_free_energy_per_link
          ℓ m (k * Elem.powi ℓ 2 / BOLTZMANN_CONSTANT / temperature) (ε / BOLTZMANN_CONSTANT / temperature) nondimensional_force temperature =
        s.nondimensional_helmholtz_free_energy_per_link nondimensional_force temperature) ∧
      (∀ nondimensional_force temperature : α, Polymers.C.physics_single_chain_ufjc_morse_thermodynamics_isotensional_asymptotic_reduced_legendre_nondimensional_relative_helmholtz_free_energy
          N (k * Elem.powi ℓ 2 / BOLTZMANN_CONSTANT / temperature) (ε / BOLTZMANN_CONSTANT / temperature) nondimensional_force =
        s.nondimensional_relative_helmholtz_free_energy nondimensional_force temperature) ∧
      (∀ nondimensional_force temperature : α, Polymers.C.physics_single_chain_ufjc_morse_thermodynamics_isotensional_asymptotic_reduced_legendre_nondimensional_relative_helmholtz_free_energy_per_link
          (k * Elem.powi ℓ 2 / BOLTZMANN_CONSTANT / temperature) (ε / BOLTZMANN_CONSTANT / temperature) nondimensional_force =
        s.nondimensional_relative_helmholtz_free_energy_per_link nondimensional_force temperature) := by
  exact ⟨fun _ _ => rfl, fun _ _ => rfl, fun _ _ => rfl, fun _ _ => rfl, fun _ _ => rfl, fun _ _ => rfl, fun _ _ => rfl, fun _ _ => rfl⟩

/-- C58: the functions exported by `src/physics/single_chain/ufjc/morse/thermodynamics/isometric/asymptotic/legendre/ex.rs` against the methods of `MORSEFJC::init(number_of_links, link_length, hinge_mass, link_stiffness, link_energy).thermodynamics.isometric.asymptotic.legendre`. -/
theorem C58_c_morse_isometric_asymptotic_legendre (N : Nat) (ℓ : α) (m : α) (k : α) (ε : α) :
    let s := (Polymers.ufjc.morse.MORSEFJC.init N ℓ m k ε).thermodynamics.isometric.asymptotic.legendre
    (∀ end_to_end_length temperature : α, Polymers.C.physics_single_chain_ufjc_morse_thermodynamics_isometric_asymptotic_legendre_force
          N ℓ k ε end_to_end_length temperature =
        s.force end_to_end_length temperature) ∧
      (∀ nondimensional_end_to_end_length_per_link temperature : α, Polymers.C.physics_single_chain_ufjc_morse_thermodynamics_isometric_asymptotic_legendre_nondimensional_force
          (k * Elem.powi ℓ 2 / BOLTZMANN_CONSTANT / temperature) (ε / BOLTZMANN_CONSTANT / temperature) nondimensional_end_to_end_length_per_link =
        s.nondimensional_force nondimensional_end_to_end_length_per_link temperature) ∧
      (∀ end_to_end_length temperature : α, Polymers.C.physics_single_chain_ufjc_morse_thermodynamics_isometric_asymptotic_legendre_helmholtz_free_energy
          N ℓ m k ε end_to_end_length temperature =
        s.helmholtz_free_energy end_to_end_length temperature) ∧
      (∀ end_to_end_length temperature : α, Polymers.C.physics_single_chain_ufjc_morse_thermodynamics_isometric_asymptotic_legendre_helmholtz_free_energy_per_link
          N ℓ m k ε end_to_end_length temperature =
        s.helmholtz_free_energy_per_link end_to_end_length temperature) ∧
      (∀ end_to_end_length temperature : α, Polymers.C.physics_single_chain_ufjc_morse_thermodynamics_isometric_asymptotic_legendre_relative_helmholtz_free_energy
          N ℓ k ε end_to_end_length temperature =
        s.relative_helmholtz_free_energy end_to_end_length temperature) ∧
      (∀ end_to_end_length temperature : α, Polymers.C.physics_single_chain_ufjc_morse_thermodynamics_isometric_asymptotic_legendre_relative_helmholtz_free_energy_per_link
          N ℓ k ε end_to_end_length temperature =
        s.relative_helmholtz_free_energy_per_link end_to_end_length temperature) ∧
      (∀ nondimensional_end_to_end_length_per_link temperature : α, Polymers.C.physics_single_chain_ufjc_morse_thermodynamics_isometric_asymptotic_legendre_nondimensional_helmholtz_free_energy
          N ℓ m (k * Elem.powi ℓ 2 / BOLTZMANN_CONSTANT / temperature) (ε / BOLTZMANN_CONSTANT / temperature) nondimensional_end_to_end_length_per_link temperature =
        s.nondimensional_helmholtz_free_energy nondimensional_end_to_end_length_per_link temperature) ∧
      (∀ nondimensional_end_to_end_length_per_link temperature : α, Polymers.C.physics_single_chain_ufjc_morse_thermodynamics_isometric_asymptotic_legendre_nondimensional_helmholtz_free_energy_per_link
          N ℓ m (k * Elem.powi ℓ 2 / BOLTZMANN_CONSTANT / temperature) (ε / BOLTZMANN_CONSTANT / temperature) nondimensional_end_to_end_length_per_link temperature =
        s.nondimensional_helmholtz_free_energy_per_link nondimensional_end_to_end_length_per_link temperature) ∧
      (∀ nondimensional_end_to_end_length_per_link temperature : α, Polymers.C.physics_single_chain_ufjc_morse_thermodynamics_isometric_asymptotic_legendre_nondimensional_relative_helmholtz_free_energy
          N (k * Elem.powi ℓ 2 / BOLTZMANN_CONSTANT / temperature) (ε / BOLTZMANN_CONSTANT / temperature) nondimensional_end_to_end_length_per_link =
        s.nondimensional_relative_helmholtz_free_energy nondimensional_end_to_end_length_per_link temperature) ∧
      (∀ nondimensional_end_to_end_length_per_link temperature : α, Polymers.C.physics_single_chain_ufjc_morse_thermodynamics_isometric_asymptotic_legendre_nondimensional_relative_helmholtz_free_energy_per_link
          (k * Elem.powi ℓ 2 / BOLTZMANN_CONSTANT / temperature) (ε / BOLTZMANN_CONSTANT / temperature) nondimensional_end_to_end_length_per_link =
        s.nondimensional_relative_helmholtz_free_energy_per_link nondimensional_end_to_end_length_per_link temperature) := by
  exact ⟨fun _ _ => rfl, fun _ _ => rfl, fun _ _ => rfl, fun _ _ => rfl, fun _ _ => rfl, fun _ _ => rfl, fun _ _ => rfl, fun _ _ => rfl, fun _ _ => rfl, fun _ _ => rfl⟩

/-- C58: the functions exported by `src/physics/single_chain/ufjc/morse/thermodynamics/isotensional/asymptotic/legendre/ex.rs` against the methods of `MORSEFJC::init(number_of_links, link_length, hinge_mass, link_stiffness, link_energy).thermodynamics.isotensional.asymptotic.legendre`. -/
theorem C58_c_morse_isotensional_asymptotic_legendre (N : Nat) (ℓ : α) (m : α) (k : α) (ε : α) :
    let s := (Polymers.ufjc.morse.MORSEFJC.init N ℓ m k ε).thermodynamics.isotensional.asymptotic.legendre
    (∀ force temperature : α, Polymers.C.physics_single_chain_ufjc_morse_thermodynamics_isotensional_asymptotic_legendre_helmholtz_free_energy
          N ℓ m k ε force temperature =
        s.helmholtz_free_energy force temperature) ∧
      (∀ force temperature : α, Polymers.C.physics_single_chain_ufjc_morse_thermodynamics_isotensional_asymptotic_legendre_helmholtz_free_energy_per_link
          ℓ m k ε force temperature =
        s.helmholtz_free_energy_per_link force temperature) ∧
      (∀ force temperature : α, Polymers.C.physics_single_chain_ufjc_morse_thermodynamics_isotensional_asymptotic_legendre_relative_helmholtz_free_energy
          N ℓ k ε force temperature =
        s.relative_helmholtz_free_energy force temperature) ∧
      (∀ force temperature : α, Polymers.C.physics_single_chain_ufjc_morse_thermodynamics_isotensional_asymptotic_legendre_relative_helmholtz_free_energy_per_link
          ℓ k ε force temperature =
        s.relative_helmholtz_free_energy_per_link force temperature) ∧
      (∀ nondimensional_force temperature : α, Polymers.C.physics_single_chain_ufjc_morse_thermodynamics_isotensional_asymptotic_legendre_nondimensional_helmholtz_free_energy
          N ℓ m (k * Elem.powi ℓ 2 / BOLTZMANN_CONSTANT / temperature) (ε / BOLTZMANN_CONSTANT / temperature) nondimensional_force temperature =
        s.nondimensional_helmholtz_free_energy nondimensional_force temperature) ∧
      (∀ nondimensional_force temperature : α, Polymers.C.physics_single_chain_ufjc_morse_thermodynamics_isotensional_asymptotic_legendre_nondimensional_helmholtz_free_energy_per_link
          ℓ m (k * Elem.powi ℓ 2 / BOLTZMANN_CONSTANT / temperature) (ε / BOLTZMANN_CONSTANT / temperature) nondimensional_force temperature =
        s.nondimensional_helmholtz_free_energy_per_link nondimensional_force temperature) ∧
      (∀ nondimensional_force temperature : α, Polymers.C.physics_single_chain_ufjc_morse_thermodynamics_isotensional_asymptotic_legendre_nondimensional_relative_helmholtz_free_energy
          N (k * Elem.powi ℓ 2 / BOLTZMANN_CONSTANT / temperature) (ε / BOLTZMANN_CONSTANT / temperature) nondimensional_force =
        s.nondimensional_relative_helmholtz_free_energy nondimensional_force temperature) ∧
      (∀ nondimensional_force temperature : α, Polymers.C.physics_single_chain_ufjc_morse_thermodynamics_isotensional_asymptotic_legendre_nondimensional_relative_helmholtz_free_energy_per_link
          (k * Elem.powi ℓ 2 / BOLTZMANN_CONSTANT / temperature) (ε / BOLTZMANN_CONSTANT / temperature) nondimensional_force =
        s.nondimensional_relative_helmholtz_free_energy_per_link nondimensional_force temperature) := by
  exact ⟨fun _ _ => rfl, fun _ _ => rfl, fun _ _ => rfl, fun _ _ => rfl, fun _ _ => rfl, fun _ _ => rfl, fun _ _ => rfl, fun _ _ => rfl⟩

/-- C58: the functions exported by `src/physics/single_chain/ufjc/morse/thermodynamics/isotensional/asymptotic/reduced/ex.rs` against the methods of `MORSEFJC::init(number_of_links, link_length, hinge_mass, link_stiffness, link_energy).thermodynamics.isotensional.asymptotic.reduced`. -/
theorem C58_c_morse_isotensional_asymptotic_reduced (N : Nat) (ℓ : α) (m : α) (k : α) (ε : α) :
    let s := (Polymers.ufjc.morse.MORSEFJC.init N ℓ m k ε).thermodynamics.isotensional.asymptotic.reduced
    (∀ force temperature : α, Polymers.C.physics_single_chain_ufjc_morse_thermodynamics_isotensional_asymptotic_reduced_end_to_end_length
          N ℓ k ε force temperature =
        s.end_to_end_length force temperature) ∧
      (∀ force temperature : α, Polymers.C.physics_single_chain_ufjc_morse_thermodynamics_isotensional_asymptotic_reduced_end_to_end_length_per_link
          ℓ k ε force temperature =
        s.end_to_end_length_per_link force temperature) ∧
      (∀ nondimensional_force temperature : α, Polymers.C.physics_single_chain_ufjc_morse_thermodynamics_isotensional_asymptotic_reduced_nondimensional_end_to_end_length
          N (k * Elem.powi ℓ 2 / BOLTZMANN_CONSTANT / temperature) (ε / BOLTZMANN_CONSTANT / temperature) nondimensional_force =
        s.nondimensional_end_to_end_length nondimensional_force temperature) ∧
      (∀ nondimensional_force temperature : α, Polymers.C.physics_single_chain_ufjc_morse_thermodynamics_isotensional_asymptotic_reduced_nondimensional_end_to_end_length_per_link
          (k * Elem.powi ℓ 2 / BOLTZMANN_CONSTANT / temperature) (ε / BOLTZMANN_CONSTANT / temperature) nondimensional_force =
        s.nondimensional_end_to_end_length_per_link nondimensional_force temperature) ∧
      (∀ force temperature : α, Polymers.C.physics_single_chain_ufjc_morse_thermodynamics_isotensional_asymptotic_reduced_gibbs_free_energy
          N ℓ m k ε force temperature =
        s.gibbs_free_energy force temperature) ∧
      (∀ force temperature : α, Polymers.C.physics_single_chain_ufjc_morse_thermodynamics_isotensional_asymptotic_reduced_gibbs_free_energy_per_link
          ℓ m k ε force temperature =
        s.gibbs_free_energy_per_link force temperature) ∧
      (∀ force temperature : α, Polymers.C.physics_single_chain_ufjc_morse_thermodynamics_isotensional_asymptotic_reduced_relative_gibbs_free_energy
          N ℓ k ε force temperature =
        s.relative_gibbs_free_energy force temperature) ∧
      (∀ force temperature : α, Polymers.C.physics_single_chain_ufjc_morse_thermodynamics_isotensional_asymptotic_reduced_relative_gibbs_free_energy_per_link
          ℓ k ε force temperature =
        s.relative_gibbs_free_energy_per_link force temperature) ∧
      (∀ nondimensional_force temperature : α, Polymers.C.physics_single_chain_ufjc_morse_thermodynamics_isotensional_asymptotic_reduced_nondimensional_gibbs_free_energy
          N ℓ m (k * Elem.powi ℓ 2 / BOLTZMANN_CONSTANT / temperature) (ε / BOLTZMANN_CONSTANT / temperature) nondimensional_force temperature =
        s.nondimensional_gibbs_free_energy nondimensional_force temperature) ∧
      (∀ nondimensional_force temperature : α, Polymers.C.physics_single_chain_ufjc_morse_thermodynamics_isotensional_asymptotic_reduced_nondimensional_gibbs_free_energy_per_link
          ℓ m (k * Elem.powi ℓ 2 / BOLTZMANN_CONSTANT / temperature) (ε / BOLTZMANN_CONSTANT / temperature) nondimensional_force temperature =
        s.nondimensional_gibbs_free_energy_per_link nondimensional_force temperature) ∧
      (∀ nondimensional_force temperature : α, Polymers.C.physics_single_chain_ufjc_morse_thermodynamics_isotensional_asymptotic_reduced_nondimensional_relative_gibbs_free_energy
          N (k * Elem.powi ℓ 2 / BOLTZMANN_CONSTANT / temperature) (ε / BOLTZMANN_CONSTANT / temperature) nondimensional_force =
        s.nondimensional_relative_gibbs_free_energy nondimensional_force temperature) ∧
      (∀ nondimensional_force temperature : α, Polymers.C.physics_single_chain_ufjc_morse_thermodynamics_isotensional_asymptotic_reduced_nondimensional_relative_gibbs_free_energy_per_link
          (k * Elem.powi ℓ 2 / BOLTZMANN_CONSTANT / temperature) (ε / BOLTZMANN_CONSTANT / temperature) nondimensional_force =
        s.nondimensional_relative_gibbs_free_energy_per_link nondimensional_force temperature) := by
  exact ⟨fun _ _ => rfl, fun _ _ => rfl, fun _ _ => rfl, fun _ _ => rfl, fun _ _ => rfl, fun _ _ => rfl, fun _ _ => rfl, fun _ _ => rfl, fun _ _ => rfl, fun _ _ => rfl, fun _ _ => rfl, fun _ _ => rfl⟩

/-- C58: the functions exported by `src/physics/single_chain/ufjc/morse/thermodynamics/isotensional/asymptotic/ex.rs` against the methods of `MORSEFJC::init(number_of_links, link_length, hinge_mass, link_stiffness, link_energy).thermodynamics.isotensional.asymptotic`. -/
theorem C58_c_morse_isotensional_asymptotic (N : Nat) (ℓ : α) (m : α) (k : α) (ε : α) :
    let s := (Polymers.ufjc.morse.MORSEFJC.init N ℓ m k ε).thermodynamics.isotensional.asymptotic
    (∀ force temperature : α, Polymers.C.physics_single_chain_ufjc_morse_thermodynamics_isotensional_asymptotic_end_to_end_length
          N ℓ k ε force temperature =
        s.end_to_end_length force temperature) ∧
      (∀ force temperature : α, Polymers.C.physics_single_chain_ufjc_morse_thermodynamics_isotensional_asymptotic_end_to_end_length_per_link
          ℓ k ε force temperature =
        s.end_to_end_length_per_link force temperature) ∧
      (∀ nondimensional_force temperature : α, Polymers.C.physics_single_chain_ufjc_morse_thermodynamics_isotensional_asymptotic_nondimensional_end_to_end_length
          N (k * Elem.powi ℓ 2 / BOLTZMANN_CONSTANT / temperature) (ε / BOLTZMANN_CONSTANT / temperature) nondimensional_force =
        s.nondimensional_end_to_end_length nondimensional_force temperature) ∧
      (∀ nondimensional_force temperature : α, Polymers.C.physics_single_chain_ufjc_morse_thermodynamics_isotensional_asymptotic_nondimensional_end_to_end_length_per_link
          (k * Elem.powi ℓ 2 / BOLTZMANN_CONSTANT / temperature) (ε / BOLTZMANN_CONSTANT / temperature) nondimensional_force =
        s.nondimensional_end_to_end_length_per_link nondimensional_force temperature) ∧
      (∀ force temperature : α, Polymers.C.physics_single_chain_ufjc_morse_thermodynamics_isotensional_asymptotic_gibbs_free_energy
          N ℓ m k ε force temperature =
        s.gibbs_free_energy force temperature) ∧
      (∀ force temperature : α, Polymers.C.physics_single_chain_ufjc_morse_thermodynamics_isotensional_asymptotic_gibbs_free_energy_per_link
          ℓ m k ε force temperature =
        s.gibbs_free_energy_per_link force temperature) ∧
      (∀ force temperature : α, Polymers.C.physics_single_chain_ufjc_morse_thermodynamics_isotensional_asymptotic_relative_gibbs_free_energy
          N ℓ k ε force temperature =
        s.relative_gibbs_free_energy force temperature) ∧
      (∀ force temperature : α, Polymers.C.physics_single_chain_ufjc_morse_thermodynamics_isotensional_asymptotic_relative_gibbs_free_energy_per_link
          ℓ k ε force temperature =
        s.relative_gibbs_free_energy_per_link force temperature) ∧
      (∀ nondimensional_force temperature : α, Polymers.C.physics_single_chain_ufjc_morse_thermodynamics_isotensional_asymptotic_nondimensional_gibbs_free_energy
          N ℓ m (k * Elem.powi ℓ 2 / BOLTZMANN_CONSTANT / temperature) (ε / BOLTZMANN_CONSTANT / temperature) nondimensional_force temperature =
        s.nondimensional_gibbs_free_energy nondimensional_force temperature) ∧
      (∀ nondimensional_force temperature : α, Polymers.C.physics_single_chain_ufjc_morse_thermodynamics_isotensional_asymptotic_nondimensional_gibbs_free_energy_per_link
          ℓ m (k * Elem.powi ℓ 2 / BOLTZMANN_CONSTANT / temperature) (ε / BOLTZMANN_CONSTANT / temperature) nondimensional_force temperature =
        s.nondimensional_gibbs_free_energy_per_link nondimensional_force temperature) ∧
      (∀ nondimensional_force temperature : α, Polymers.C.physics_single_chain_ufjc_morse_thermodynamics_isotensional_asymptotic_nondimensional_relative_gibbs_free_energy
          N (k * Elem.powi ℓ 2 / BOLTZMANN_CONSTANT / temperature) (ε / BOLTZMANN_CONSTANT / temperature) nondimensional_force =
        s.nondimensional_relative_gibbs_free_energy nondimensional_force temperature) ∧
      (∀ nondimensional_force temperature : α, Polymers.C.physics_single_chain_ufjc_morse_thermodynamics_isotensional_asymptotic_nondimensional_relative_gibbs_free_energy_per_link
          (k * Elem.powi ℓ 2 / BOLTZMANN_CONSTANT / temperature) (ε / BOLTZMANN_CONSTANT / temperature) nondimensional_force =
        s.nondimensional_relative_gibbs_free_energy_per_link nondimensional_force temperature) := by
  exact ⟨fun _ _ => rfl, fun _ _ => rfl, fun _ _ => rfl, fun _ _ => rfl, fun _ _ => rfl, fun _ _ => rfl, fun _ _ => rfl, fun _ _ => rfl, fun _ _ => rfl, fun _ _ => rfl, fun _ _ => rfl, fun _ _ => rfl⟩

/-- C58: the functions exported by `src/physics/single_chain/ufjc/morse/thermodynamics/isotensional/legendre/ex.rs` against the methods of `MORSEFJC::init(number_of_links, link_length, hinge_mass, link_stiffness, link_energy).thermodynamics.isotensional.legendre`. -/
theorem C58_c_morse_isotensional_legendre (N : Nat) (ℓ : α) (m : α) (k : α) (ε : α) :
    let s := (Polymers.ufjc.morse.MORSEFJC.init N ℓ m k ε).thermodynamics.isotensional.legendre
    (∀ force temperature : α, Polymers.C.physics_single_chain_ufjc_morse_thermodynamics_isotensional_legendre_helmholtz_free_energy
          N ℓ m k ε force temperature =
        s.helmholtz_free_energy force temperature) ∧
      (∀ force temperature : α, Polymers.C.physics_single_chain_ufjc_morse_thermodynamics_isotensional_legendre_helmholtz_free_energy_per_link
          ℓ m k ε force temperature =
        s.helmholtz_free_energy_per_link force temperature) ∧
      (∀ force temperature : α, Polymers.C.physics_single_chain_ufjc_morse_thermodynamics_isotensional_legendre_relative_helmholtz_free_energy
          N ℓ k ε force temperature =
        s.relative_helmholtz_free_energy force temperature) ∧
      (∀ force temperature : α, Polymers.C.physics_single_chain_ufjc_morse_thermodynamics_isotensional_legendre_relative_helmholtz_free_energy_per_link
          ℓ k ε force temperature =
        s.relative_helmholtz_free_energy_per_link force temperature) ∧
      (∀ nondimensional_force temperature : α, Polymers.C.physics_single_chain_ufjc_morse_thermodynamics_isotensional_legendre_nondimensional_helmholtz_free_energy
          N ℓ m (k * Elem.powi ℓ 2 / BOLTZMANN_CONSTANT / temperature) (ε / BOLTZMANN_CONSTANT / temperature) nondimensional_force temperature =
        s.nondimensional_helmholtz_free_energy nondimensional_force temperature) ∧
      (∀ nondimensional_force temperature : α, Polymers.C.physics_single_chain_ufjc_morse_thermodynamics_isotensional_legendre_nondimensional_helmholtz_free_energy_per_link
          ℓ m (k * Elem.powi ℓ 2 / BOLTZMANN_CONSTANT / temperature) (ε / BOLTZMANN_CONSTANT / temperature) nondimensional_force temperature =
        s.nondimensional_helmholtz_free_energy_per_link nondimensional_force temperature) ∧
      (∀ nondimensional_force temperature : α, Polymers.C.physics_single_chain_ufjc_morse_thermodynamics_isotensional_legendre_nondimensional_relative_helmholtz_free_energy
          N (k * Elem.powi ℓ 2 / BOLTZMANN_CONSTANT / temperature) (ε / BOLTZMANN_CONSTANT / temperature) nondimensional_force =
        s.nondimensional_relative_helmholtz_free_energy nondimensional_force temperature) ∧
      (∀ nondimensional_force temperature : α, Polymers.C.physics_single_chain_ufjc_morse_thermodynamics_isotensional_legendre_nondimensional_relative_helmholtz_free_energy_per_link
          (k * Elem.powi ℓ 2 / BOLTZMANN_CONSTANT / temperature) (ε / BOLTZMANN_CONSTANT / temperature) nondimensional_force =
        s.nondimensional_relative_helmholtz_free_energy_per_link nondimensional_force temperature) := by
  exact ⟨fun _ _ => rfl, fun _ _ => rfl, fun _ _ => rfl, fun _ _ => rfl, fun _ _ => rfl, fun _ _ => rfl, fun _ _ => rfl, fun _ _ => rfl⟩

/-- C58: the functions exported by `src/physics/single_chain/ufjc/morse/thermodynamics/isotensional/ex.rs` against the methods of `MORSEFJC::init(number_of_links, link_length, hinge_mass, link_stiffness, link_energy).thermodynamics.isotensional`. -/
theorem C58_c_morse_isotensional (N : Nat) (ℓ : α) (m : α) (k : α) (ε : α) :
    let s := (Polymers.ufjc.morse.MORSEFJC.init N ℓ m k ε).thermodynamics.isotensional
    (∀ force temperature : α, Polymers.C.physics_single_chain_ufjc_morse_thermodynamics_isotensional_end_to_end_length
          N ℓ k ε force temperature =
        s.end_to_end_length force temperature) ∧
      (∀ force temperature : α, Polymers.C.physics_single_chain_ufjc_morse_thermodynamics_isotensional_end_to_end_length_per_link
          ℓ k ε force temperature =
        s.end_to_end_length_per_link force temperature) ∧
      (∀ nondimensional_force temperature : α, Polymers.C.physics_single_chain_ufjc_morse_thermodynamics_isotensional_nondimensional_end_to_end_length
          N (k * Elem.powi ℓ 2 / BOLTZMANN_CONSTANT / temperature) (ε / BOLTZMANN_CONSTANT / temperature) nondimensional_force =
        s.nondimensional_end_to_end_length nondimensional_force temperature) ∧
      (∀ nondimensional_force temperature : α, Polymers.C.physics_single_chain_ufjc_morse_thermodynamics_isotensional_nondimensional_end_to_end_length_per_link
          (k * Elem.powi ℓ 2 / BOLTZMANN_CONSTANT / temperature) (ε / BOLTZMANN_CONSTANT / temperature) nondimensional_force =
        s.nondimensional_end_to_end_length_per_link nondimensional_force temperature) ∧
      (∀ force temperature : α, Polymers.C.physics_single_chain_ufjc_morse_thermodynamics_isotensional_gibbs_free_energy
          N ℓ m k ε force temperature =
        s.gibbs_free_energy force temperature) ∧
      (∀ force temperature : α, Polymers.C.physics_single_chain_ufjc_morse_thermodynamics_isotensional_gibbs_free_energy_per_link
          ℓ m k ε force temperature =
        s.gibbs_free_energy_per_link force temperature) ∧
      (∀ force temperature : α, Polymers.C.physics_single_chain_ufjc_morse_thermodynamics_isotensional_relative_gibbs_free_energy
          N ℓ k ε force temperature =
        s.relative_gibbs_free_energy force temperature) ∧
      (∀ force temperature : α, Polymers.C.physics_single_chain_ufjc_morse_thermodynamics_isotensional_relative_gibbs_free_energy_per_link
          ℓ k ε force temperature =
        s.relative_gibbs_free_energy_per_link force temperature) ∧
      (∀ nondimensional_force temperature : α, Polymers.C.physics_single_chain_ufjc_morse_thermodynamics_isotensional_nondimensional_gibbs_free_energy
          N ℓ m (k * Elem.powi ℓ 2 / BOLTZMANN_CONSTANT / temperature) (ε / BOLTZMANN_CONSTANT / temperature) nondimensional_force temperature =
        s.nondimensional_gibbs_free_energy nondimensional_force temperature) ∧
      (∀ nondimensional_force temperature : α, Polymers.C.physics_single_chain_ufjc_morse_thermodynamics_isotensional_nondimensional_gibbs_free_energy_per_link
          ℓ m (k * Elem.powi ℓ 2 / BOLTZMANN_CONSTANT / temperature) (ε / BOLTZMANN_CONSTANT / temperature) nondimensional_force temperature =
        s.nondimensional_gibbs_free_energy_per_link nondimensional_force temperature) ∧
      (∀ nondimensional_force temperature : α, Polymers.C.physics_single_chain_ufjc_morse_thermodynamics_isotensional_nondimensional_relative_gibbs_free_energy
          N (k * Elem.powi ℓ 2 / BOLTZMANN_CONSTANT / temperature) (ε / BOLTZMANN_CONSTANT / temperature) nondimensional_force =
        s.nondimensional_relative_gibbs_free_energy nondimensional_force temperature) ∧
      (∀ nondimensional_force temperature : α, Polymers.C.physics_single_chain_ufjc_morse_thermodynamics_isotensional_nondimensional_relative_gibbs_free_energy_per_link
          (k * Elem.powi ℓ 2 / BOLTZMANN_CONSTANT / temperature) (ε / BOLTZMANN_CONSTANT / temperature) nondimensional_force =
        s.nondimensional_relative_gibbs_free_energy_per_link nondimensional_force temperature) := by
  exact ⟨fun _ _ => rfl, fun _ _ => rfl, fun _ _ => rfl, fun _ _ => rfl, fun _ _ => rfl, fun _ _ => rfl, fun _ _ => rfl, fun _ _ => rfl, fun _ _ => rfl, fun _ _ => rfl, fun _ _ => rfl, fun _ _ => rfl⟩

end Polymers.Props
