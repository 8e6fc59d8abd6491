/- Generated by tools/gen_bindings.py ; do not edit by hand. -/
import Verif.Model.CFjc

/-! Property C58.  Over any number type, so in particular over floating-point numbers. -/

namespace Polymers.Props

set_option linter.unusedSectionVars false

variable {α : Type} [Add α] [Sub α] [Mul α] [Div α] [Neg α] [OfScientific α] [NatCast α] [Elem α]

/-- C58: the functions exported by `src/physics/single_chain/fjc/thermodynamics/modified_canonical/asymptotic/strong_potential/ex.rs` against the methods of `FJC::init(number_of_links, link_length, hinge_mass).thermodynamics.modified_canonical.asymptotic.strong_potential`. -/
theorem C58_c_fjc_modified_canonical_asymptotic_strong_potential (N : Nat) (ℓ : α) (m : α) :
    let s := (Polymers.fjc.FJC.init N ℓ m).thermodynamics.modified_canonical.asymptotic.strong_potential
    (∀ potential_distance potential_stiffness temperature : α, Polymers.C.physics_single_chain_fjc_thermodynamics_modified_canonical_asymptotic_strong_potential_force
          N ℓ potential_distance potential_stiffness temperature =
        s.force potential_distance potential_stiffness temperature) ∧
      (∀ nondimensional_potential_distance nondimensional_potential_stiffness : α, Polymers.C.physics_single_chain_fjc_thermodynamics_modified_canonical_asymptotic_strong_potential_nondimensional_force
          N nondimensional_potential_distance nondimensional_potential_stiffness =
        s.nondimensional_force nondimensional_potential_distance nondimensional_potential_stiffness) ∧
      (∀ potential_distance potential_stiffness temperature : α, Polymers.C.physics_single_chain_fjc_thermodynamics_modified_canonical_asymptotic_strong_potential_helmholtz_free_energy
          N ℓ m potential_distance potential_stiffness temperature =
        s.helmholtz_free_energy potential_distance potential_stiffness temperature) ∧
      (∀ potential_distance potential_stiffness temperature : α, Polymers.C.physics_single_chain_fjc_thermodynamics_modified_canonical_asymptotic_strong_potential_helmholtz_free_energy_per_link
          N ℓ m potential_distance potential_stiffness temperature =
        s.helmholtz_free_energy_per_link potential_distance potential_stiffness temperature) ∧
      (∀ potential_distance potential_stiffness temperature : α, Polymers.C.physics_single_chain_fjc_thermodynamics_modified_canonical_asymptotic_strong_potential_relative_helmholtz_free_energy
          N ℓ potential_distance potential_stiffness temperature =
        s.relative_helmholtz_free_energy potential_distance potential_stiffness temperature) ∧
      (∀ potential_distance potential_stiffness temperature : α, Polymers.C.physics_single_chain_fjc_thermodynamics_modified_canonical_asymptotic_strong_potential_relative_helmholtz_free_energy_per_link
          N ℓ potential_distance potential_stiffness temperature =
        s.relative_helmholtz_free_energy_per_link potential_distance potential_stiffness temperature) ∧
      (∀ nondimensional_potential_distance nondimensional_potential_stiffness temperature : α, Polymers.C.physics_single_chain_fjc_thermodynamics_modified_canonical_asymptotic_strong_potential_nondimensional_helmholtz_free_energy
          N ℓ m nondimensional_potential_distance nondimensional_potential_stiffness temperature =
        s.nondimensional_helmholtz_free_energy nondimensional_potential_distance nondimensional_potential_stiffness temperature) ∧
      (∀ nondimensional_potential_distance nondimensional_potential_stiffness temperature : α, Polymers.C.physics_single_chain_fjc_thermodynamics_modified_canonical_asymptotic_strong_potential_nondimensional_helmholtz_free_energy_per_link
          N ℓ m nondimensional_potential_distance nondimensional_potential_stiffness temperature =
        s.nondimensional_helmholtz_free_energy_per_link nondimensional_potential_distance nondimensional_potential_stiffness temperature) ∧
      (∀ nondimensional_potential_distance nondimensional_potential_stiffness : α, Polymers.C.physics_single_chain_fjc_thermodynamics_modified_canonical_asymptotic_strong_potential_nondimensional_relative_helmholtz_free_energy
          N nondimensional_potential_distance nondimensional_potential_stiffness =
        s.nondimensional_relative_helmholtz_free_energy nondimensional_potential_distance nondimensional_potential_stiffness) ∧
      (∀ nondimensional_potential_distance nondimensional_potential_stiffness : α, Polymers.C.physics_single_chain_fjc_thermodynamics_modified_canonical_asymptotic_strong_potential_nondimensional_relative_helmholtz_free_energy_per_link
          N nondimensional_potential_distance nondimensional_potential_stiffness =
        s.nondimensional_relative_helmholtz_free_energy_per_link nondimensional_potential_distance nondimensional_potential_stiffness) := by
  exact ⟨fun _ _ _ => rfl, fun _ _ => rfl, fun _ _ _ => rfl, fun _ _ _ => rfl, fun _ _ _ => rfl, fun _ _ _ => rfl, fun _ _ _ => rfl, fun _ _ _ => rfl, fun _ _ => rfl, fun _ _ => rfl⟩

/-- C58: the functions exported by `src/physics/single_chain/fjc/thermodynamics/modified_canonical/asymptotic/weak_potential/ex.rs` against the methods of `FJC::init(number_of_links, link_length, hinge_mass).thermodynamics.modified_canonical.asymptotic.weak_potential`. -/
theorem C58_c_fjc_modified_canonical_asymptotic_weak_potential (N : Nat) (ℓ : α) (m : α) :
    let s := (Polymers.fjc.FJC.init N ℓ m).thermodynamics.modified_canonical.asymptotic.weak_potential
    (∀ potential_distance potential_stiffness temperature : α, Polymers.C.physics_single_chain_fjc_thermodynamics_modified_canonical_asymptotic_weak_potential_end_to_end_length
          N ℓ potential_distance potential_stiffness temperature =
        s.end_to_end_length potential_distance potential_stiffness temperature) ∧
      (∀ potential_distance potential_stiffness temperature : α, Polymers.C.physics_single_chain_fjc_thermodynamics_modified_canonical_asymptotic_weak_potential_end_to_end_length_per_link
          N ℓ potential_distance potential_stiffness temperature =
        s.end_to_end_length_per_link potential_distance potential_stiffness temperature) ∧
      (∀ nondimensional_potential_distance nondimensional_potential_stiffness : α, Polymers.C.physics_single_chain_fjc_thermodynamics_modified_canonical_asymptotic_weak_potential_nondimensional_end_to_end_length
          N nondimensional_potential_distance nondimensional_potential_stiffness =
        s.nondimensional_end_to_end_length nondimensional_potential_distance nondimensional_potential_stiffness) ∧
      (∀ nondimensional_potential_distance nondimensional_potential_stiffness : α, Polymers.C.physics_single_chain_fjc_thermodynamics_modified_canonical_asymptotic_weak_potential_nondimensional_end_to_end_length_per_link
          N nondimensional_potential_distance nondimensional_potential_stiffness =
        s.nondimensional_end_to_end_length_per_link nondimensional_potential_distance nondimensional_potential_stiffness) ∧
      (∀ potential_distance potential_stiffness : α, Polymers.C.physics_single_chain_fjc_thermodynamics_modified_canonical_asymptotic_weak_potential_force
          potential_distance potential_stiffness =
        s.force potential_distance potential_stiffness) ∧
      (∀ nondimensional_potential_distance nondimensional_potential_stiffness : α, Polymers.C.physics_single_chain_fjc_thermodynamics_modified_canonical_asymptotic_weak_potential_nondimensional_force
          N nondimensional_potential_distance nondimensional_potential_stiffness =
        s.nondimensional_force nondimensional_potential_distance nondimensional_potential_stiffness) ∧
      (∀ potential_distance potential_stiffness temperature : α, Polymers.C.physics_single_chain_fjc_thermodynamics_modified_canonical_asymptotic_weak_potential_gibbs_free_energy
          N ℓ m potential_distance potential_stiffness temperature =
        s.gibbs_free_energy potential_distance potential_stiffness temperature) ∧
      (∀ potential_distance potential_stiffness temperature : α, Polymers.C.physics_single_chain_fjc_thermodynamics_modified_canonical_asymptotic_weak_potential_gibbs_free_energy_per_link
          N ℓ m potential_distance potential_stiffness temperature =
        s.gibbs_free_energy_per_link potential_distance potential_stiffness temperature) ∧
      (∀ potential_distance potential_stiffness temperature : α, Polymers.C.physics_single_chain_fjc_thermodynamics_modified_canonical_asymptotic_weak_potential_relative_gibbs_free_energy
          N ℓ potential_distance potential_stiffness temperature =
        s.relative_gibbs_free_energy potential_distance potential_stiffness temperature) ∧
      (∀ potential_distance potential_stiffness temperature : α, Polymers.C.physics_single_chain_fjc_thermodynamics_modified_canonical_asymptotic_weak_potential_relative_gibbs_free_energy_per_link
          N ℓ potential_distance potential_stiffness temperature =
        s.relative_gibbs_free_energy_per_link potential_distance potential_stiffness temperature) ∧
      (∀ nondimensional_potential_distance nondimensional_potential_stiffness temperature : α, Polymers.C.physics_single_chain_fjc_thermodynamics_modified_canonical_asymptotic_weak_potential_nondimensional_gibbs_free_energy
          N ℓ m nondimensional_potential_distance nondimensional_potential_stiffness temperature =
        s.nondimensional_gibbs_free_energy nondimensional_potential_distance nondimensional_potential_stiffness temperature) ∧
      (∀ nondimensional_potential_distance nondimensional_potential_stiffness temperature : α, Polymers.C.physics_single_chain_fjc_thermodynamics_modified_canonical_asymptotic_weak_potential_nondimensional_gibbs_free_energy_per_link
          N ℓ m nondimensional_potential_distance nondimensional_potential_stiffness temperature =
        s.nondimensional_gibbs_free_energy_per_link nondimensional_potential_distance nondimensional_potential_stiffness temperature) ∧
      (∀ nondimensional_potential_distance nondimensional_potential_stiffness : α, Polymers.C.physics_single_chain_fjc_thermodynamics_modified_canonical_asymptotic_weak_potential_nondimensional_relative_gibbs_free_energy
          N nondimensional_potential_distance nondimensional_potential_stiffness =
        s.nondimensional_relative_gibbs_free_energy nondimensional_potential_distance nondimensional_potential_stiffness) ∧
      (∀ nondimensional_potential_distance nondimensional_potential_stiffness : α, Polymers.C.physics_single_chain_fjc_thermodynamics_modified_canonical_asymptotic_weak_potential_nondimensional_relative_gibbs_free_energy_per_link
          N nondimensional_potential_distance nondimensional_potential_stiffness =
        s.nondimensional_relative_gibbs_free_energy_per_link nondimensional_potential_distance nondimensional_potential_stiffness) := by
  exact ⟨fun _ _ _ => rfl, fun _ _ _ => rfl, fun _ _ => rfl, fun _ _ => rfl, fun _ _ => rfl, fun _ _ => rfl, fun _ _ _ => rfl, fun _ _ _ => rfl, fun _ _ _ => rfl, fun _ _ _ => rfl, fun _ _ _ => rfl, fun _ _ _ => rfl, fun _ _ => rfl, fun _ _ => rfl⟩

/-- C58: the functions exported by `src/physics/single_chain/fjc/thermodynamics/isometric/legendre/ex.rs` against the methods of `FJC::init(number_of_links, link_length, hinge_mass).thermodynamics.isometric.legendre`. -/
theorem C58_c_fjc_isometric_legendre (N : Nat) (ℓ : α) (m : α) :
    let s := (Polymers.fjc.FJC.init N ℓ m).thermodynamics.isometric.legendre
    (∀ end_to_end_length temperature : α, Polymers.C.physics_single_chain_fjc_thermodynamics_isometric_legendre_force
          N ℓ end_to_end_length temperature =
        s.force end_to_end_length temperature) ∧
      (∀ nondimensional_end_to_end_length_per_link : α, Polymers.C.physics_single_chain_fjc_thermodynamics_isometric_legendre_nondimensional_force
          nondimensional_end_to_end_length_per_link =
        s.nondimensional_force nondimensional_end_to_end_length_per_link) ∧
      (∀ end_to_end_length temperature : α, Polymers.C.physics_single_chain_fjc_thermodynamics_isometric_legendre_helmholtz_free_energy
          N ℓ m end_to_end_length temperature =
        s.helmholtz_free_energy end_to_end_length temperature) ∧
      (∀ end_to_end_length temperature : α, Polymers.C.physics_single_chain_fjc_thermodynamics_isometric_legendre_helmholtz_free_energy_per_link
          N ℓ m end_to_end_length temperature =
        s.helmholtz_free_energy_per_link end_to_end_length temperature) ∧
      (∀ end_to_end_length temperature : α, Polymers.C.physics_single_chain_fjc_thermodynamics_isometric_legendre_relative_helmholtz_free_energy
          N ℓ end_to_end_length temperature =
        s.relative_helmholtz_free_energy end_to_end_length temperature) ∧
      (∀ end_to_end_length temperature : α, Polymers.C.physics_single_chain_fjc_thermodynamics_isometric_legendre_relative_helmholtz_free_energy_per_link
          N ℓ end_to_end_length temperature =
        s.relative_helmholtz_free_energy_per_link end_to_end_length temperature) ∧
      (∀ nondimensional_end_to_end_length_per_link temperature : α, Polymers.C.physics_single_chain_fjc_thermodynamics_isometric_legendre_nondimensional_helmholtz_free_energy
          N ℓ m nondimensional_end_to_end_length_per_link temperature =
        s.nondimensional_helmholtz_free_energy nondimensional_end_to_end_length_per_link temperature) ∧
      (∀ nondimensional_end_to_end_length_per_link temperature : α, Polymers.C.physics_single_chain_fjc_thermodynamics_isometric_legendre_nondimensional_helmholtz_free_energy_per_link
          N ℓ m nondimensional_end_to_end_length_per_link temperature =
        s.nondimensional_helmholtz_free_energy_per_link nondimensional_end_to_end_length_per_link temperature) ∧
      (∀ nondimensional_end_to_end_length_per_link : α, Polymers.C.physics_single_chain_fjc_thermodynamics_isometric_legendre_nondimensional_relative_helmholtz_free_energy
          N nondimensional_end_to_end_length_per_link =
        s.nondimensional_relative_helmholtz_free_energy nondimensional_end_to_end_length_per_link) ∧
      (∀ nondimensional_end_to_end_length_per_link : α, Polymers.C.physics_single_chain_fjc_thermodynamics_isometric_legendre_nondimensional_relative_helmholtz_free_energy_per_link
          nondimensional_end_to_end_length_per_link =
        s.nondimensional_relative_helmholtz_free_energy_per_link nondimensional_end_to_end_length_per_link) ∧
      (∀ end_to_end_length : α, Polymers.C.physics_single_chain_fjc_thermodynamics_isometric_legendre_equilibrium_distribution
          N ℓ s.normalization_nondimensional_equilibrium_distribution end_to_end_length =
        s.equilibrium_distribution end_to_end_length) ∧
      (∀ nondimensional_end_to_end_length_per_link : α, Polymers.C.physics_single_chain_fjc_thermodynamics_isometric_legendre_nondimensional_equilibrium_distribution
          N s.normalization_nondimensional_equilibrium_distribution nondimensional_end_to_end_length_per_link =
        s.nondimensional_equilibrium_distribution nondimensional_end_to_end_length_per_link) ∧
      (∀ end_to_end_length : α, Polymers.C.physics_single_chain_fjc_thermodynamics_isometric_legendre_equilibrium_radial_distribution
          N ℓ s.normalization_nondimensional_equilibrium_distribution end_to_end_length =
        s.equilibrium_radial_distribution end_to_end_length) ∧
      (∀ nondimensional_end_to_end_length_per_link : α, Polymers.C.physics_single_chain_fjc_thermodynamics_isometric_legendre_nondimensional_equilibrium_radial_distribution
          N s.normalization_nondimensional_equilibrium_distribution nondimensional_end_to_end_length_per_link =
        s.nondimensional_equilibrium_radial_distribution nondimensional_end_to_end_length_per_link) ∧
      (∀ end_to_end_length temperature : α, Polymers.C.physics_single_chain_fjc_thermodynamics_isometric_legendre_gibbs_free_energy
          N ℓ m end_to_end_length temperature =
        s.gibbs_free_energy end_to_end_length temperature) ∧
      (∀ end_to_end_length temperature : α, Polymers.C.physics_single_chain_fjc_thermodynamics_isometric_legendre_gibbs_free_energy_per_link
          N ℓ m end_to_end_length temperature =
        s.gibbs_free_energy_per_link end_to_end_length temperature) ∧
      (∀ end_to_end_length temperature : α, Polymers.C.physics_single_chain_fjc_thermodynamics_isometric_legendre_relative_gibbs_free_energy
          N ℓ end_to_end_length temperature =
        s.relative_gibbs_free_energy end_to_end_length temperature) ∧
      (∀ end_to_end_length temperature : α, Polymers.C.physics_single_chain_fjc_thermodynamics_isometric_legendre_relative_gibbs_free_energy_per_link
          N ℓ end_to_end_length temperature =
        s.relative_gibbs_free_energy_per_link end_to_end_length temperature) ∧
      (∀ nondimensional_end_to_end_length_per_link temperature : α, Polymers.C.physics_single_chain_fjc_thermodynamics_isometric_legendre_nondimensional_gibbs_free_energy
          N ℓ m nondimensional_end_to_end_length_per_link temperature =
        s.nondimensional_gibbs_free_energy nondimensional_end_to_end_length_per_link temperature) ∧
      (∀ nondimensional_end_to_end_length_per_link temperature : α, Polymers.C.physics_single_chain_fjc_thermodynamics_isometric_legendre_nondimensional_gibbs_free_energy_per_link
          N ℓ m nondimensional_end_to_end_length_per_link temperature =
        s.nondimensional_gibbs_free_energy_per_link nondimensional_end_to_end_length_per_link temperature) ∧
      (∀ nondimensional_end_to_end_length_per_link : α, Polymers.C.physics_single_chain_fjc_thermodynamics_isometric_legendre_nondimensional_relative_gibbs_free_energy
          N nondimensional_end_to_end_length_per_link =
        s.nondimensional_relative_gibbs_free_energy nondimensional_end_to_end_length_per_link) ∧
      (∀ nondimensional_end_to_end_length_per_link : α, Polymers.C.physics_single_chain_fjc_thermodynamics_isometric_legendre_nondimensional_relative_gibbs_free_energy_per_link
          N nondimensional_end_to_end_length_per_link =
        s.nondimensional_relative_gibbs_free_energy_per_link nondimensional_end_to_end_length_per_link) := by
  exact ⟨fun _ _ => rfl, fun _ => rfl, fun _ _ => rfl, fun _ _ => rfl, fun _ _ => rfl, fun _ _ => rfl, fun _ _ => rfl, fun _ _ => rfl, fun _ => rfl, fun _ => rfl, fun _ => rfl, fun _ => rfl, fun _ => rfl, fun _ => rfl, fun _ _ => rfl, fun _ _ => rfl, fun _ _ => rfl, fun _ _ => rfl, fun _ _ => rfl, fun _ _ => rfl, fun _ => rfl, fun _ => rfl⟩

/-- C58: the functions exported by `src/physics/single_chain/fjc/thermodynamics/isotensional/legendre/ex.rs` against the methods of `FJC::init(number_of_links, link_length, hinge_mass).thermodynamics.isotensional.legendre`. -/
theorem C58_c_fjc_isotensional_legendre (N : Nat) (ℓ : α) (m : α) :
    let s := (Polymers.fjc.FJC.init N ℓ m).thermodynamics.isotensional.legendre
    (∀ force temperature : α, Polymers.C.physics_single_chain_fjc_thermodynamics_isotensional_legendre_helmholtz_free_energy
          N ℓ m force temperature =
        s.helmholtz_free_energy force temperature) ∧
      (∀ force temperature : α, Polymers.C.physics_single_chain_fjc_thermodynamics_isotensional_legendre_helmholtz_free_energy_per_link
          ℓ m force temperature =
        s.helmholtz_free_energy_per_link force temperature) ∧
      (∀ force temperature : α, Polymers.C.physics_single_chain_fjc_thermodynamics_isotensional_legendre_relative_helmholtz_free_energy
          N ℓ force temperature =
        s.relative_helmholtz_free_energy force temperature) ∧
      (∀ force temperature : α, Polymers.C.physics_single_chain_fjc_thermodynamics_isotensional_legendre_relative_helmholtz_free_energy_per_link
          ℓ force temperature =
        s.relative_helmholtz_free_energy_per_link force temperature) ∧
      (∀ nondimensional_force temperature : α, Polymers.C.physics_single_chain_fjc_thermodynamics_isotensional_legendre_nondimensional_helmholtz_free_energy
          N ℓ m nondimensional_force temperature =
        s.nondimensional_helmholtz_free_energy nondimensional_force temperature) ∧
      (∀ nondimensional_force temperature : α, Polymers.C.physics_single_chain_fjc_thermodynamics_isotensional_legendre_nondimensional_helmholtz_free_energy_per_link
          ℓ m nondimensional_force temperature =
        s.nondimensional_helmholtz_free_energy_per_link nondimensional_force temperature) ∧
      (∀ nondimensional_force : α, Polymers.C.physics_single_chain_fjc_thermodynamics_isotensional_legendre_nondimensional_relative_helmholtz_free_energy
          N nondimensional_force =
        s.nondimensional_relative_helmholtz_free_energy nondimensional_force) ∧
      (∀ nondimensional_force : α, Polymers.C.physics_single_chain_fjc_thermodynamics_isotensional_legendre_nondimensional_relative_helmholtz_free_energy_per_link
          nondimensional_force =
        s.nondimensional_relative_helmholtz_free_energy_per_link nondimensional_force) := by
  exact ⟨fun _ _ => rfl, fun _ _ => rfl, fun _ _ => rfl, fun _ _ => rfl, fun _ _ => rfl, fun _ _ => rfl, fun _ => rfl, fun _ => rfl⟩

/-- C58: the functions exported by `src/physics/single_chain/fjc/thermodynamics/isometric/ex.rs` against the methods of `FJC::init(number_of_links, link_length, hinge_mass).thermodynamics.isometric`. -/
theorem C58_c_fjc_isometric (N : Nat) (ℓ : α) (m : α) :
    let s := (Polymers.fjc.FJC.init N ℓ m).thermodynamics.isometric
    (∀ end_to_end_length temperature : α, Polymers.C.physics_single_chain_fjc_thermodynamics_isometric_force
          N ℓ end_to_end_length temperature =
        s.force end_to_end_length temperature) ∧
      (∀ nondimensional_end_to_end_length_per_link : α, Polymers.C.physics_single_chain_fjc_thermodynamics_isometric_nondimensional_force
          N nondimensional_end_to_end_length_per_link =
        s.nondimensional_force nondimensional_end_to_end_length_per_link) ∧
      (∀ end_to_end_length temperature : α, Polymers.C.physics_single_chain_fjc_thermodynamics_isometric_helmholtz_free_energy
          N ℓ m end_to_end_length temperature =
        s.helmholtz_free_energy end_to_end_length temperature) ∧
      (∀ end_to_end_length temperature : α, Polymers.C.physics_single_chain_fjc_thermodynamics_isometric_helmholtz_free_energy_per_link
          N ℓ m end_to_end_length temperature =
        s.helmholtz_free_energy_per_link end_to_end_length temperature) ∧
      (∀ end_to_end_length temperature : α, Polymers.C.physics_single_chain_fjc_thermodynamics_isometric_relative_helmholtz_free_energy
          N ℓ end_to_end_length temperature =
        s.relative_helmholtz_free_energy end_to_end_length temperature) ∧
      (∀ end_to_end_length temperature : α, Polymers.C.physics_single_chain_fjc_thermodynamics_isometric_relative_helmholtz_free_energy_per_link
          N ℓ end_to_end_length temperature =
        s.relative_helmholtz_free_energy_per_link end_to_end_length temperature) ∧
      (∀ nondimensional_end_to_end_length_per_link temperature : α, Polymers.C.physics_single_chain_fjc_thermodynamics_isometric_nondimensional_helmholtz_free_energy
          N ℓ m nondimensional_end_to_end_length_per_link temperature =
        s.nondimensional_helmholtz_free_energy nondimensional_end_to_end_length_per_link temperature) ∧
      (∀ nondimensional_end_to_end_length_per_link temperature : α, Polymers.C.physics_single_chain_fjc_thermodynamics_isometric_nondimensional_helmholtz_free_energy_per_link
          N ℓ m nondimensional_end_to_end_length_per_link temperature =
        s.nondimensional_helmholtz_free_energy_per_link nondimensional_end_to_end_length_per_link temperature) ∧
      (∀ nondimensional_end_to_end_length_per_link : α, Polymers.C.physics_single_chain_fjc_thermodynamics_isometric_nondimensional_relative_helmholtz_free_energy
          N nondimensional_end_to_end_length_per_link =
        s.nondimensional_relative_helmholtz_free_energy nondimensional_end_to_end_length_per_link) ∧
      (∀ nondimensional_end_to_end_length_per_link : α, Polymers.C.physics_single_chain_fjc_thermodynamics_isometric_nondimensional_relative_helmholtz_free_energy_per_link
          N nondimensional_end_to_end_length_per_link =
        s.nondimensional_relative_helmholtz_free_energy_per_link nondimensional_end_to_end_length_per_link) ∧
      (∀ end_to_end_length : α, Polymers.C.physics_single_chain_fjc_thermodynamics_isometric_equilibrium_distribution
          N ℓ end_to_end_length =
        s.equilibrium_distribution end_to_end_length) ∧
      (∀ nondimensional_end_to_end_length_per_link : α, Polymers.C.physics_single_chain_fjc_thermodynamics_isometric_nondimensional_equilibrium_distribution
          N nondimensional_end_to_end_length_per_link =
        s.nondimensional_equilibrium_distribution nondimensional_end_to_end_length_per_link) ∧
      (∀ end_to_end_length : α, Polymers.C.physics_single_chain_fjc_thermodynamics_isometric_equilibrium_radial_distribution
          N ℓ end_to_end_length =
        s.equilibrium_radial_distribution end_to_end_length) ∧
      (∀ nondimensional_end_to_end_length_per_link : α, Polymers.C.physics_single_chain_fjc_thermodynamics_isometric_nondimensional_equilibrium_radial_distribution
          N nondimensional_end_to_end_length_per_link =
        s.nondimensional_equilibrium_radial_distribution nondimensional_end_to_end_length_per_link) := by
  exact ⟨fun _ _ => rfl, fun _ => rfl, fun _ _ => rfl, fun _ _ => rfl, fun _ _ => rfl, fun _ _ => rfl, fun _ _ => rfl, fun _ _ => rfl, fun _ => rfl, fun _ => rfl, fun _ => rfl, fun _ => rfl, fun _ => rfl, fun _ => rfl⟩

/-- C58: the functions exported by `src/physics/single_chain/fjc/thermodynamics/isotensional/ex.rs` against the methods of `FJC::init(number_of_links, link_length, hinge_mass).thermodynamics.isotensional`. -/
theorem C58_c_fjc_isotensional (N : Nat) (ℓ : α) (m : α) :
    let s := (Polymers.fjc.FJC.init N ℓ m).thermodynamics.isotensional
    (∀ force temperature : α, Polymers.C.physics_single_chain_fjc_thermodynamics_isotensional_end_to_end_length
          N ℓ force temperature =
        s.end_to_end_length force temperature) ∧
      (∀ force temperature : α, Polymers.C.physics_single_chain_fjc_thermodynamics_isotensional_end_to_end_length_per_link
          ℓ force temperature =
        s.end_to_end_length_per_link force temperature) ∧
      (∀ nondimensional_force : α, Polymers.C.physics_single_chain_fjc_thermodynamics_isotensional_nondimensional_end_to_end_length
          N nondimensional_force =
        s.nondimensional_end_to_end_length nondimensional_force) ∧
      (∀ nondimensional_force : α, Polymers.C.physics_single_chain_fjc_thermodynamics_isotensional_nondimensional_end_to_end_length_per_link
          nondimensional_force =
        s.nondimensional_end_to_end_length_per_link nondimensional_force) ∧
      (∀ force temperature : α, Polymers.C.physics_single_chain_fjc_thermodynamics_isotensional_gibbs_free_energy
          N ℓ m force temperature =
        s.gibbs_free_energy force temperature) ∧
      (∀ force temperature : α, Polymers.C.physics_single_chain_fjc_thermodynamics_isotensional_gibbs_free_energy_per_link
          ℓ m force temperature =
        s.gibbs_free_energy_per_link force temperature) ∧
      (∀ force temperature : α, Polymers.C.physics_single_chain_fjc_thermodynamics_isotensional_relative_gibbs_free_energy
          N ℓ force temperature =
        s.relative_gibbs_free_energy force temperature) ∧
      (∀ force temperature : α, Polymers.C.physics_single_chain_fjc_thermodynamics_isotensional_relative_gibbs_free_energy_per_link
          ℓ force temperature =
        s.relative_gibbs_free_energy_per_link force temperature) ∧
      (∀ nondimensional_force temperature : α, Polymers.C.physics_single_chain_fjc_thermodynamics_isotensional_nondimensional_gibbs_free_energy
          N ℓ m nondimensional_force temperature =
        s.nondimensional_gibbs_free_energy nondimensional_force temperature) ∧
      (∀ nondimensional_force temperature : α, Polymers.C.physics_single_chain_fjc_thermodynamics_isotensional_nondimensional_gibbs_free_energy_per_link
          ℓ m nondimensional_force temperature =
        s.nondimensional_gibbs_free_energy_per_link nondimensional_force temperature) ∧
      (∀ nondimensional_force : α, Polymers.C.physics_single_chain_fjc_thermodynamics_isotensional_nondimensional_relative_gibbs_free_energy
          N nondimensional_force =
        s.nondimensional_relative_gibbs_free_energy nondimensional_force) ∧
      (∀ nondimensional_force : α, Polymers.C.physics_single_chain_fjc_thermodynamics_isotensional_nondimensional_relative_gibbs_free_energy_per_link
          nondimensional_force =
        s.nondimensional_relative_gibbs_free_energy_per_link nondimensional_force) := by
  exact ⟨fun _ _ => rfl, fun _ _ => rfl, fun _ => rfl, fun _ => rfl, fun _ _ => rfl, fun _ _ => rfl, fun _ _ => rfl, fun _ _ => rfl, fun _ _ => rfl, fun _ _ => rfl, fun _ => rfl, fun _ => rfl⟩

/-- C58: the functions exported by `src/physics/single_chain/fjc/thermodynamics/modified_canonical/ex.rs` against the methods of `FJC::init(number_of_links, link_length, hinge_mass).thermodynamics.modified_canonical`. -/
theorem C58_c_fjc_modified_canonical (N : Nat) (ℓ : α) (m : α) :
    let s := (Polymers.fjc.FJC.init N ℓ m).thermodynamics.modified_canonical
    (∀ potential_distance potential_stiffness temperature : α, Polymers.C.physics_single_chain_fjc_thermodynamics_modified_canonical_end_to_end_length
          N ℓ potential_distance potential_stiffness temperature =
        s.end_to_end_length potential_distance potential_stiffness temperature) ∧
      (∀ potential_distance potential_stiffness temperature : α, Polymers.C.physics_single_chain_fjc_thermodynamics_modified_canonical_end_to_end_length_per_link
          N ℓ potential_distance potential_stiffness temperature =
        s.end_to_end_length_per_link potential_distance potential_stiffness temperature) ∧
      (∀ nondimensional_potential_distance nondimensional_potential_stiffness : α, Polymers.C.physics_single_chain_fjc_thermodynamics_modified_canonical_nondimensional_end_to_end_length
          N nondimensional_potential_distance nondimensional_potential_stiffness =
        s.nondimensional_end_to_end_length nondimensional_potential_distance nondimensional_potential_stiffness) ∧
      (∀ nondimensional_potential_distance nondimensional_potential_stiffness : α, Polymers.C.physics_single_chain_fjc_thermodynamics_modified_canonical_nondimensional_end_to_end_length_per_link
          N nondimensional_potential_distance nondimensional_potential_stiffness =
        s.nondimensional_end_to_end_length_per_link nondimensional_potential_distance nondimensional_potential_stiffness) ∧
      (∀ potential_distance potential_stiffness temperature : α, Polymers.C.physics_single_chain_fjc_thermodynamics_modified_canonical_force
          N ℓ potential_distance potential_stiffness temperature =
        s.force potential_distance potential_stiffness temperature) ∧
      (∀ nondimensional_potential_distance nondimensional_potential_stiffness : α, Polymers.C.physics_single_chain_fjc_thermodynamics_modified_canonical_nondimensional_force
          N nondimensional_potential_distance nondimensional_potential_stiffness =
        s.nondimensional_force nondimensional_potential_distance nondimensional_potential_stiffness) ∧
      (∀ potential_distance potential_stiffness temperature : α, Polymers.C.physics_single_chain_fjc_thermodynamics_modified_canonical_helmholtz_free_energy
          N ℓ m potential_distance potential_stiffness temperature =
        s.helmholtz_free_energy potential_distance potential_stiffness temperature) ∧
      (∀ potential_distance potential_stiffness temperature : α, Polymers.C.physics_single_chain_fjc_thermodynamics_modified_canonical_helmholtz_free_energy_per_link
          N ℓ m potential_distance potential_stiffness temperature =
        s.helmholtz_free_energy_per_link potential_distance potential_stiffness temperature) ∧
      (∀ potential_distance potential_stiffness temperature : α, Polymers.C.physics_single_chain_fjc_thermodynamics_modified_canonical_relative_helmholtz_free_energy
          N ℓ potential_distance potential_stiffness temperature =
        s.relative_helmholtz_free_energy potential_distance potential_stiffness temperature) ∧
      (∀ potential_distance potential_stiffness temperature : α, Polymers.C.physics_single_chain_fjc_thermodynamics_modified_canonical_relative_helmholtz_free_energy_per_link
          N ℓ potential_distance potential_stiffness temperature =
        s.relative_helmholtz_free_energy_per_link potential_distance potential_stiffness temperature) ∧
      (∀ nondimensional_potential_distance nondimensional_potential_stiffness temperature : α, Polymers.C.physics_single_chain_fjc_thermodynamics_modified_canonical_nondimensional_helmholtz_free_energy
          N ℓ m nondimensional_potential_distance nondimensional_potential_stiffness temperature =
        s.nondimensional_helmholtz_free_energy nondimensional_potential_distance nondimensional_potential_stiffness temperature) ∧
      (∀ nondimensional_potential_distance nondimensional_potential_stiffness temperature : α, Polymers.C.physics_single_chain_fjc_thermodynamics_modified_canonical_nondimensional_helmholtz_free_energy_per_link
          N ℓ m nondimensional_potential_distance nondimensional_potential_stiffness temperature =
        s.nondimensional_helmholtz_free_energy_per_link nondimensional_potential_distance nondimensional_potential_stiffness temperature) ∧
      (∀ nondimensional_potential_distance nondimensional_potential_stiffness : α, Polymers.C.physics_single_chain_fjc_thermodynamics_modified_canonical_nondimensional_relative_helmholtz_free_energy
          N nondimensional_potential_distance nondimensional_potential_stiffness =
        s.nondimensional_relative_helmholtz_free_energy nondimensional_potential_distance nondimensional_potential_stiffness) ∧
      (∀ nondimensional_potential_distance nondimensional_potential_stiffness : α, Polymers.C.physics_single_chain_fjc_thermodynamics_modified_canonical_nondimensional_relative_helmholtz_free_energy_per_link
          N nondimensional_potential_distance nondimensional_potential_stiffness =
        s.nondimensional_relative_helmholtz_free_energy_per_link nondimensional_potential_distance nondimensional_potential_stiffness) ∧
      (∀ potential_distance potential_stiffness temperature : α, Polymers.C.physics_single_chain_fjc_thermodynamics_modified_canonical_gibbs_free_energy
          N ℓ m potential_distance potential_stiffness temperature =
        s.gibbs_free_energy potential_distance potential_stiffness temperature) ∧
      (∀ potential_distance potential_stiffness temperature : α, Polymers.C.physics_single_chain_fjc_thermodynamics_modified_canonical_gibbs_free_energy_per_link
          N ℓ m potential_distance potential_stiffness temperature =
        s.gibbs_free_energy_per_link potential_distance potential_stiffness temperature) ∧
      (∀ potential_distance potential_stiffness temperature : α, Polymers.C.physics_single_chain_fjc_thermodynamics_modified_canonical_relative_gibbs_free_energy
          N ℓ potential_distance potential_stiffness temperature =
        s.relative_gibbs_free_energy potential_distance potential_stiffness temperature) ∧
      (∀ potential_distance potential_stiffness temperature : α, Polymers.C.physics_single_chain_fjc_thermodynamics_modified_canonical_relative_gibbs_free_energy_per_link
          N ℓ potential_distance potential_stiffness temperature =
        s.relative_gibbs_free_energy_per_link potential_distance potential_stiffness temperature) ∧
      (∀ nondimensional_potential_distance nondimensional_potential_stiffness temperature : α, Polymers.C.physics_single_chain_fjc_thermodynamics_modified_canonical_nondimensional_gibbs_free_energy
          N ℓ m nondimensional_potential_distance nondimensional_potential_stiffness temperature =
        s.nondimensional_gibbs_free_energy nondimensional_potential_distance nondimensional_potential_stiffness temperature) ∧
      (∀ nondimensional_potential_distance nondimensional_potential_stiffness temperature : α, Polymers.C.physics_single_chain_fjc_thermodynamics_modified_canonical_nondimensional_gibbs_free_energy_per_link
          N ℓ m nondimensional_potential_distance nondimensional_potential_stiffness temperature =
        s.nondimensional_gibbs_free_energy_per_link nondimensional_potential_distance nondimensional_potential_stiffness temperature) ∧
      (∀ nondimensional_potential_distance nondimensional_potential_stiffness : α, Polymers.C.physics_single_chain_fjc_thermodynamics_modified_canonical_nondimensional_relative_gibbs_free_energy
          N nondimensional_potential_distance nondimensional_potential_stiffness =
        s.nondimensional_relative_gibbs_free_energy nondimensional_potential_distance nondimensional_potential_stiffness) ∧
      (∀ nondimensional_potential_distance nondimensional_potential_stiffness : α, Polymers.C.physics_single_chain_fjc_thermodynamics_modified_canonical_nondimensional_relative_gibbs_free_energy_per_link
          N nondimensional_potential_distance nondimensional_potential_stiffness =
        s.nondimensional_relative_gibbs_free_energy_per_link nondimensional_potential_distance nondimensional_potential_stiffness) := by
  exact ⟨fun _ _ _ => rfl, fun _ _ _ => rfl, fun _ _ => rfl, fun _ _ => rfl, fun _ _ _ => rfl, fun _ _ => rfl, fun _ _ _ => rfl, fun _ _ _ => rfl, fun _ _ _ => rfl, fun _ _ _ => rfl, fun _ _ _ => rfl, fun _ _ _ => rfl, fun _ _ => rfl, fun _ _ => rfl, fun _ _ _ => rfl, fun _ _ _ => rfl, fun _ _ _ => rfl, fun _ _ _ => rfl, fun _ _ _ => rfl, fun _ _ _ => rfl, fun _ _ => rfl, fun _ _ => rfl⟩

end Polymers.Props
