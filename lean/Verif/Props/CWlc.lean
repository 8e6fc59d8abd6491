/- Generated by tools/gen_bindings.py ; do not edit by hand. -/
import Verif.Model.CWlc

/-! Property C58.  Over any number type, so in particular over floating-point numbers. -/

namespace Polymers.Props

set_option linter.unusedSectionVars false

variable {α : Type} [Add α] [Sub α] [Mul α] [Div α] [Neg α] [OfScientific α] [NatCast α] [Elem α]

/-- C58: the functions exported by `src/physics/single_chain/wlc/thermodynamics/isometric/legendre/ex.rs` against the methods of `WLC::init(number_of_links, link_length, hinge_mass, persistance_length).thermodynamics.isometric.legendre`. -/
theorem C58_c_wlc_isometric_legendre (N : Nat) (ℓ : α) (m : α) (p : α) :
    let s := (Polymers.wlc.WLC.init N ℓ m p).thermodynamics.isometric.legendre
    (∀ end_to_end_length temperature : α, Polymers.C.physics_single_chain_wlc_thermodynamics_isometric_legendre_gibbs_free_energy
          N ℓ m p end_to_end_length temperature =
        s.gibbs_free_energy end_to_end_length temperature) ∧
      (∀ end_to_end_length temperature : α, Polymers.C.physics_single_chain_wlc_thermodynamics_isometric_legendre_gibbs_free_energy_per_link
          N ℓ m p end_to_end_length temperature =
        s.gibbs_free_energy_per_link end_to_end_length temperature) ∧
      (∀ end_to_end_length temperature : α, Polymers.C.physics_single_chain_wlc_thermodynamics_isometric_legendre_relative_gibbs_free_energy
          N ℓ p end_to_end_length temperature =
        s.relative_gibbs_free_energy end_to_end_length temperature) ∧
      (∀ end_to_end_length temperature : α, Polymers.C.physics_single_chain_wlc_thermodynamics_isometric_legendre_relative_gibbs_free_energy_per_link
          N ℓ p end_to_end_length temperature =
        s.relative_gibbs_free_energy_per_link end_to_end_length temperature) ∧
      (∀ nondimensional_end_to_end_length_per_link temperature : α, Polymers.C.physics_single_chain_wlc_thermodynamics_isometric_legendre_nondimensional_gibbs_free_energy
          N ℓ m (p / (N : α) / ℓ) nondimensional_end_to_end_length_per_link temperature =
        s.nondimensional_gibbs_free_energy nondimensional_end_to_end_length_per_link temperature) ∧
      (∀ nondimensional_end_to_end_length_per_link temperature : α, Polymers.C.physics_single_chain_wlc_thermodynamics_isometric_legendre_nondimensional_gibbs_free_energy_per_link
          N ℓ m (p / (N : α) / ℓ) nondimensional_end_to_end_length_per_link temperature =
        s.nondimensional_gibbs_free_energy_per_link nondimensional_end_to_end_length_per_link temperature) ∧
      (∀ nondimensional_end_to_end_length_per_link : α, Polymers.C.physics_single_chain_wlc_thermodynamics_isometric_legendre_nondimensional_relative_gibbs_free_energy
          N (p / (N : α) / ℓ) nondimensional_end_to_end_length_per_link =
        s.nondimensional_relative_gibbs_free_energy nondimensional_end_to_end_length_per_link) ∧
      (∀ nondimensional_end_to_end_length_per_link : α, Polymers.C.physics_single_chain_wlc_thermodynamics_isometric_legendre_nondimensional_relative_gibbs_free_energy_per_link
          N (p / (N : α) / ℓ) nondimensional_end_to_end_length_per_link =
        s.nondimensional_relative_gibbs_free_energy_per_link nondimensional_end_to_end_length_per_link) := by
  exact ⟨fun _ _ => rfl, fun _ _ => rfl, fun _ _ => rfl, fun _ _ => rfl, fun _ _ => rfl, fun _ _ => rfl, fun _ => rfl, fun _ => rfl⟩

/-- C58: the functions exported by `src/physics/single_chain/wlc/thermodynamics/isotensional/legendre/ex.rs` against the methods of `WLC::init(number_of_links, link_length, hinge_mass, persistance_length).thermodynamics.isotensional.legendre`. -/
theorem C58_c_wlc_isotensional_legendre (N : Nat) (ℓ : α) (m : α) (p : α) :
    let s := (Polymers.wlc.WLC.init N ℓ m p).thermodynamics.isotensional.legendre
    (∀ force temperature : α, Polymers.C.physics_single_chain_wlc_thermodynamics_isotensional_legendre_helmholtz_free_energy
          N ℓ m p force temperature =
        s.helmholtz_free_energy force temperature) ∧
      (∀ force temperature : α, Polymers.C.physics_single_chain_wlc_thermodynamics_isotensional_legendre_helmholtz_free_energy_per_link
          N ℓ m p force temperature =
        s.helmholtz_free_energy_per_link force temperature) ∧
      (∀ force temperature : α, Polymers.C.physics_single_chain_wlc_thermodynamics_isotensional_legendre_relative_helmholtz_free_energy
          N ℓ p force temperature =
        s.relative_helmholtz_free_energy force temperature) ∧
      (∀ force temperature : α, Polymers.C.physics_single_chain_wlc_thermodynamics_isotensional_legendre_relative_helmholtz_free_energy_per_link
          N ℓ p force temperature =
        s.relative_helmholtz_free_energy_per_link force temperature) ∧
      (∀ nondimensional_force temperature : α, Polymers.C.physics_single_chain_wlc_thermodynamics_isotensional_legendre_nondimensional_helmholtz_free_energy
          N ℓ m (p / (N : α) / ℓ) nondimensional_force temperature =
        s.nondimensional_helmholtz_free_energy nondimensional_force temperature) ∧
      (∀ nondimensional_force temperature : α, Polymers.C.physics_single_chain_wlc_thermodynamics_isotensional_legendre_nondimensional_helmholtz_free_energy_per_link
          N ℓ m (p / (N : α) / ℓ) nondimensional_force temperature =
        s.nondimensional_helmholtz_free_energy_per_link nondimensional_force temperature) ∧
      (∀ nondimensional_force : α, Polymers.C.physics_single_chain_wlc_thermodynamics_isotensional_legendre_nondimensional_relative_helmholtz_free_energy
          N (p / (N : α) / ℓ) nondimensional_force =
        s.nondimensional_relative_helmholtz_free_energy nondimensional_force) ∧
      (∀ nondimensional_force : α, Polymers.C.physics_single_chain_wlc_thermodynamics_isotensional_legendre_nondimensional_relative_helmholtz_free_energy_per_link
          N (p / (N : α) / ℓ) nondimensional_force =
        s.nondimensional_relative_helmholtz_free_energy_per_link nondimensional_force) := by
  exact ⟨fun _ _ => rfl, fun _ _ => rfl, fun _ _ => rfl, fun _ _ => rfl, fun _ _ => rfl, fun _ _ => rfl, fun _ => rfl, fun _ => rfl⟩

/-- C58: the functions exported by `src/physics/single_chain/wlc/thermodynamics/isometric/ex.rs` against the methods of `WLC::init(number_of_links, link_length, hinge_mass, persistance_length).thermodynamics.isometric`. -/
theorem C58_c_wlc_isometric (N : Nat) (ℓ : α) (m : α) (p : α) :
    let s := (Polymers.wlc.WLC.init N ℓ m p).thermodynamics.isometric
    (∀ end_to_end_length temperature : α, Polymers.C.physics_single_chain_wlc_thermodynamics_isometric_force
          N ℓ p end_to_end_length temperature =
        s.force end_to_end_length temperature) ∧
      (∀ nondimensional_end_to_end_length_per_link : α, Polymers.C.physics_single_chain_wlc_thermodynamics_isometric_nondimensional_force
          N (p / (N : α) / ℓ) nondimensional_end_to_end_length_per_link =
        s.nondimensional_force nondimensional_end_to_end_length_per_link) ∧
      (∀ end_to_end_length temperature : α, Polymers.C.physics_single_chain_wlc_thermodynamics_isometric_helmholtz_free_energy
          N ℓ m p end_to_end_length temperature =
        s.helmholtz_free_energy end_to_end_length temperature) ∧
      (∀ end_to_end_length temperature : α, Polymers.C.physics_single_chain_wlc_thermodynamics_isometric_helmholtz_free_energy_per_link
          N ℓ m p end_to_end_length temperature =
        s.helmholtz_free_energy_per_link end_to_end_length temperature) ∧
      (∀ end_to_end_length temperature : α, Polymers.C.physics_single_chain_wlc_thermodynamics_isometric_relative_helmholtz_free_energy
          N ℓ p end_to_end_length temperature =
        s.relative_helmholtz_free_energy end_to_end_length temperature) ∧
      (∀ end_to_end_length temperature : α, Polymers.C.physics_single_chain_wlc_thermodynamics_isometric_relative_helmholtz_free_energy_per_link
          N ℓ p end_to_end_length temperature =
        s.relative_helmholtz_free_energy_per_link end_to_end_length temperature) ∧
      (∀ nondimensional_end_to_end_length_per_link temperature : α, Polymers.C.physics_single_chain_wlc_thermodynamics_isometric_nondimensional_helmholtz_free_energy
          N ℓ m (p / (N : α) / ℓ) nondimensional_end_to_end_length_per_link temperature =
        s.nondimensional_helmholtz_free_energy nondimensional_end_to_end_length_per_link temperature) ∧
      (∀ nondimensional_end_to_end_length_per_link temperature : α, Polymers.C.physics_single_chain_wlc_thermodynamics_isometric_nondimensional_helmholtz_free_energy_per_link
          N ℓ m (p / (N : α) / ℓ) nondimensional_end_to_end_length_per_link temperature =
        s.nondimensional_helmholtz_free_energy_per_link nondimensional_end_to_end_length_per_link temperature) ∧
      (∀ nondimensional_end_to_end_length_per_link : α, Polymers.C.physics_single_chain_wlc_thermodynamics_isometric_nondimensional_relative_helmholtz_free_energy
          (p / (N : α) / ℓ) nondimensional_end_to_end_length_per_link =
        s.nondimensional_relative_helmholtz_free_energy nondimensional_end_to_end_length_per_link) ∧
      (∀ nondimensional_end_to_end_length_per_link : α, Polymers.C.physics_single_chain_wlc_thermodynamics_isometric_nondimensional_relative_helmholtz_free_energy_per_link
          N (p / (N : α) / ℓ) nondimensional_end_to_end_length_per_link =
        s.nondimensional_relative_helmholtz_free_energy_per_link nondimensional_end_to_end_length_per_link) ∧
      (∀ end_to_end_length : α, Polymers.C.physics_single_chain_wlc_thermodynamics_isometric_equilibrium_distribution
          N ℓ p s.normalization_nondimensional_equilibrium_distribution end_to_end_length =
        s.equilibrium_distribution end_to_end_length) ∧
      (∀ nondimensional_end_to_end_length_per_link : α, Polymers.C.physics_single_chain_wlc_thermodynamics_isometric_nondimensional_equilibrium_distribution
          (p / (N : α) / ℓ) s.normalization_nondimensional_equilibrium_distribution nondimensional_end_to_end_length_per_link =
        s.nondimensional_equilibrium_distribution nondimensional_end_to_end_length_per_link) ∧
      (∀ end_to_end_length : α, Polymers.C.physics_single_chain_wlc_thermodynamics_isometric_equilibrium_radial_distribution
          N ℓ p s.normalization_nondimensional_equilibrium_distribution end_to_end_length =
        s.equilibrium_radial_distribution end_to_end_length) ∧
      (∀ nondimensional_end_to_end_length_per_link : α, Polymers.C.physics_single_chain_wlc_thermodynamics_isometric_nondimensional_equilibrium_radial_distribution
          (p / (N : α) / ℓ) s.normalization_nondimensional_equilibrium_distribution nondimensional_end_to_end_length_per_link =
        s.nondimensional_equilibrium_radial_distribution nondimensional_end_to_end_length_per_link) := by
  exact ⟨fun _ _ => rfl, fun _ => rfl, fun _ _ => rfl, fun _ _ => rfl, fun _ _ => rfl, fun _ _ => rfl, fun _ _ => rfl, fun _ _ => rfl, fun _ => rfl, fun _ => rfl, fun _ => rfl, fun _ => rfl, fun _ => rfl, fun _ => rfl⟩

/-- C58: the functions exported by `src/physics/single_chain/wlc/thermodynamics/isotensional/ex.rs` against the methods of `WLC::init(number_of_links, link_length, hinge_mass, persistance_length).thermodynamics.isotensional`. -/
theorem C58_c_wlc_isotensional (N : Nat) (ℓ : α) (m : α) (p : α) :
    let s := (Polymers.wlc.WLC.init N ℓ m p).thermodynamics.isotensional
    (∀ force temperature : α, Polymers.C.physics_single_chain_wlc_thermodynamics_isotensional_end_to_end_length
          N ℓ p force temperature =
        s.end_to_end_length force temperature) ∧
      (∀ force temperature : α, Polymers.C.physics_single_chain_wlc_thermodynamics_isotensional_end_to_end_length_per_link
          N ℓ p force temperature =
        s.end_to_end_length_per_link force temperature) ∧
      (∀ nondimensional_force : α, Polymers.C.physics_single_chain_wlc_thermodynamics_isotensional_nondimensional_end_to_end_length
          N (p / (N : α) / ℓ) nondimensional_force =
        s.nondimensional_end_to_end_length nondimensional_force) ∧
      (∀ nondimensional_force : α, Polymers.C.physics_single_chain_wlc_thermodynamics_isotensional_nondimensional_end_to_end_length_per_link
          N (p / (N : α) / ℓ) nondimensional_force =
        s.nondimensional_end_to_end_length_per_link nondimensional_force) ∧
      (∀ force temperature : α, Polymers.C.physics_single_chain_wlc_thermodynamics_isotensional_gibbs_free_energy
          N ℓ m p force temperature =
        s.gibbs_free_energy force temperature) ∧
      (∀ force temperature : α, Polymers.C.physics_single_chain_wlc_thermodynamics_isotensional_gibbs_free_energy_per_link
          N ℓ m p force temperature =
        s.gibbs_free_energy_per_link force temperature) ∧
      (∀ force temperature : α, Polymers.C.physics_single_chain_wlc_thermodynamics_isotensional_relative_gibbs_free_energy
          N ℓ p force temperature =
        s.relative_gibbs_free_energy force temperature) ∧
      (∀ force temperature : α, Polymers.C.physics_single_chain_wlc_thermodynamics_isotensional_relative_gibbs_free_energy_per_link
          N ℓ p force temperature =
        s.relative_gibbs_free_energy_per_link force temperature) ∧
      (∀ nondimensional_force temperature : α, Polymers.C.physics_single_chain_wlc_thermodynamics_isotensional_nondimensional_gibbs_free_energy
          N ℓ m (p / (N : α) / ℓ) nondimensional_force temperature =
        s.nondimensional_gibbs_free_energy nondimensional_force temperature) ∧
      (∀ nondimensional_force temperature : α, Polymers.C.physics_single_chain_wlc_thermodynamics_isotensional_nondimensional_gibbs_free_energy_per_link
          N ℓ m (p / (N : α) / ℓ) nondimensional_force temperature =
        s.nondimensional_gibbs_free_energy_per_link nondimensional_force temperature) ∧
      (∀ nondimensional_force : α, Polymers.C.physics_single_chain_wlc_thermodynamics_isotensional_nondimensional_relative_gibbs_free_energy
          N (p / (N : α) / ℓ) nondimensional_force =
        s.nondimensional_relative_gibbs_free_energy nondimensional_force) ∧
      (∀ nondimensional_force : α, Polymers.C.physics_single_chain_wlc_thermodynamics_isotensional_nondimensional_relative_gibbs_free_energy_per_link
          N (p / (N : α) / ℓ) nondimensional_force =
        s.nondimensional_relative_gibbs_free_energy_per_link nondimensional_force) := by
  exact ⟨fun _ _ => rfl, fun _ _ => rfl, fun _ => rfl, fun _ => rfl, fun _ _ => rfl, fun _ _ => rfl, fun _ _ => rfl, fun _ _ => rfl, fun _ _ => rfl, fun _ _ => rfl, fun _ => rfl, fun _ => rfl⟩

end Polymers.Props
