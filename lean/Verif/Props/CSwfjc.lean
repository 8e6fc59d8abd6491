/- Generated by tools/gen_bindings.py ; do not edit by hand. -/
import Verif.Model.CSwfjc

/-! Property C58.  Over any number type, so in particular over floating-point numbers. -/

namespace Polymers.Props

set_option linter.unusedSectionVars false

variable {α : Type} [Add α] [Sub α] [Mul α] [Div α] [Neg α] [OfScientific α] [NatCast α] [Elem α]

/-- C58: the functions exported by `src/physics/single_chain/swfjc/thermodynamics/isometric/legendre/ex.rs` against the methods of `SWFJC::init(number_of_links, link_length, hinge_mass, well_width).thermodynamics.isometric.legendre`. -/
theorem C58_c_swfjc_isometric_legendre (N : Nat) (ℓ : α) (m : α) (w : α) :
    let s := (Polymers.swfjc.SWFJC.init N ℓ m w).thermodynamics.isometric.legendre
    (∀ end_to_end_length temperature : α, Polymers.C.physics_single_chain_swfjc_thermodynamics_isometric_legendre_force
          N ℓ w end_to_end_length temperature =
        s.force end_to_end_length temperature) ∧
      (∀ nondimensional_end_to_end_length_per_link : α, Polymers.C.physics_single_chain_swfjc_thermodynamics_isometric_legendre_nondimensional_force
          ℓ w nondimensional_end_to_end_length_per_link =
        s.nondimensional_force nondimensional_end_to_end_length_per_link) ∧
      (∀ end_to_end_length temperature : α, Polymers.C.physics_single_chain_swfjc_thermodynamics_isometric_legendre_helmholtz_free_energy
          N ℓ m w end_to_end_length temperature =
        s.helmholtz_free_energy end_to_end_length temperature) ∧
      (∀ end_to_end_length temperature : α, Polymers.C.physics_single_chain_swfjc_thermodynamics_isometric_legendre_helmholtz_free_energy_per_link
          N ℓ m w end_to_end_length temperature =
        s.helmholtz_free_energy_per_link end_to_end_length temperature) ∧
      (∀ end_to_end_length temperature : α, Polymers.C.physics_single_chain_swfjc_thermodynamics_isometric_legendre_relative_helmholtz_free_energy
          N ℓ w end_to_end_length temperature =
        s.relative_helmholtz_free_energy end_to_end_length temperature) ∧
      (∀ end_to_end_length temperature : α, Polymers.C.physics_single_chain_swfjc_thermodynamics_isometric_legendre_relative_helmholtz_free_energy_per_link
          N ℓ w end_to_end_length temperature =
        s.relative_helmholtz_free_energy_per_link end_to_end_length temperature) ∧
      (∀ nondimensional_end_to_end_length_per_link temperature : α, Polymers.C.physics_single_chain_swfjc_thermodynamics_isometric_legendre_nondimensional_helmholtz_free_energy
          N ℓ m w nondimensional_end_to_end_length_per_link temperature =
        s.nondimensional_helmholtz_free_energy nondimensional_end_to_end_length_per_link temperature) ∧
      (∀ nondimensional_end_to_end_length_per_link temperature : α, Polymers.C.physics_single_chain_swfjc_thermodynamics_isometric_legendre_nondimensional_helmholtz_free_energy_per_link
          N ℓ m w nondimensional_end_to_end_length_per_link temperature =
        s.nondimensional_helmholtz_free_energy_per_link nondimensional_end_to_end_length_per_link temperature) ∧
      (∀ nondimensional_end_to_end_length_per_link : α, Polymers.C.physics_single_chain_swfjc_thermodynamics_isometric_legendre_nondimensional_relative_helmholtz_free_energy
          N ℓ w nondimensional_end_to_end_length_per_link =
        s.nondimensional_relative_helmholtz_free_energy nondimensional_end_to_end_length_per_link) ∧
      (∀ nondimensional_end_to_end_length_per_link : α, Polymers.C.physics_single_chain_swfjc_thermodynamics_isometric_legendre_nondimensional_relative_helmholtz_free_energy_per_link
          ℓ w nondimensional_end_to_end_length_per_link =
        s.nondimensional_relative_helmholtz_free_energy_per_link nondimensional_end_to_end_length_per_link) ∧
      (∀ end_to_end_length : α, Polymers.C.physics_single_chain_swfjc_thermodynamics_isometric_legendre_equilibrium_distribution
          N ℓ w s.normalization_nondimensional_equilibrium_distribution end_to_end_length =
        s.equilibrium_distribution end_to_end_length) ∧
      (∀ nondimensional_end_to_end_length_per_link : α, Polymers.C.physics_single_chain_swfjc_thermodynamics_isometric_legendre_nondimensional_equilibrium_distribution
          N ℓ w s.normalization_nondimensional_equilibrium_distribution nondimensional_end_to_end_length_per_link =
        s.nondimensional_equilibrium_distribution nondimensional_end_to_end_length_per_link) ∧
      (∀ end_to_end_length : α, Polymers.C.physics_single_chain_swfjc_thermodynamics_isometric_legendre_equilibrium_radial_distribution
          N ℓ w s.normalization_nondimensional_equilibrium_distribution end_to_end_length =
        s.equilibrium_radial_distribution end_to_end_length) ∧
      (∀ nondimensional_end_to_end_length_per_link : α, Polymers.C.physics_single_chain_swfjc_thermodynamics_isometric_legendre_nondimensional_equilibrium_radial_distribution
          N ℓ w s.normalization_nondimensional_equilibrium_distribution nondimensional_end_to_end_length_per_link =
        s.nondimensional_equilibrium_radial_distribution nondimensional_end_to_end_length_per_link) := by
  exact ⟨fun _ _ => rfl, fun _ => rfl, fun _ _ => rfl, fun _ _ => rfl, fun _ _ => rfl, fun _ _ => rfl, fun _ _ => rfl, fun _ _ => rfl, fun _ => rfl, fun _ => rfl, fun _ => rfl, fun _ => rfl, fun _ => rfl, fun _ => rfl⟩

/-- C58: the functions exported by `src/physics/single_chain/swfjc/thermodynamics/isotensional/legendre/ex.rs` against the methods of `SWFJC::init(number_of_links, link_length, hinge_mass, well_width).thermodynamics.isotensional.legendre`. -/
theorem C58_c_swfjc_isotensional_legendre (N : Nat) (ℓ : α) (m : α) (w : α) :
    let s := (Polymers.swfjc.SWFJC.init N ℓ m w).thermodynamics.isotensional.legendre
    (∀ force temperature : α, Polymers.C.physics_single_chain_swfjc_thermodynamics_isotensional_legendre_helmholtz_free_energy
          N ℓ m w force temperature =
        s.helmholtz_free_energy force temperature) ∧
      (∀ force temperature : α, Polymers.C.physics_single_chain_swfjc_thermodynamics_isotensional_legendre_helmholtz_free_energy_per_link
          ℓ m w force temperature =
        s.helmholtz_free_energy_per_link force temperature) ∧
      (∀ force temperature : α, Polymers.C.physics_single_chain_swfjc_thermodynamics_isotensional_legendre_relative_helmholtz_free_energy
          N ℓ w force temperature =
        s.relative_helmholtz_free_energy force temperature) ∧
      (∀ force temperature : α, Polymers.C.physics_single_chain_swfjc_thermodynamics_isotensional_legendre_relative_helmholtz_free_energy_per_link
          ℓ w force temperature =
        s.relative_helmholtz_free_energy_per_link force temperature) ∧
      (∀ nondimensional_force temperature : α, Polymers.C.physics_single_chain_swfjc_thermodynamics_isotensional_legendre_nondimensional_helmholtz_free_energy
          N ℓ m w nondimensional_force temperature =
        s.nondimensional_helmholtz_free_energy nondimensional_force temperature) ∧
      (∀ nondimensional_force temperature : α, Polymers.C.physics_single_chain_swfjc_thermodynamics_isotensional_legendre_nondimensional_helmholtz_free_energy_per_link
          ℓ m w nondimensional_force temperature =
        s.nondimensional_helmholtz_free_energy_per_link nondimensional_force temperature) ∧
      (∀ nondimensional_force : α, Polymers.C.physics_single_chain_swfjc_thermodynamics_isotensional_legendre_nondimensional_relative_helmholtz_free_energy
          N ℓ w nondimensional_force =
        s.nondimensional_relative_helmholtz_free_energy nondimensional_force) ∧
      (∀ nondimensional_force : α, Polymers.C.physics_single_chain_swfjc_thermodynamics_isotensional_legendre_nondimensional_relative_helmholtz_free_energy_per_link
          ℓ w nondimensional_force =
        s.nondimensional_relative_helmholtz_free_energy_per_link nondimensional_force) := by
  exact ⟨fun _ _ => rfl, fun _ _ => rfl, fun _ _ => rfl, fun _ _ => rfl, fun _ _ => rfl, fun _ _ => rfl, fun _ => rfl, fun _ => rfl⟩

/-- C58: the functions exported by `src/physics/single_chain/swfjc/thermodynamics/isotensional/ex.rs` against the methods of `SWFJC::init(number_of_links, link_length, hinge_mass, well_width).thermodynamics.isotensional`. -/
theorem C58_c_swfjc_isotensional (N : Nat) (ℓ : α) (m : α) (w : α) :
    let s := (Polymers.swfjc.SWFJC.init N ℓ m w).thermodynamics.isotensional
    (∀ force temperature : α, Polymers.C.physics_single_chain_swfjc_thermodynamics_isotensional_end_to_end_length
          N ℓ w force temperature =
        s.end_to_end_length force temperature) ∧
      (∀ force temperature : α, Polymers.C.physics_single_chain_swfjc_thermodynamics_isotensional_end_to_end_length_per_link
          ℓ w force temperature =
        s.end_to_end_length_per_link force temperature) ∧
      (∀ nondimensional_force : α, Polymers.C.physics_single_chain_swfjc_thermodynamics_isotensional_nondimensional_end_to_end_length
          N ℓ w nondimensional_force =
        s.nondimensional_end_to_end_length nondimensional_force) ∧
      (∀ nondimensional_force : α, Polymers.C.physics_single_chain_swfjc_thermodynamics_isotensional_nondimensional_end_to_end_length_per_link
          ℓ w nondimensional_force =
        s.nondimensional_end_to_end_length_per_link nondimensional_force) ∧
      (∀ force temperature : α, Polymers.C.physics_single_chain_swfjc_thermodynamics_isotensional_gibbs_free_energy
          N ℓ m w force temperature =
        s.gibbs_free_energy force temperature) ∧
      (∀ force temperature : α, Polymers.C.physics_single_chain_swfjc_thermodynamics_isotensional_gibbs_free_energy_per_link
          ℓ m w force temperature =
        s.gibbs_free_energy_per_link force temperature) ∧
      (∀ force temperature : α, Polymers.C.physics_single_chain_swfjc_thermodynamics_isotensional_relative_gibbs_free_energy
          N ℓ w force temperature =
        s.relative_gibbs_free_energy force temperature) ∧
      (∀ force temperature : α, Polymers.C.physics_single_chain_swfjc_thermodynamics_isotensional_relative_gibbs_free_energy_per_link
          ℓ w force temperature =
        s.relative_gibbs_free_energy_per_link force temperature) ∧
      (∀ nondimensional_force temperature : α, Polymers.C.physics_single_chain_swfjc_thermodynamics_isotensional_nondimensional_gibbs_free_energy
          N ℓ m w nondimensional_force temperature =
        s.nondimensional_gibbs_free_energy nondimensional_force temperature) ∧
      (∀ nondimensional_force temperature : α, Polymers.C.physics_single_chain_swfjc_thermodynamics_isotensional_nondimensional_gibbs_free_energy_per_link
          ℓ m w nondimensional_force temperature =
        s.nondimensional_gibbs_free_energy_per_link nondimensional_force temperature) ∧
      (∀ nondimensional_force : α, Polymers.C.physics_single_chain_swfjc_thermodynamics_isotensional_nondimensional_relative_gibbs_free_energy
          N ℓ w nondimensional_force =
        s.nondimensional_relative_gibbs_free_energy nondimensional_force) ∧
      (∀ nondimensional_force : α, Polymers.C.physics_single_chain_swfjc_thermodynamics_isotensional_nondimensional_relative_gibbs_free_energy_per_link
          ℓ w nondimensional_force =
        s.nondimensional_relative_gibbs_free_energy_per_link nondimensional_force) := by
  exact ⟨fun _ _ => rfl, fun _ _ => rfl, fun _ => rfl, fun _ => rfl, fun _ _ => rfl, fun _ _ => rfl, fun _ _ => rfl, fun _ _ => rfl, fun _ _ => rfl, fun _ _ => rfl, fun _ => rfl, fun _ => rfl⟩

end Polymers.Props
