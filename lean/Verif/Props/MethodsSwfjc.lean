/- Generated by tools/gen_methods.py ; do not edit by hand. -/
import Verif.Model.Swfjc

/-! Properties C37 and C38.  Over any number type, so in particular over floating-point numbers. -/

namespace Polymers.Props

set_option linter.unusedSectionVars false

variable {α : Type} [Add α] [Sub α] [Mul α] [Div α] [Neg α] [OfScientific α] [NatCast α] [Elem α]

/-- C37: `SWFJC` of `src/physics/single_chain/swfjc/thermodynamics/isometric/legendre/mod.rs` as reached from `SWFJC::init` holds the inputs. -/
theorem C37_swfjc_isometric_legendre (N : Nat) (ℓ : α) (m : α) (w : α) :
    let s := (Polymers.swfjc.SWFJC.init N ℓ m w).thermodynamics.isometric.legendre
    s.hinge_mass = m ∧
      s.link_length = ℓ ∧
      s.number_of_links = N ∧
      s.well_width = w ∧
      s = Polymers.swfjc.thermodynamics.isometric.legendre.SWFJC.init N ℓ m w := by
  exact ⟨rfl, rfl, rfl, rfl, rfl⟩

/-- C38: every method of `SWFJC` of `src/physics/single_chain/swfjc/thermodynamics/isometric/legendre/mod.rs` is the free function at the stored inputs. -/
theorem C38_swfjc_isometric_legendre (N : Nat) (ℓ : α) (m : α) (w : α) :
    let s := (Polymers.swfjc.SWFJC.init N ℓ m w).thermodynamics.isometric.legendre
    (∀ end_to_end_length temperature : α, s.force end_to_end_length temperature =
        Polymers.swfjc.thermodynamics.isometric.legendre.force N ℓ w end_to_end_length temperature) ∧
      (∀ nondimensional_end_to_end_length_per_link : α, s.nondimensional_force nondimensional_end_to_end_length_per_link =
        Polymers.swfjc.thermodynamics.isometric.legendre.nondimensional_force ℓ w nondimensional_end_to_end_length_per_link) ∧
      (∀ end_to_end_length temperature : α, s.helmholtz_free_energy end_to_end_length temperature =
        Polymers.swfjc.thermodynamics.isometric.legendre.helmholtz_free_energy N ℓ m w end_to_end_length temperature) ∧
      (∀ end_to_end_length temperature : α, s.helmholtz_free_energy_per_link end_to_end_length temperature =
        Polymers.swfjc.thermodynamics.isometric.legendre.helmholtz_free_energy_per_link N ℓ m w end_to_end_length temperature) ∧
      (∀ end_to_end_length temperature : α, s.relative_helmholtz_free_energy end_to_end_length temperature =
        Polymers.swfjc.thermodynamics.isometric.legendre.relative_helmholtz_free_energy N ℓ w end_to_end_length temperature) ∧
      (∀ end_to_end_length temperature : α, s.relative_helmholtz_free_energy_per_link end_to_end_length temperature =
        Polymers.swfjc.thermodynamics.isometric.legendre.relative_helmholtz_free_energy_per_link N ℓ w end_to_end_length temperature) ∧
      (∀ nondimensional_end_to_end_length_per_link temperature : α, s.nondimensional_helmholtz_free_energy nondimensional_end_to_end_length_per_link temperature =
        Polymers.swfjc.thermodynamics.isometric.legendre.nondimensional_helmholtz_free_energy N ℓ m w nondimensional_end_to_end_length_per_link temperature) ∧
      (∀ nondimensional_end_to_end_length_per_link temperature : α, s.nondimensional_helmholtz_free_energy_per_link nondimensional_end_to_end_length_per_link temperature =
        Polymers.swfjc.thermodynamics.isometric.legendre.nondimensional_helmholtz_free_energy_per_link N ℓ m w nondimensional_end_to_end_length_per_link temperature) ∧
      (∀ nondimensional_end_to_end_length_per_link : α, s.nondimensional_relative_helmholtz_free_energy nondimensional_end_to_end_length_per_link =
        Polymers.swfjc.thermodynamics.isometric.legendre.nondimensional_relative_helmholtz_free_energy N ℓ w nondimensional_end_to_end_length_per_link) ∧
      (∀ nondimensional_end_to_end_length_per_link : α, s.nondimensional_relative_helmholtz_free_energy_per_link nondimensional_end_to_end_length_per_link =
        Polymers.swfjc.thermodynamics.isometric.legendre.nondimensional_relative_helmholtz_free_energy_per_link ℓ w nondimensional_end_to_end_length_per_link) ∧
      (∀ end_to_end_length : α, s.equilibrium_distribution end_to_end_length =
        Polymers.swfjc.thermodynamics.isometric.legendre.equilibrium_distribution N ℓ w s.normalization_nondimensional_equilibrium_distribution end_to_end_length) ∧
      (∀ nondimensional_end_to_end_length_per_link : α, s.nondimensional_equilibrium_distribution nondimensional_end_to_end_length_per_link =
        Polymers.swfjc.thermodynamics.isometric.legendre.nondimensional_equilibrium_distribution N ℓ w s.normalization_nondimensional_equilibrium_distribution nondimensional_end_to_end_length_per_link) ∧
      (∀ end_to_end_length : α, s.equilibrium_radial_distribution end_to_end_length =
        Polymers.swfjc.thermodynamics.isometric.legendre.equilibrium_radial_distribution N ℓ w s.normalization_nondimensional_equilibrium_distribution end_to_end_length) ∧
      (∀ nondimensional_end_to_end_length_per_link : α, s.nondimensional_equilibrium_radial_distribution nondimensional_end_to_end_length_per_link =
        Polymers.swfjc.thermodynamics.isometric.legendre.nondimensional_equilibrium_radial_distribution N ℓ w s.normalization_nondimensional_equilibrium_distribution nondimensional_end_to_end_length_per_link) := by
  exact ⟨fun _ _ => rfl, fun _ => rfl, fun _ _ => rfl, fun _ _ => rfl, fun _ _ => rfl, fun _ _ => rfl, fun _ _ => rfl, fun _ _ => rfl, fun _ => rfl, fun _ => rfl, fun _ => rfl, fun _ => rfl, fun _ => rfl, fun _ => rfl⟩

/-- C37: `SWFJC` of `src/physics/single_chain/swfjc/thermodynamics/isotensional/legendre/mod.rs` as reached from `SWFJC::init` holds the inputs. -/
theorem C37_swfjc_isotensional_legendre (N : Nat) (ℓ : α) (m : α) (w : α) :
    let s := (Polymers.swfjc.SWFJC.init N ℓ m w).thermodynamics.isotensional.legendre
    s.hinge_mass = m ∧
      s.link_length = ℓ ∧
      s.number_of_links = N ∧
      s.well_width = w ∧
      s = Polymers.swfjc.thermodynamics.isotensional.legendre.SWFJC.init N ℓ m w := by
  exact ⟨rfl, rfl, rfl, rfl, rfl⟩

/-- C38: every method of `SWFJC` of `src/physics/single_chain/swfjc/thermodynamics/isotensional/legendre/mod.rs` is the free function at the stored inputs. -/
theorem C38_swfjc_isotensional_legendre (N : Nat) (ℓ : α) (m : α) (w : α) :
    let s := (Polymers.swfjc.SWFJC.init N ℓ m w).thermodynamics.isotensional.legendre
    (∀ force temperature : α, s.helmholtz_free_energy force temperature =
        Polymers.swfjc.thermodynamics.isotensional.legendre.helmholtz_free_energy N ℓ m w force temperature) ∧
      (∀ force temperature : α, s.helmholtz_free_energy_per_link force temperature =
        Polymers.swfjc.thermodynamics.isotensional.legendre.helmholtz_free_energy_per_link ℓ m w force temperature) ∧
      (∀ force temperature : α, s.relative_helmholtz_free_energy force temperature =
        Polymers.swfjc.thermodynamics.isotensional.legendre.relative_helmholtz_free_energy N ℓ w force temperature) ∧
      (∀ force temperature : α, s.relative_helmholtz_free_energy_per_link force temperature =
        Polymers.swfjc.thermodynamics.isotensional.legendre.relative_helmholtz_free_energy_per_link ℓ w force temperature) ∧
      (∀ nondimensional_force temperature : α, s.nondimensional_helmholtz_free_energy nondimensional_force temperature =
        Polymers.swfjc.thermodynamics.isotensional.legendre.nondimensional_helmholtz_free_energy N ℓ m w nondimensional_force temperature) ∧
      (∀ nondimensional_force temperature : α, s.nondimensional_helmholtz_free_energy_per_link nondimensional_force temperature =
        Polymers.swfjc.thermodynamics.isotensional.legendre.nondimensional_helmholtz_free_energy_per_link ℓ m w nondimensional_force temperature) ∧
      (∀ nondimensional_force : α, s.nondimensional_relative_helmholtz_free_energy nondimensional_force =
        Polymers.swfjc.thermodynamics.isotensional.legendre.nondimensional_relative_helmholtz_free_energy N ℓ w nondimensional_force) ∧
      (∀ nondimensional_force : α, s.nondimensional_relative_helmholtz_free_energy_per_link nondimensional_force =
        Polymers.swfjc.thermodynamics.isotensional.legendre.nondimensional_relative_helmholtz_free_energy_per_link ℓ w nondimensional_force) := by
  exact ⟨fun _ _ => rfl, fun _ _ => rfl, fun _ _ => rfl, fun _ _ => rfl, fun _ _ => rfl, fun _ _ => rfl, fun _ => rfl, fun _ => rfl⟩

/-- C37: `SWFJC` of `src/physics/single_chain/swfjc/thermodynamics/isometric/mod.rs` as reached from `SWFJC::init` holds the inputs. -/
theorem C37_swfjc_isometric (N : Nat) (ℓ : α) (m : α) (w : α) :
    let s := (Polymers.swfjc.SWFJC.init N ℓ m w).thermodynamics.isometric
    s.hinge_mass = m ∧
      s.link_length = ℓ ∧
      s.number_of_links = N ∧
      s.well_width = w ∧
      s = Polymers.swfjc.thermodynamics.isometric.SWFJC.init N ℓ m w := by
  exact ⟨rfl, rfl, rfl, rfl, rfl⟩

/-- C37: `SWFJC` of `src/physics/single_chain/swfjc/thermodynamics/isotensional/mod.rs` as reached from `SWFJC::init` holds the inputs. -/
theorem C37_swfjc_isotensional (N : Nat) (ℓ : α) (m : α) (w : α) :
    let s := (Polymers.swfjc.SWFJC.init N ℓ m w).thermodynamics.isotensional
    s.hinge_mass = m ∧
      s.link_length = ℓ ∧
      s.number_of_links = N ∧
      s.well_width = w ∧
      s = Polymers.swfjc.thermodynamics.isotensional.SWFJC.init N ℓ m w := by
  exact ⟨rfl, rfl, rfl, rfl, rfl⟩

/-- C38: every method of `SWFJC` of `src/physics/single_chain/swfjc/thermodynamics/isotensional/mod.rs` is the free function at the stored inputs. -/
theorem C38_swfjc_isotensional (N : Nat) (ℓ : α) (m : α) (w : α) :
    let s := (Polymers.swfjc.SWFJC.init N ℓ m w).thermodynamics.isotensional
    (∀ force temperature : α, s.end_to_end_length force temperature =
        Polymers.swfjc.thermodynamics.isotensional.end_to_end_length N ℓ w force temperature) ∧
      (∀ force temperature : α, s.end_to_end_length_per_link force temperature =
        Polymers.swfjc.thermodynamics.isotensional.end_to_end_length_per_link ℓ w force temperature) ∧
      (∀ nondimensional_force : α, s.nondimensional_end_to_end_length nondimensional_force =
        Polymers.swfjc.thermodynamics.isotensional.nondimensional_end_to_end_length N ℓ w nondimensional_force) ∧
      (∀ nondimensional_force : α, s.nondimensional_end_to_end_length_per_link nondimensional_force =
        Polymers.swfjc.thermodynamics.isotensional.nondimensional_end_to_end_length_per_link ℓ w nondimensional_force) ∧
      (∀ force temperature : α, s.gibbs_free_energy force temperature =
        Polymers.swfjc.thermodynamics.isotensional.gibbs_free_energy N ℓ m w force temperature) ∧
      (∀ force temperature : α, s.gibbs_free_energy_per_link force temperature =
        Polymers.swfjc.thermodynamics.isotensional.gibbs_free_energy_per_link ℓ m w force temperature) ∧
      (∀ force temperature : α, s.relative_gibbs_free_energy force temperature =
        Polymers.swfjc.thermodynamics.isotensional.relative_gibbs_free_energy N ℓ w force temperature) ∧
      (∀ force temperature : α, s.relative_gibbs_free_energy_per_link force temperature =
        Polymers.swfjc.thermodynamics.isotensional.relative_gibbs_free_energy_per_link ℓ w force temperature) ∧
      (∀ nondimensional_force temperature : α, s.nondimensional_gibbs_free_energy nondimensional_force temperature =
        Polymers.swfjc.thermodynamics.isotensional.nondimensional_gibbs_free_energy N ℓ m w nondimensional_force temperature) ∧
      (∀ nondimensional_force temperature : α, s.nondimensional_gibbs_free_energy_per_link nondimensional_force temperature =
        Polymers.swfjc.thermodynamics.isotensional.nondimensional_gibbs_free_energy_per_link ℓ m w nondimensional_force temperature) ∧
      (∀ nondimensional_force : α, s.nondimensional_relative_gibbs_free_energy nondimensional_force =
        Polymers.swfjc.thermodynamics.isotensional.nondimensional_relative_gibbs_free_energy N ℓ w nondimensional_force) ∧
      (∀ nondimensional_force : α, s.nondimensional_relative_gibbs_free_energy_per_link nondimensional_force =
        Polymers.swfjc.thermodynamics.isotensional.nondimensional_relative_gibbs_free_energy_per_link ℓ w nondimensional_force) := by
  exact ⟨fun _ _ => rfl, fun _ _ => rfl, fun _ => rfl, fun _ => rfl, fun _ _ => rfl, fun _ _ => rfl, fun _ _ => rfl, fun _ _ => rfl, fun _ _ => rfl, fun _ _ => rfl, fun _ => rfl, fun _ => rfl⟩

/-- C37: `SWFJC` of `src/physics/single_chain/swfjc/thermodynamics/mod.rs` as reached from `SWFJC::init` holds the inputs. -/
theorem C37_swfjc_thermodynamics (N : Nat) (ℓ : α) (m : α) (w : α) :
    let s := (Polymers.swfjc.SWFJC.init N ℓ m w).thermodynamics
    s.hinge_mass = m ∧
      s.link_length = ℓ ∧
      s.number_of_links = N ∧
      s.well_width = w ∧
      s = Polymers.swfjc.thermodynamics.SWFJC.init N ℓ m w := by
  exact ⟨rfl, rfl, rfl, rfl, rfl⟩

/-- C37: `SWFJC` of `src/physics/single_chain/swfjc/mod.rs` as reached from `SWFJC::init` holds the inputs. -/
theorem C37_swfjc (N : Nat) (ℓ : α) (m : α) (w : α) :
    let s := (Polymers.swfjc.SWFJC.init N ℓ m w)
    s.hinge_mass = m ∧
      s.link_length = ℓ ∧
      s.number_of_links = N ∧
      s.well_width = w := by
  exact ⟨rfl, rfl, rfl, rfl⟩

end Polymers.Props
