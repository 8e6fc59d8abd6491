/- Generated by tools/gen_methods.py ; do not edit by hand. -/
import Verif.Model.Wlc

/-! Properties C37 and C38.  Over any number type, so in particular over floating-point numbers. -/

namespace Polymers.Props

set_option linter.unusedSectionVars false

variable {α : Type} [Add α] [Sub α] [Mul α] [Div α] [Neg α] [OfScientific α] [NatCast α] [Elem α]

/-- C37: `WLC` of `src/physics/single_chain/wlc/thermodynamics/isometric/legendre/mod.rs` as reached from `WLC::init` holds the inputs. -/
theorem C37_wlc_isometric_legendre (N : Nat) (ℓ : α) (m : α) (p : α) :
    let s := (Polymers.wlc.WLC.init N ℓ m p).thermodynamics.isometric.legendre
    s.hinge_mass = m ∧
      s.link_length = ℓ ∧
      s.number_of_links = N ∧
      s.persistance_length = p ∧
      s = Polymers.wlc.thermodynamics.isometric.legendre.WLC.init N ℓ m p := by
  exact ⟨rfl, rfl, rfl, rfl, rfl⟩

/-- C38: every method of `WLC` of `src/physics/single_chain/wlc/thermodynamics/isometric/legendre/mod.rs` is the free function at the stored inputs. -/
theorem C38_wlc_isometric_legendre (N : Nat) (ℓ : α) (m : α) (p : α) :
    let s := (Polymers.wlc.WLC.init N ℓ m p).thermodynamics.isometric.legendre
    (∀ end_to_end_length temperature : α, s.gibbs_free_energy end_to_end_length temperature =
        Polymers.wlc.thermodynamics.isometric.legendre.gibbs_free_energy N ℓ m p end_to_end_length temperature) ∧
      (∀ end_to_end_length temperature : α, s.gibbs_free_energy_per_link end_to_end_length temperature =
        Polymers.wlc.thermodynamics.isometric.legendre.gibbs_free_energy_per_link N ℓ m p end_to_end_length temperature) ∧
      (∀ end_to_end_length temperature : α, s.relative_gibbs_free_energy end_to_end_length temperature =
        Polymers.wlc.thermodynamics.isometric.legendre.relative_gibbs_free_energy N ℓ p end_to_end_length temperature) ∧
      (∀ end_to_end_length temperature : α, s.relative_gibbs_free_energy_per_link end_to_end_length temperature =
        Polymers.wlc.thermodynamics.isometric.legendre.relative_gibbs_free_energy_per_link N ℓ p end_to_end_length temperature) ∧
      (∀ nondimensional_end_to_end_length_per_link temperature : α, s.nondimensional_gibbs_free_energy nondimensional_end_to_end_length_per_link temperature =
        Polymers.wlc.thermodynamics.isometric.legendre.nondimensional_gibbs_free_energy N ℓ m (p / (N : α) / ℓ) nondimensional_end_to_end_length_per_link temperature) ∧
      (∀ nondimensional_end_to_end_length_per_link temperature : α, s.nondimensional_gibbs_free_energy_per_link nondimensional_end_to_end_length_per_link temperature =
        Polymers.wlc.thermodynamics.isometric.legendre.nondimensional_gibbs_free_energy_per_link N ℓ m (p / (N : α) / ℓ) nondimensional_end_to_end_length_per_link temperature) ∧
      (∀ nondimensional_end_to_end_length_per_link : α, s.nondimensional_relative_gibbs_free_energy nondimensional_end_to_end_length_per_link =
        Polymers.wlc.thermodynamics.isometric.legendre.nondimensional_relative_gibbs_free_energy N (p / (N : α) / ℓ) nondimensional_end_to_end_length_per_link) ∧
      (∀ nondimensional_end_to_end_length_per_link : α, s.nondimensional_relative_gibbs_free_energy_per_link nondimensional_end_to_end_length_per_link =
        Polymers.wlc.thermodynamics.isometric.legendre.nondimensional_relative_gibbs_free_energy_per_link N (p / (N : α) / ℓ) nondimensional_end_to_end_length_per_link) := by
  exact ⟨fun _ _ => rfl, fun _ _ => rfl, fun _ _ => rfl, fun _ _ => rfl, fun _ _ => rfl, fun _ _ => rfl, fun _ => rfl, fun _ => rfl⟩

/-- C37: `WLC` of `src/physics/single_chain/wlc/thermodynamics/isotensional/legendre/mod.rs` as reached from `WLC::init` holds the inputs. -/
theorem C37_wlc_isotensional_legendre (N : Nat) (ℓ : α) (m : α) (p : α) :
    let s := (Polymers.wlc.WLC.init N ℓ m p).thermodynamics.isotensional.legendre
    s.hinge_mass = m ∧
      s.link_length = ℓ ∧
      s.number_of_links = N ∧
      s.persistance_length = p ∧
      s = Polymers.wlc.thermodynamics.isotensional.legendre.WLC.init N ℓ m p := by
  exact ⟨rfl, rfl, rfl, rfl, rfl⟩

/-- C38: every method of `WLC` of `src/physics/single_chain/wlc/thermodynamics/isotensional/legendre/mod.rs` is the free function at the stored inputs. -/
theorem C38_wlc_isotensional_legendre (N : Nat) (ℓ : α) (m : α) (p : α) :
    let s := (Polymers.wlc.WLC.init N ℓ m p).thermodynamics.isotensional.legendre
    (∀ force temperature : α, s.helmholtz_free_energy force temperature =
        Polymers.wlc.thermodynamics.isotensional.legendre.helmholtz_free_energy N ℓ m p force temperature) ∧
      (∀ force temperature : α, s.helmholtz_free_energy_per_link force temperature =
        Polymers.wlc.thermodynamics.isotensional.legendre.helmholtz_free_energy_per_link N ℓ m p force temperature) ∧
      (∀ force temperature : α, s.relative_helmholtz_free_energy force temperature =
        Polymers.wlc.thermodynamics.isotensional.legendre.relative_helmholtz_free_energy N ℓ p force temperature) ∧
      (∀ force temperature : α, s.relative_helmholtz_free_energy_per_link force temperature =
        Polymers.wlc.thermodynamics.isotensional.legendre.relative_helmholtz_free_energy_per_link N ℓ p force temperature) ∧
      (∀ nondimensional_force temperature : α, s.nondimensional_helmholtz_free_energy nondimensional_force temperature =
        Polymers.wlc.thermodynamics.isotensional.legendre.nondimensional_helmholtz_free_energy N ℓ m (p / (N : α) / ℓ) nondimensional_force temperature) ∧
      (∀ nondimensional_force temperature : α, s.nondimensional_helmholtz_free_energy_per_link nondimensional_force temperature =
        Polymers.wlc.thermodynamics.isotensional.legendre.nondimensional_helmholtz_free_energy_per_link N ℓ m (p / (N : α) / ℓ) nondimensional_force temperature) ∧
      (∀ nondimensional_force : α, s.nondimensional_relative_helmholtz_free_energy nondimensional_force =
        Polymers.wlc.thermodynamics.isotensional.legendre.nondimensional_relative_helmholtz_free_energy N (p / (N : α) / ℓ) nondimensional_force) ∧
      (∀ nondimensional_force : α, s.nondimensional_relative_helmholtz_free_energy_per_link nondimensional_force =
        Polymers.wlc.thermodynamics.isotensional.legendre.nondimensional_relative_helmholtz_free_energy_per_link N (p / (N : α) / ℓ) nondimensional_force) := by
  exact ⟨fun _ _ => rfl, fun _ _ => rfl, fun _ _ => rfl, fun _ _ => rfl, fun _ _ => rfl, fun _ _ => rfl, fun _ => rfl, fun _ => rfl⟩

/-- C37: `WLC` of `src/physics/single_chain/wlc/thermodynamics/isometric/mod.rs` as reached from `WLC::init` holds the inputs. -/
theorem C37_wlc_isometric (N : Nat) (ℓ : α) (m : α) (p : α) :
    let s := (Polymers.wlc.WLC.init N ℓ m p).thermodynamics.isometric
    s.hinge_mass = m ∧
      s.link_length = ℓ ∧
      s.number_of_links = N ∧
      s.persistance_length = p ∧
      s = Polymers.wlc.thermodynamics.isometric.WLC.init N ℓ m p := by
  exact ⟨rfl, rfl, rfl, rfl, rfl⟩

/-- C38: every method of `WLC` of `src/physics/single_chain/wlc/thermodynamics/isometric/mod.rs` is the free function at the stored inputs. -/
theorem C38_wlc_isometric (N : Nat) (ℓ : α) (m : α) (p : α) :
    let s := (Polymers.wlc.WLC.init N ℓ m p).thermodynamics.isometric
    (∀ end_to_end_length temperature : α, s.force end_to_end_length temperature =
        Polymers.wlc.thermodynamics.isometric.force N ℓ p end_to_end_length temperature) ∧
      (∀ nondimensional_end_to_end_length_per_link : α, s.nondimensional_force nondimensional_end_to_end_length_per_link =
        Polymers.wlc.thermodynamics.isometric.nondimensional_force N (p / (N : α) / ℓ) nondimensional_end_to_end_length_per_link) ∧
      (∀ end_to_end_length temperature : α, s.helmholtz_free_energy end_to_end_length temperature =
        Polymers.wlc.thermodynamics.isometric.helmholtz_free_energy N ℓ m p end_to_end_length temperature) ∧
      (∀ end_to_end_length temperature : α, s.helmholtz_free_energy_per_link end_to_end_length temperature =
        Polymers.wlc.thermodynamics.isometric.helmholtz_free_energy_per_link N ℓ m p end_to_end_length temperature) ∧
      (∀ end_to_end_length temperature : α, s.relative_helmholtz_free_energy end_to_end_length temperature =
        Polymers.wlc.thermodynamics.isometric.relative_helmholtz_free_energy N ℓ p end_to_end_length temperature) ∧
      (∀ end_to_end_length temperature : α, s.relative_helmholtz_free_energy_per_link end_to_end_length temperature =
        Polymers.wlc.thermodynamics.isometric.relative_helmholtz_free_energy_per_link N ℓ p end_to_end_length temperature) ∧
      (∀ nondimensional_end_to_end_length_per_link temperature : α, s.nondimensional_helmholtz_free_energy nondimensional_end_to_end_length_per_link temperature =
        Polymers.wlc.thermodynamics.isometric.nondimensional_helmholtz_free_energy N ℓ m (p / (N : α) / ℓ) nondimensional_end_to_end_length_per_link temperature) ∧
      (∀ nondimensional_end_to_end_length_per_link temperature : α, s.nondimensional_helmholtz_free_energy_per_link nondimensional_end_to_end_length_per_link temperature =
        Polymers.wlc.thermodynamics.isometric.nondimensional_helmholtz_free_energy_per_link N ℓ m (p / (N : α) / ℓ) nondimensional_end_to_end_length_per_link temperature) ∧
      (∀ nondimensional_end_to_end_length_per_link : α, s.nondimensional_relative_helmholtz_free_energy nondimensional_end_to_end_length_per_link =
        Polymers.wlc.thermodynamics.isometric.nondimensional_relative_helmholtz_free_energy (p / (N : α) / ℓ) nondimensional_end_to_end_length_per_link) ∧
      (∀ nondimensional_end_to_end_length_per_link : α, s.nondimensional_relative_helmholtz_free_energy_per_link nondimensional_end_to_end_length_per_link =
        Polymers.wlc.thermodynamics.isometric.nondimensional_relative_helmholtz_free_energy_per_link N (p / (N : α) / ℓ) nondimensional_end_to_end_length_per_link) ∧
      (∀ end_to_end_length : α, s.equilibrium_distribution end_to_end_length =
        Polymers.wlc.thermodynamics.isometric.equilibrium_distribution N ℓ p s.normalization_nondimensional_equilibrium_distribution end_to_end_length) ∧
      (∀ nondimensional_end_to_end_length_per_link : α, s.nondimensional_equilibrium_distribution nondimensional_end_to_end_length_per_link =
        Polymers.wlc.thermodynamics.isometric.nondimensional_equilibrium_distribution (p / (N : α) / ℓ) s.normalization_nondimensional_equilibrium_distribution nondimensional_end_to_end_length_per_link) ∧
      (∀ end_to_end_length : α, s.equilibrium_radial_distribution end_to_end_length =
        Polymers.wlc.thermodynamics.isometric.equilibrium_radial_distribution N ℓ p s.normalization_nondimensional_equilibrium_distribution end_to_end_length) ∧
      (∀ nondimensional_end_to_end_length_per_link : α, s.nondimensional_equilibrium_radial_distribution nondimensional_end_to_end_length_per_link =
        Polymers.wlc.thermodynamics.isometric.nondimensional_equilibrium_radial_distribution (p / (N : α) / ℓ) s.normalization_nondimensional_equilibrium_distribution nondimensional_end_to_end_length_per_link) := by
  exact ⟨fun _ _ => rfl, fun _ => rfl, fun _ _ => rfl, fun _ _ => rfl, fun _ _ => rfl, fun _ _ => rfl, fun _ _ => rfl, fun _ _ => rfl, fun _ => rfl, fun _ => rfl, fun _ => rfl, fun _ => rfl, fun _ => rfl, fun _ => rfl⟩

/-- C37: `WLC` of `src/physics/single_chain/wlc/thermodynamics/isotensional/mod.rs` as reached from `WLC::init` holds the inputs. -/
theorem C37_wlc_isotensional (N : Nat) (ℓ : α) (m : α) (p : α) :
    let s := (Polymers.wlc.WLC.init N ℓ m p).thermodynamics.isotensional
    s.hinge_mass = m ∧
      s.link_length = ℓ ∧
      s.number_of_links = N ∧
      s.persistance_length = p ∧
      s = Polymers.wlc.thermodynamics.isotensional.WLC.init N ℓ m p := by
  exact ⟨rfl, rfl, rfl, rfl, rfl⟩

/-- C38: every method of `WLC` of `src/physics/single_chain/wlc/thermodynamics/isotensional/mod.rs` is the free function at the stored inputs. -/
theorem C38_wlc_isotensional (N : Nat) (ℓ : α) (m : α) (p : α) :
    let s := (Polymers.wlc.WLC.init N ℓ m p).thermodynamics.isotensional
    (∀ force temperature : α, s.end_to_end_length force temperature =
        Polymers.wlc.thermodynamics.isotensional.end_to_end_length N ℓ p force temperature) ∧
      (∀ force temperature : α, s.end_to_end_length_per_link force temperature =
        Polymers.wlc.thermodynamics.isotensional.end_to_end_length_per_link N ℓ p force temperature) ∧
      (∀ nondimensional_force : α, s.nondimensional_end_to_end_length nondimensional_force =
        Polymers.wlc.thermodynamics.isotensional.nondimensional_end_to_end_length N (p / (N : α) / ℓ) nondimensional_force) ∧
      (∀ nondimensional_force : α, s.nondimensional_end_to_end_length_per_link nondimensional_force =
        Polymers.wlc.thermodynamics.isotensional.nondimensional_end_to_end_length_per_link N (p / (N : α) / ℓ) nondimensional_force) ∧
      (∀ force temperature : α, s.gibbs_free_energy force temperature =
        Polymers.wlc.thermodynamics.isotensional.gibbs_free_energy N ℓ m p force temperature) ∧
      (∀ force temperature : α, s.gibbs_free_energy_per_link force temperature =
        Polymers.wlc.thermodynamics.isotensional.gibbs_free_energy_per_link N ℓ m p force temperature) ∧
      (∀ force temperature : α, s.relative_gibbs_free_energy force temperature =
        Polymers.wlc.thermodynamics.isotensional.relative_gibbs_free_energy N ℓ p force temperature) ∧
      (∀ force temperature : α, s.relative_gibbs_free_energy_per_link force temperature =
        Polymers.wlc.thermodynamics.isotensional.relative_gibbs_free_energy_per_link N ℓ p force temperature) ∧
      (∀ nondimensional_force temperature : α, s.nondimensional_gibbs_free_energy nondimensional_force temperature =
        Polymers.wlc.thermodynamics.isotensional.nondimensional_gibbs_free_energy N ℓ m (p / (N : α) / ℓ) nondimensional_force temperature) ∧
      (∀ nondimensional_force temperature : α, s.nondimensional_gibbs_free_energy_per_link nondimensional_force temperature =
        Polymers.wlc.thermodynamics.isotensional.nondimensional_gibbs_free_energy_per_link N ℓ m (p / (N : α) / ℓ) nondimensional_force temperature) ∧
      (∀ nondimensional_force : α, s.nondimensional_relative_gibbs_free_energy nondimensional_force =
        Polymers.wlc.thermodynamics.isotensional.nondimensional_relative_gibbs_free_energy N (p / (N : α) / ℓ) nondimensional_force) ∧
      (∀ nondimensional_force : α, s.nondimensional_relative_gibbs_free_energy_per_link nondimensional_force =
        Polymers.wlc.thermodynamics.isotensional.nondimensional_relative_gibbs_free_energy_per_link N (p / (N : α) / ℓ) nondimensional_force) := by
  exact ⟨fun _ _ => rfl, fun _ _ => rfl, fun _ => rfl, fun _ => rfl, fun _ _ => rfl, fun _ _ => rfl, fun _ _ => rfl, fun _ _ => rfl, fun _ _ => rfl, fun _ _ => rfl, fun _ => rfl, fun _ => rfl⟩

/-- C37: `WLC` of `src/physics/single_chain/wlc/thermodynamics/mod.rs` as reached from `WLC::init` holds the inputs. -/
theorem C37_wlc_thermodynamics (N : Nat) (ℓ : α) (m : α) (p : α) :
    let s := (Polymers.wlc.WLC.init N ℓ m p).thermodynamics
    s.hinge_mass = m ∧
      s.link_length = ℓ ∧
      s.number_of_links = N ∧
      s.persistance_length = p ∧
      s = Polymers.wlc.thermodynamics.WLC.init N ℓ m p := by
  exact ⟨rfl, rfl, rfl, rfl, rfl⟩

/-- C37: `WLC` of `src/physics/single_chain/wlc/mod.rs` as reached from `WLC::init` holds the inputs. -/
theorem C37_wlc (N : Nat) (ℓ : α) (m : α) (p : α) :
    let s := (Polymers.wlc.WLC.init N ℓ m p)
    s.hinge_mass = m ∧
      s.link_length = ℓ ∧
      s.number_of_links = N ∧
      s.persistance_length = p := by
  exact ⟨rfl, rfl, rfl, rfl⟩

end Polymers.Props
