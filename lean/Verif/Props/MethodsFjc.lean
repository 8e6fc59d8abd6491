/- Generated by tools/gen_methods.py ; do not edit by hand. -/
import Verif.Model.Fjc

/-! Properties C37 and C38.  Over any number type, so in particular over floating-point numbers. -/

namespace Polymers.Props

set_option linter.unusedSectionVars false

variable {α : Type} [Add α] [Sub α] [Mul α] [Div α] [Neg α] [OfScientific α] [NatCast α] [Elem α]

/-- C37: `FJC` of `src/physics/single_chain/fjc/thermodynamics/modified_canonical/asymptotic/strong_potential/mod.rs` as reached from `FJC::init` holds the inputs. -/
theorem C37_fjc_modified_canonical_asymptotic_strong_potential (N : Nat) (ℓ : α) (m : α) :
    let s := (Polymers.fjc.FJC.init N ℓ m).thermodynamics.modified_canonical.asymptotic.strong_potential
    s.hinge_mass = m ∧
      s.link_length = ℓ ∧
      s.number_of_links = N ∧
      s = Polymers.fjc.thermodynamics.modified_canonical.asymptotic.strong_potential.FJC.init N ℓ m := by
  exact ⟨rfl, rfl, rfl, rfl⟩

/-- C38: every method of `FJC` of `src/physics/single_chain/fjc/thermodynamics/modified_canonical/asymptotic/strong_potential/mod.rs` is the free function at the stored inputs. -/
theorem C38_fjc_modified_canonical_asymptotic_strong_potential (N : Nat) (ℓ : α) (m : α) :
    let s := (Polymers.fjc.FJC.init N ℓ m).thermodynamics.modified_canonical.asymptotic.strong_potential
    (∀ potential_distance potential_stiffness temperature : α, s.force potential_distance potential_stiffness temperature =
        Polymers.fjc.thermodynamics.modified_canonical.asymptotic.strong_potential.force N ℓ potential_distance potential_stiffness temperature) ∧
      (∀ nondimensional_potential_distance nondimensional_potential_stiffness : α, s.nondimensional_force nondimensional_potential_distance nondimensional_potential_stiffness =
        Polymers.fjc.thermodynamics.modified_canonical.asymptotic.strong_potential.nondimensional_force N nondimensional_potential_distance nondimensional_potential_stiffness) ∧
      (∀ potential_distance potential_stiffness temperature : α, s.helmholtz_free_energy potential_distance potential_stiffness temperature =
        Polymers.fjc.thermodynamics.modified_canonical.asymptotic.strong_potential.helmholtz_free_energy N ℓ m potential_distance potential_stiffness temperature) ∧
      (∀ potential_distance potential_stiffness temperature : α, s.helmholtz_free_energy_per_link potential_distance potential_stiffness temperature =
        Polymers.fjc.thermodynamics.modified_canonical.asymptotic.strong_potential.helmholtz_free_energy_per_link N ℓ m potential_distance potential_stiffness temperature) ∧
      (∀ potential_distance potential_stiffness temperature : α, s.relative_helmholtz_free_energy potential_distance potential_stiffness temperature =
        Polymers.fjc.thermodynamics.modified_canonical.asymptotic.strong_potential.relative_helmholtz_free_energy N ℓ potential_distance potential_stiffness temperature) ∧
      (∀ potential_distance potential_stiffness temperature : α, s.relative_helmholtz_free_energy_per_link potential_distance potential_stiffness temperature =
        Polymers.fjc.thermodynamics.modified_canonical.asymptotic.strong_potential.relative_helmholtz_free_energy_per_link N ℓ potential_distance potential_stiffness temperature) ∧
      (∀ nondimensional_potential_distance nondimensional_potential_stiffness temperature : α, s.nondimensional_helmholtz_free_energy nondimensional_potential_distance nondimensional_potential_stiffness temperature =
        Polymers.fjc.thermodynamics.modified_canonical.asymptotic.strong_potential.nondimensional_helmholtz_free_energy N ℓ m nondimensional_potential_distance nondimensional_potential_stiffness temperature) ∧
      (∀ nondimensional_potential_distance nondimensional_potential_stiffness temperature : α, s.nondimensional_helmholtz_free_energy_per_link nondimensional_potential_distance nondimensional_potential_stiffness temperature =
        Polymers.fjc.thermodynamics.modified_canonical.asymptotic.strong_potential.nondimensional_helmholtz_free_energy_per_link N ℓ m nondimensional_potential_distance nondimensional_potential_stiffness temperature) ∧
      (∀ nondimensional_potential_distance nondimensional_potential_stiffness : α, s.nondimensional_relative_helmholtz_free_energy nondimensional_potential_distance nondimensional_potential_stiffness =
        Polymers.fjc.thermodynamics.modified_canonical.asymptotic.strong_potential.nondimensional_relative_helmholtz_free_energy N nondimensional_potential_distance nondimensional_potential_stiffness) ∧
      (∀ nondimensional_potential_distance nondimensional_potential_stiffness : α, s.nondimensional_relative_helmholtz_free_energy_per_link nondimensional_potential_distance nondimensional_potential_stiffness =
        Polymers.fjc.thermodynamics.modified_canonical.asymptotic.strong_potential.nondimensional_relative_helmholtz_free_energy_per_link N nondimensional_potential_distance nondimensional_potential_stiffness) := by
  exact ⟨fun _ _ _ => rfl, fun _ _ => rfl, fun _ _ _ => rfl, fun _ _ _ => rfl, fun _ _ _ => rfl, fun _ _ _ => rfl, fun _ _ _ => rfl, fun _ _ _ => rfl, fun _ _ => rfl, fun _ _ => rfl⟩

/-- C37: `FJC` of `src/physics/single_chain/fjc/thermodynamics/modified_canonical/asymptotic/weak_potential/mod.rs` as reached from `FJC::init` holds the inputs. -/
theorem C37_fjc_modified_canonical_asymptotic_weak_potential (N : Nat) (ℓ : α) (m : α) :
    let s := (Polymers.fjc.FJC.init N ℓ m).thermodynamics.modified_canonical.asymptotic.weak_potential
    s.hinge_mass = m ∧
      s.link_length = ℓ ∧
      s.number_of_links = N ∧
      s = Polymers.fjc.thermodynamics.modified_canonical.asymptotic.weak_potential.FJC.init N ℓ m := by
  exact ⟨rfl, rfl, rfl, rfl⟩

/-- C38: every method of `FJC` of `src/physics/single_chain/fjc/thermodynamics/modified_canonical/asymptotic/weak_potential/mod.rs` is the free function at the stored inputs. -/
theorem C38_fjc_modified_canonical_asymptotic_weak_potential (N : Nat) (ℓ : α) (m : α) :
    let s := (Polymers.fjc.FJC.init N ℓ m).thermodynamics.modified_canonical.asymptotic.weak_potential
    (∀ potential_distance potential_stiffness temperature : α, s.end_to_end_length potential_distance potential_stiffness temperature =
        Polymers.fjc.thermodynamics.modified_canonical.asymptotic.weak_potential.end_to_end_length N ℓ potential_distance potential_stiffness temperature) ∧
      (∀ potential_distance potential_stiffness temperature : α, s.end_to_end_length_per_link potential_distance potential_stiffness temperature =
        Polymers.fjc.thermodynamics.modified_canonical.asymptotic.weak_potential.end_to_end_length_per_link N ℓ potential_distance potential_stiffness temperature) ∧
      (∀ nondimensional_potential_distance nondimensional_potential_stiffness : α, s.nondimensional_end_to_end_length nondimensional_potential_distance nondimensional_potential_stiffness =
        Polymers.fjc.thermodynamics.modified_canonical.asymptotic.weak_potential.nondimensional_end_to_end_length N nondimensional_potential_distance nondimensional_potential_stiffness) ∧
      (∀ nondimensional_potential_distance nondimensional_potential_stiffness : α, s.nondimensional_end_to_end_length_per_link nondimensional_potential_distance nondimensional_potential_stiffness =
        Polymers.fjc.thermodynamics.modified_canonical.asymptotic.weak_potential.nondimensional_end_to_end_length_per_link N nondimensional_potential_distance nondimensional_potential_stiffness) ∧
      (∀ potential_distance potential_stiffness : α, s.force potential_distance potential_stiffness =
        Polymers.fjc.thermodynamics.modified_canonical.asymptotic.weak_potential.force potential_distance potential_stiffness) ∧
      (∀ nondimensional_potential_distance nondimensional_potential_stiffness : α, s.nondimensional_force nondimensional_potential_distance nondimensional_potential_stiffness =
        Polymers.fjc.thermodynamics.modified_canonical.asymptotic.weak_potential.nondimensional_force N nondimensional_potential_distance nondimensional_potential_stiffness) ∧
      (∀ potential_distance potential_stiffness temperature : α, s.gibbs_free_energy potential_distance potential_stiffness temperature =
        Polymers.fjc.thermodynamics.modified_canonical.asymptotic.weak_potential.gibbs_free_energy N ℓ m potential_distance potential_stiffness temperature) ∧
      (∀ potential_distance potential_stiffness temperature : α, s.gibbs_free_energy_per_link potential_distance potential_stiffness temperature =
        Polymers.fjc.thermodynamics.modified_canonical.asymptotic.weak_potential.gibbs_free_energy_per_link N ℓ m potential_distance potential_stiffness temperature) ∧
      (∀ potential_distance potential_stiffness temperature : α, s.relative_gibbs_free_energy potential_distance potential_stiffness temperature =
        Polymers.fjc.thermodynamics.modified_canonical.asymptotic.weak_potential.relative_gibbs_free_energy N ℓ potential_distance potential_stiffness temperature) ∧
      (∀ potential_distance potential_stiffness temperature : α, s.relative_gibbs_free_energy_per_link potential_distance potential_stiffness temperature =
        Polymers.fjc.thermodynamics.modified_canonical.asymptotic.weak_potential.relative_gibbs_free_energy_per_link N ℓ potential_distance potential_stiffness temperature) ∧
      (∀ nondimensional_potential_distance nondimensional_potential_stiffness temperature : α, s.nondimensional_gibbs_free_energy nondimensional_potential_distance nondimensional_potential_stiffness temperature =
        Polymers.fjc.thermodynamics.modified_canonical.asymptotic.weak_potential.nondimensional_gibbs_free_energy N ℓ m nondimensional_potential_distance nondimensional_potential_stiffness temperature) ∧
      (∀ nondimensional_potential_distance nondimensional_potential_stiffness temperature : α, s.nondimensional_gibbs_free_energy_per_link nondimensional_potential_distance nondimensional_potential_stiffness temperature =
        Polymers.fjc.thermodynamics.modified_canonical.asymptotic.weak_potential.nondimensional_gibbs_free_energy_per_link N ℓ m nondimensional_potential_distance nondimensional_potential_stiffness temperature) ∧
      (∀ nondimensional_potential_distance nondimensional_potential_stiffness : α, s.nondimensional_relative_gibbs_free_energy nondimensional_potential_distance nondimensional_potential_stiffness =
        Polymers.fjc.thermodynamics.modified_canonical.asymptotic.weak_potential.nondimensional_relative_gibbs_free_energy N nondimensional_potential_distance nondimensional_potential_stiffness) ∧
      (∀ nondimensional_potential_distance nondimensional_potential_stiffness : α, s.nondimensional_relative_gibbs_free_energy_per_link nondimensional_potential_distance nondimensional_potential_stiffness =
        Polymers.fjc.thermodynamics.modified_canonical.asymptotic.weak_potential.nondimensional_relative_gibbs_free_energy_per_link N nondimensional_potential_distance nondimensional_potential_stiffness) := by
  exact ⟨fun _ _ _ => rfl, fun _ _ _ => rfl, fun _ _ => rfl, fun _ _ => rfl, fun _ _ => rfl, fun _ _ => rfl, fun _ _ _ => rfl, fun _ _ _ => rfl, fun _ _ _ => rfl, fun _ _ _ => rfl, fun _ _ _ => rfl, fun _ _ _ => rfl, fun _ _ => rfl, fun _ _ => rfl⟩

/-- C37: `FJC` of `src/physics/single_chain/fjc/thermodynamics/isometric/legendre/mod.rs` as reached from `FJC::init` holds the inputs. -/
theorem C37_fjc_isometric_legendre (N : Nat) (ℓ : α) (m : α) :
    let s := (Polymers.fjc.FJC.init N ℓ m).thermodynamics.isometric.legendre
    s.hinge_mass = m ∧
      s.link_length = ℓ ∧
      s.number_of_links = N ∧
      s = Polymers.fjc.thermodynamics.isometric.legendre.FJC.init N ℓ m := by
  exact ⟨rfl, rfl, rfl, rfl⟩

/-- C38: every method of `FJC` of `src/physics/single_chain/fjc/thermodynamics/isometric/legendre/mod.rs` is the free function at the stored inputs. -/
theorem C38_fjc_isometric_legendre (N : Nat) (ℓ : α) (m : α) :
    let s := (Polymers.fjc.FJC.init N ℓ m).thermodynamics.isometric.legendre
    (∀ end_to_end_length temperature : α, s.force end_to_end_length temperature =
        Polymers.fjc.thermodynamics.isometric.legendre.force N ℓ end_to_end_length temperature) ∧
      (∀ nondimensional_end_to_end_length_per_link : α, s.nondimensional_force nondimensional_end_to_end_length_per_link =
        Polymers.fjc.thermodynamics.isometric.legendre.nondimensional_force nondimensional_end_to_end_length_per_link) ∧
      (∀ end_to_end_length temperature : α, s.helmholtz_free_energy end_to_end_length temperature =
        Polymers.fjc.thermodynamics.isometric.legendre.helmholtz_free_energy N ℓ m end_to_end_length temperature) ∧
      (∀ end_to_end_length temperature : α, s.helmholtz_free_energy_per_link end_to_end_length temperature =
        Polymers.fjc.thermodynamics.isometric.legendre.helmholtz_free_energy_per_link N ℓ m end_to_end_length temperature) ∧
      (∀ end_to_end_length temperature : α, s.relative_helmholtz_free_energy end_to_end_length temperature =
        Polymers.fjc.thermodynamics.isometric.legendre.relative_helmholtz_free_energy N ℓ end_to_end_length temperature) ∧
      (∀ end_to_end_length temperature : α, s.relative_helmholtz_free_energy_per_link end_to_end_length temperature =
        Polymers.fjc.thermodynamics.isometric.legendre.relative_helmholtz_free_energy_per_link N ℓ end_to_end_length temperature) ∧
      (∀ nondimensional_end_to_end_length_per_link temperature : α, s.nondimensional_helmholtz_free_energy nondimensional_end_to_end_length_per_link temperature =
        Polymers.fjc.thermodynamics.isometric.legendre.nondimensional_helmholtz_free_energy N ℓ m nondimensional_end_to_end_length_per_link temperature) ∧
      (∀ nondimensional_end_to_end_length_per_link temperature : α, s.nondimensional_helmholtz_free_energy_per_link nondimensional_end_to_end_length_per_link temperature =
        Polymers.fjc.thermodynamics.isometric.legendre.nondimensional_helmholtz_free_energy_per_link N ℓ m nondimensional_end_to_end_length_per_link temperature) ∧
      (∀ nondimensional_end_to_end_length_per_link : α, s.nondimensional_relative_helmholtz_free_energy nondimensional_end_to_end_length_per_link =
        Polymers.fjc.thermodynamics.isometric.legendre.nondimensional_relative_helmholtz_free_energy N nondimensional_end_to_end_length_per_link) ∧
      (∀ nondimensional_end_to_end_length_per_link : α, s.nondimensional_relative_helmholtz_free_energy_per_link nondimensional_end_to_end_length_per_link =
        Polymers.fjc.thermodynamics.isometric.legendre.nondimensional_relative_helmholtz_free_energy_per_link nondimensional_end_to_end_length_per_link) ∧
      (∀ end_to_end_length : α, s.equilibrium_distribution end_to_end_length =
        Polymers.fjc.thermodynamics.isometric.legendre.equilibrium_distribution N ℓ s.normalization_nondimensional_equilibrium_distribution end_to_end_length) ∧
      (∀ nondimensional_end_to_end_length_per_link : α, s.nondimensional_equilibrium_distribution nondimensional_end_to_end_length_per_link =
        Polymers.fjc.thermodynamics.isometric.legendre.nondimensional_equilibrium_distribution N s.normalization_nondimensional_equilibrium_distribution nondimensional_end_to_end_length_per_link) ∧
      (∀ end_to_end_length : α, s.equilibrium_radial_distribution end_to_end_length =
        Polymers.fjc.thermodynamics.isometric.legendre.equilibrium_radial_distribution N ℓ s.normalization_nondimensional_equilibrium_distribution end_to_end_length) ∧
      (∀ nondimensional_end_to_end_length_per_link : α, s.nondimensional_equilibrium_radial_distribution nondimensional_end_to_end_length_per_link =
        Polymers.fjc.thermodynamics.isometric.legendre.nondimensional_equilibrium_radial_distribution N s.normalization_nondimensional_equilibrium_distribution nondimensional_end_to_end_length_per_link) ∧
      (∀ end_to_end_length temperature : α, s.gibbs_free_energy end_to_end_length temperature =
        Polymers.fjc.thermodynamics.isometric.legendre.gibbs_free_energy N ℓ m end_to_end_length temperature) ∧
      (∀ end_to_end_length temperature : α, s.gibbs_free_energy_per_link end_to_end_length temperature =
        Polymers.fjc.thermodynamics.isometric.legendre.gibbs_free_energy_per_link N ℓ m end_to_end_length temperature) ∧
      (∀ end_to_end_length temperature : α, s.relative_gibbs_free_energy end_to_end_length temperature =
        Polymers.fjc.thermodynamics.isometric.legendre.relative_gibbs_free_energy N ℓ end_to_end_length temperature) ∧
      (∀ end_to_end_length temperature : α, s.relative_gibbs_free_energy_per_link end_to_end_length temperature =
        Polymers.fjc.thermodynamics.isometric.legendre.relative_gibbs_free_energy_per_link N ℓ end_to_end_length temperature) ∧
      (∀ nondimensional_end_to_end_length_per_link temperature : α, s.nondimensional_gibbs_free_energy nondimensional_end_to_end_length_per_link temperature =
        Polymers.fjc.thermodynamics.isometric.legendre.nondimensional_gibbs_free_energy N ℓ m nondimensional_end_to_end_length_per_link temperature) ∧
      (∀ nondimensional_end_to_end_length_per_link temperature : α, s.nondimensional_gibbs_free_energy_per_link nondimensional_end_to_end_length_per_link temperature =
        Polymers.fjc.thermodynamics.isometric.legendre.nondimensional_gibbs_free_energy_per_link N ℓ m nondimensional_end_to_end_length_per_link temperature) ∧
      (∀ nondimensional_end_to_end_length_per_link : α, s.nondimensional_relative_gibbs_free_energy nondimensional_end_to_end_length_per_link =
        Polymers.fjc.thermodynamics.isometric.legendre.nondimensional_relative_gibbs_free_energy N nondimensional_end_to_end_length_per_link) ∧
      (∀ nondimensional_end_to_end_length_per_link : α, s.nondimensional_relative_gibbs_free_energy_per_link nondimensional_end_to_end_length_per_link =
        Polymers.fjc.thermodynamics.isometric.legendre.nondimensional_relative_gibbs_free_energy_per_link N nondimensional_end_to_end_length_per_link) := by
  exact ⟨fun _ _ => rfl, fun _ => rfl, fun _ _ => rfl, fun _ _ => rfl, fun _ _ => rfl, fun _ _ => rfl, fun _ _ => rfl, fun _ _ => rfl, fun _ => rfl, fun _ => rfl, fun _ => rfl, fun _ => rfl, fun _ => rfl, fun _ => rfl, fun _ _ => rfl, fun _ _ => rfl, fun _ _ => rfl, fun _ _ => rfl, fun _ _ => rfl, fun _ _ => rfl, fun _ => rfl, fun _ => rfl⟩

/-- C37: `FJC` of `src/physics/single_chain/fjc/thermodynamics/isotensional/legendre/mod.rs` as reached from `FJC::init` holds the inputs. -/
theorem C37_fjc_isotensional_legendre (N : Nat) (ℓ : α) (m : α) :
    let s := (Polymers.fjc.FJC.init N ℓ m).thermodynamics.isotensional.legendre
    s.hinge_mass = m ∧
      s.link_length = ℓ ∧
      s.number_of_links = N ∧
      s = Polymers.fjc.thermodynamics.isotensional.legendre.FJC.init N ℓ m := by
  exact ⟨rfl, rfl, rfl, rfl⟩

/-- C38: every method of `FJC` of `src/physics/single_chain/fjc/thermodynamics/isotensional/legendre/mod.rs` is the free function at the stored inputs. -/
theorem C38_fjc_isotensional_legendre (N : Nat) (ℓ : α) (m : α) :
    let s := (Polymers.fjc.FJC.init N ℓ m).thermodynamics.isotensional.legendre
    (∀ force temperature : α, s.helmholtz_free_energy force temperature =
        Polymers.fjc.thermodynamics.isotensional.legendre.helmholtz_free_energy N ℓ m force temperature) ∧
      (∀ force temperature : α, s.helmholtz_free_energy_per_link force temperature =
        Polymers.fjc.thermodynamics.isotensional.legendre.helmholtz_free_energy_per_link ℓ m force temperature) ∧
      (∀ force temperature : α, s.relative_helmholtz_free_energy force temperature =
        Polymers.fjc.thermodynamics.isotensional.legendre.relative_helmholtz_free_energy N ℓ force temperature) ∧
      (∀ force temperature : α, s.relative_helmholtz_free_energy_per_link force temperature =
        Polymers.fjc.thermodynamics.isotensional.legendre.relative_helmholtz_free_energy_per_link ℓ force temperature) ∧
      (∀ nondimensional_force temperature : α, s.nondimensional_helmholtz_free_energy nondimensional_force temperature =
        Polymers.fjc.thermodynamics.isotensional.legendre.nondimensional_helmholtz_free_energy N ℓ m nondimensional_force temperature) ∧
      (∀ nondimensional_force temperature : α, s.nondimensional_helmholtz_free_energy_per_link nondimensional_force temperature =
        Polymers.fjc.thermodynamics.isotensional.legendre.nondimensional_helmholtz_free_energy_per_link ℓ m nondimensional_force temperature) ∧
      (∀ nondimensional_force : α, s.nondimensional_relative_helmholtz_free_energy nondimensional_force =
        Polymers.fjc.thermodynamics.isotensional.legendre.nondimensional_relative_helmholtz_free_energy N nondimensional_force) ∧
      (∀ nondimensional_force : α, s.nondimensional_relative_helmholtz_free_energy_per_link nondimensional_force =
        Polymers.fjc.thermodynamics.isotensional.legendre.nondimensional_relative_helmholtz_free_energy_per_link nondimensional_force) := by
  exact ⟨fun _ _ => rfl, fun _ _ => rfl, fun _ _ => rfl, fun _ _ => rfl, fun _ _ => rfl, fun _ _ => rfl, fun _ => rfl, fun _ => rfl⟩

/-- C37: `FJC` of `src/physics/single_chain/fjc/thermodynamics/modified_canonical/asymptotic/mod.rs` as reached from `FJC::init` holds the inputs. -/
theorem C37_fjc_modified_canonical_asymptotic (N : Nat) (ℓ : α) (m : α) :
    let s := (Polymers.fjc.FJC.init N ℓ m).thermodynamics.modified_canonical.asymptotic
    s.hinge_mass = m ∧
      s.link_length = ℓ ∧
      s.number_of_links = N ∧
      s = Polymers.fjc.thermodynamics.modified_canonical.asymptotic.FJC.init N ℓ m := by
  exact ⟨rfl, rfl, rfl, rfl⟩

/-- C37: `FJC` of `src/physics/single_chain/fjc/thermodynamics/isometric/mod.rs` as reached from `FJC::init` holds the inputs. -/
theorem C37_fjc_isometric (N : Nat) (ℓ : α) (m : α) :
    let s := (Polymers.fjc.FJC.init N ℓ m).thermodynamics.isometric
    s.hinge_mass = m ∧
      s.link_length = ℓ ∧
      s.number_of_links = N ∧
      s = Polymers.fjc.thermodynamics.isometric.FJC.init N ℓ m := by
  exact ⟨rfl, rfl, rfl, rfl⟩

/-- C38: every method of `FJC` of `src/physics/single_chain/fjc/thermodynamics/isometric/mod.rs` is the free function at the stored inputs. -/
theorem C38_fjc_isometric (N : Nat) (ℓ : α) (m : α) :
    let s := (Polymers.fjc.FJC.init N ℓ m).thermodynamics.isometric
    (∀ end_to_end_length temperature : α, s.force end_to_end_length temperature =
        Polymers.fjc.thermodynamics.isometric.force N ℓ end_to_end_length temperature) ∧
      (∀ nondimensional_end_to_end_length_per_link : α, s.nondimensional_force nondimensional_end_to_end_length_per_link =
        Polymers.fjc.thermodynamics.isometric.nondimensional_force N nondimensional_end_to_end_length_per_link) ∧
      (∀ end_to_end_length temperature : α, s.helmholtz_free_energy end_to_end_length temperature =
        Polymers.fjc.thermodynamics.isometric.helmholtz_free_energy N ℓ m end_to_end_length temperature) ∧
      (∀ end_to_end_length temperature : α, s.helmholtz_free_energy_per_link end_to_end_length temperature =
        Polymers.fjc.thermodynamics.isometric.helmholtz_free_energy_per_link N ℓ m end_to_end_length temperature) ∧
      (∀ end_to_end_length temperature : α, s.relative_helmholtz_free_energy end_to_end_length temperature =
        Polymers.fjc.thermodynamics.isometric.relative_helmholtz_free_energy N ℓ end_to_end_length temperature) ∧
      (∀ end_to_end_length temperature : α, s.relative_helmholtz_free_energy_per_link end_to_end_length temperature =
        Polymers.fjc.thermodynamics.isometric.relative_helmholtz_free_energy_per_link N ℓ end_to_end_length temperature) ∧
      (∀ nondimensional_end_to_end_length_per_link temperature : α, s.nondimensional_helmholtz_free_energy nondimensional_end_to_end_length_per_link temperature =
        Polymers.fjc.thermodynamics.isometric.nondimensional_helmholtz_free_energy N ℓ m nondimensional_end_to_end_length_per_link temperature) ∧
      (∀ nondimensional_end_to_end_length_per_link temperature : α, s.nondimensional_helmholtz_free_energy_per_link nondimensional_end_to_end_length_per_link temperature =
        Polymers.fjc.thermodynamics.isometric.nondimensional_helmholtz_free_energy_per_link N ℓ m nondimensional_end_to_end_length_per_link temperature) ∧
      (∀ nondimensional_end_to_end_length_per_link : α, s.nondimensional_relative_helmholtz_free_energy nondimensional_end_to_end_length_per_link =
        Polymers.fjc.thermodynamics.isometric.nondimensional_relative_helmholtz_free_energy N nondimensional_end_to_end_length_per_link) ∧
      (∀ nondimensional_end_to_end_length_per_link : α, s.nondimensional_relative_helmholtz_free_energy_per_link nondimensional_end_to_end_length_per_link =
        Polymers.fjc.thermodynamics.isometric.nondimensional_relative_helmholtz_free_energy_per_link N nondimensional_end_to_end_length_per_link) ∧
      (∀ end_to_end_length : α, s.equilibrium_distribution end_to_end_length =
        Polymers.fjc.thermodynamics.isometric.equilibrium_distribution N ℓ end_to_end_length) ∧
      (∀ nondimensional_end_to_end_length_per_link : α, s.nondimensional_equilibrium_distribution nondimensional_end_to_end_length_per_link =
        Polymers.fjc.thermodynamics.isometric.nondimensional_equilibrium_distribution N nondimensional_end_to_end_length_per_link) ∧
      (∀ end_to_end_length : α, s.equilibrium_radial_distribution end_to_end_length =
        Polymers.fjc.thermodynamics.isometric.equilibrium_radial_distribution N ℓ end_to_end_length) ∧
      (∀ nondimensional_end_to_end_length_per_link : α, s.nondimensional_equilibrium_radial_distribution nondimensional_end_to_end_length_per_link =
        Polymers.fjc.thermodynamics.isometric.nondimensional_equilibrium_radial_distribution N nondimensional_end_to_end_length_per_link) := by
  exact ⟨fun _ _ => rfl, fun _ => rfl, fun _ _ => rfl, fun _ _ => rfl, fun _ _ => rfl, fun _ _ => rfl, fun _ _ => rfl, fun _ _ => rfl, fun _ => rfl, fun _ => rfl, fun _ => rfl, fun _ => rfl, fun _ => rfl, fun _ => rfl⟩

/-- C37: `FJC` of `src/physics/single_chain/fjc/thermodynamics/isotensional/mod.rs` as reached from `FJC::init` holds the inputs. -/
theorem C37_fjc_isotensional (N : Nat) (ℓ : α) (m : α) :
    let s := (Polymers.fjc.FJC.init N ℓ m).thermodynamics.isotensional
    s.hinge_mass = m ∧
      s.link_length = ℓ ∧
      s.number_of_links = N ∧
      s = Polymers.fjc.thermodynamics.isotensional.FJC.init N ℓ m := by
  exact ⟨rfl, rfl, rfl, rfl⟩

/-- C38: every method of `FJC` of `src/physics/single_chain/fjc/thermodynamics/isotensional/mod.rs` is the free function at the stored inputs. -/
theorem C38_fjc_isotensional (N : Nat) (ℓ : α) (m : α) :
    let s := (Polymers.fjc.FJC.init N ℓ m).thermodynamics.isotensional
    (∀ force temperature : α, s.end_to_end_length force temperature =
        Polymers.fjc.thermodynamics.isotensional.end_to_end_length N ℓ force temperature) ∧
      (∀ force temperature : α, s.end_to_end_length_per_link force temperature =
        Polymers.fjc.thermodynamics.isotensional.end_to_end_length_per_link ℓ force temperature) ∧
      (∀ nondimensional_force : α, s.nondimensional_end_to_end_length nondimensional_force =
        Polymers.fjc.thermodynamics.isotensional.nondimensional_end_to_end_length N nondimensional_force) ∧
      (∀ nondimensional_force : α, s.nondimensional_end_to_end_length_per_link nondimensional_force =
        Polymers.fjc.thermodynamics.isotensional.nondimensional_end_to_end_length_per_link nondimensional_force) ∧
      (∀ force temperature : α, s.gibbs_free_energy force temperature =
        Polymers.fjc.thermodynamics.isotensional.gibbs_free_energy N ℓ m force temperature) ∧
      (∀ force temperature : α, s.gibbs_free_energy_per_link force temperature =
        Polymers.fjc.thermodynamics.isotensional.gibbs_free_energy_per_link ℓ m force temperature) ∧
      (∀ force temperature : α, s.relative_gibbs_free_energy force temperature =
        Polymers.fjc.thermodynamics.isotensional.relative_gibbs_free_energy N ℓ force temperature) ∧
      (∀ force temperature : α, s.relative_gibbs_free_energy_per_link force temperature =
        Polymers.fjc.thermodynamics.isotensional.relative_gibbs_free_energy_per_link ℓ force temperature) ∧
      (∀ nondimensional_force temperature : α, s.nondimensional_gibbs_free_energy nondimensional_force temperature =
        Polymers.fjc.thermodynamics.isotensional.nondimensional_gibbs_free_energy N ℓ m nondimensional_force temperature) ∧
      (∀ nondimensional_force temperature : α, s.nondimensional_gibbs_free_energy_per_link nondimensional_force temperature =
        Polymers.fjc.thermodynamics.isotensional.nondimensional_gibbs_free_energy_per_link ℓ m nondimensional_force temperature) ∧
      (∀ nondimensional_force : α, s.nondimensional_relative_gibbs_free_energy nondimensional_force =
        Polymers.fjc.thermodynamics.isotensional.nondimensional_relative_gibbs_free_energy N nondimensional_force) ∧
      (∀ nondimensional_force : α, s.nondimensional_relative_gibbs_free_energy_per_link nondimensional_force =
        Polymers.fjc.thermodynamics.isotensional.nondimensional_relative_gibbs_free_energy_per_link nondimensional_force) := by
  exact ⟨fun _ _ => rfl, fun _ _ => rfl, fun _ => rfl, fun _ => rfl, fun _ _ => rfl, fun _ _ => rfl, fun _ _ => rfl, fun _ _ => rfl, fun _ _ => rfl, fun _ _ => rfl, fun _ => rfl, fun _ => rfl⟩

/-- C37: `FJC` of `src/physics/single_chain/fjc/thermodynamics/modified_canonical/mod.rs` as reached from `FJC::init` holds the inputs. -/
theorem C37_fjc_modified_canonical (N : Nat) (ℓ : α) (m : α) :
    let s := (Polymers.fjc.FJC.init N ℓ m).thermodynamics.modified_canonical
    s.hinge_mass = m ∧
      s.link_length = ℓ ∧
      s.number_of_links = N ∧
      s = Polymers.fjc.thermodynamics.modified_canonical.FJC.init N ℓ m := by
  exact ⟨rfl, rfl, rfl, rfl⟩

/-- C38: every method of `FJC` of `src/physics/single_chain/fjc/thermodynamics/modified_canonical/mod.rs` is the free function at the stored inputs. -/
theorem C38_fjc_modified_canonical (N : Nat) (ℓ : α) (m : α) :
    let s := (Polymers.fjc.FJC.init N ℓ m).thermodynamics.modified_canonical
    (∀ potential_distance potential_stiffness temperature : α, s.end_to_end_length potential_distance potential_stiffness temperature =
        Polymers.fjc.thermodynamics.modified_canonical.end_to_end_length N ℓ potential_distance potential_stiffness temperature) ∧
      (∀ potential_distance potential_stiffness temperature : α, s.end_to_end_length_per_link potential_distance potential_stiffness temperature =
        Polymers.fjc.thermodynamics.modified_canonical.end_to_end_length_per_link N ℓ potential_distance potential_stiffness temperature) ∧
      (∀ nondimensional_potential_distance nondimensional_potential_stiffness : α, s.nondimensional_end_to_end_length nondimensional_potential_distance nondimensional_potential_stiffness =
        Polymers.fjc.thermodynamics.modified_canonical.nondimensional_end_to_end_length N nondimensional_potential_distance nondimensional_potential_stiffness) ∧
      (∀ nondimensional_potential_distance nondimensional_potential_stiffness : α, s.nondimensional_end_to_end_length_per_link nondimensional_potential_distance nondimensional_potential_stiffness =
        Polymers.fjc.thermodynamics.modified_canonical.nondimensional_end_to_end_length_per_link N nondimensional_potential_distance nondimensional_potential_stiffness) ∧
      (∀ potential_distance potential_stiffness temperature : α, s.force potential_distance potential_stiffness temperature =
        Polymers.fjc.thermodynamics.modified_canonical.force N ℓ potential_distance potential_stiffness temperature) ∧
      (∀ nondimensional_potential_distance nondimensional_potential_stiffness : α, s.nondimensional_force nondimensional_potential_distance nondimensional_potential_stiffness =
        Polymers.fjc.thermodynamics.modified_canonical.nondimensional_force N nondimensional_potential_distance nondimensional_potential_stiffness) ∧
      (∀ potential_distance potential_stiffness temperature : α, s.helmholtz_free_energy potential_distance potential_stiffness temperature =
        Polymers.fjc.thermodynamics.modified_canonical.helmholtz_free_energy N ℓ m potential_distance potential_stiffness temperature) ∧
      (∀ potential_distance potential_stiffness temperature : α, s.helmholtz_free_energy_per_link potential_distance potential_stiffness temperature =
        Polymers.fjc.thermodynamics.modified_canonical.helmholtz_free_energy_per_link N ℓ m potential_distance potential_stiffness temperature) ∧
      (∀ potential_distance potential_stiffness temperature : α, s.relative_helmholtz_free_energy potential_distance potential_stiffness temperature =
        Polymers.fjc.thermodynamics.modified_canonical.relative_helmholtz_free_energy N ℓ potential_distance potential_stiffness temperature) ∧
      (∀ potential_distance potential_stiffness temperature : α, s.relative_helmholtz_free_energy_per_link potential_distance potential_stiffness temperature =
        Polymers.fjc.thermodynamics.modified_canonical.relative_helmholtz_free_energy_per_link N ℓ potential_distance potential_stiffness temperature) ∧
      (∀ nondimensional_potential_distance nondimensional_potential_stiffness temperature : α, s.nondimensional_helmholtz_free_energy nondimensional_potential_distance nondimensional_potential_stiffness temperature =
        Polymers.fjc.thermodynamics.modified_canonical.nondimensional_helmholtz_free_energy N ℓ m nondimensional_potential_distance nondimensional_potential_stiffness temperature) ∧
      (∀ nondimensional_potential_distance nondimensional_potential_stiffness temperature : α, s.nondimensional_helmholtz_free_energy_per_link nondimensional_potential_distance nondimensional_potential_stiffness temperature =
        Polymers.fjc.thermodynamics.modified_canonical.nondimensional_helmholtz_free_energy_per_link N ℓ m nondimensional_potential_distance nondimensional_potential_stiffness temperature) ∧
      (∀ nondimensional_potential_distance nondimensional_potential_stiffness : α, s.nondimensional_relative_helmholtz_free_energy nondimensional_potential_distance nondimensional_potential_stiffness =
        Polymers.fjc.thermodynamics.modified_canonical.nondimensional_relative_helmholtz_free_energy N nondimensional_potential_distance nondimensional_potential_stiffness) ∧
      (∀ nondimensional_potential_distance nondimensional_potential_stiffness : α, s.nondimensional_relative_helmholtz_free_energy_per_link nondimensional_potential_distance nondimensional_potential_stiffness =
        Polymers.fjc.thermodynamics.modified_canonical.nondimensional_relative_helmholtz_free_energy_per_link N nondimensional_potential_distance nondimensional_potential_stiffness) ∧
      (∀ potential_distance potential_stiffness temperature : α, s.gibbs_free_energy potential_distance potential_stiffness temperature =
        Polymers.fjc.thermodynamics.modified_canonical.gibbs_free_energy N ℓ m potential_distance potential_stiffness temperature) ∧
      (∀ potential_distance potential_stiffness temperature : α, s.gibbs_free_energy_per_link potential_distance potential_stiffness temperature =
        Polymers.fjc.thermodynamics.modified_canonical.gibbs_free_energy_per_link N ℓ m potential_distance potential_stiffness temperature) ∧
      (∀ potential_distance potential_stiffness temperature : α, s.relative_gibbs_free_energy potential_distance potential_stiffness temperature =
        Polymers.fjc.thermodynamics.modified_canonical.relative_gibbs_free_energy N ℓ potential_distance potential_stiffness temperature) ∧
      (∀ potential_distance potential_stiffness temperature : α, s.relative_gibbs_free_energy_per_link potential_distance potential_stiffness temperature =
        Polymers.fjc.thermodynamics.modified_canonical.relative_gibbs_free_energy_per_link N ℓ potential_distance potential_stiffness temperature) ∧
      (∀ nondimensional_potential_distance nondimensional_potential_stiffness temperature : α, s.nondimensional_gibbs_free_energy nondimensional_potential_distance nondimensional_potential_stiffness temperature =
        Polymers.fjc.thermodynamics.modified_canonical.nondimensional_gibbs_free_energy N ℓ m nondimensional_potential_distance nondimensional_potential_stiffness temperature) ∧
      (∀ nondimensional_potential_distance nondimensional_potential_stiffness temperature : α, s.nondimensional_gibbs_free_energy_per_link nondimensional_potential_distance nondimensional_potential_stiffness temperature =
        Polymers.fjc.thermodynamics.modified_canonical.nondimensional_gibbs_free_energy_per_link N ℓ m nondimensional_potential_distance nondimensional_potential_stiffness temperature) ∧
      (∀ nondimensional_potential_distance nondimensional_potential_stiffness : α, s.nondimensional_relative_gibbs_free_energy nondimensional_potential_distance nondimensional_potential_stiffness =
        Polymers.fjc.thermodynamics.modified_canonical.nondimensional_relative_gibbs_free_energy N nondimensional_potential_distance nondimensional_potential_stiffness) ∧
      (∀ nondimensional_potential_distance nondimensional_potential_stiffness : α, s.nondimensional_relative_gibbs_free_energy_per_link nondimensional_potential_distance nondimensional_potential_stiffness =
        Polymers.fjc.thermodynamics.modified_canonical.nondimensional_relative_gibbs_free_energy_per_link N nondimensional_potential_distance nondimensional_potential_stiffness) := by
  exact ⟨fun _ _ _ => rfl, fun _ _ _ => rfl, fun _ _ => rfl, fun _ _ => rfl, fun _ _ _ => rfl, fun _ _ => rfl, fun _ _ _ => rfl, fun _ _ _ => rfl, fun _ _ _ => rfl, fun _ _ _ => rfl, fun _ _ _ => rfl, fun _ _ _ => rfl, fun _ _ => rfl, fun _ _ => rfl, fun _ _ _ => rfl, fun _ _ _ => rfl, fun _ _ _ => rfl, fun _ _ _ => rfl, fun _ _ _ => rfl, fun _ _ _ => rfl, fun _ _ => rfl, fun _ _ => rfl⟩

/-- C37: `FJC` of `src/physics/single_chain/fjc/thermodynamics/mod.rs` as reached from `FJC::init` holds the inputs. -/
theorem C37_fjc_thermodynamics (N : Nat) (ℓ : α) (m : α) :
    let s := (Polymers.fjc.FJC.init N ℓ m).thermodynamics
    s.hinge_mass = m ∧
      s.link_length = ℓ ∧
      s.number_of_links = N ∧
      s = Polymers.fjc.thermodynamics.FJC.init N ℓ m := by
  exact ⟨rfl, rfl, rfl, rfl⟩

/-- C37: `FJC` of `src/physics/single_chain/fjc/mod.rs` as reached from `FJC::init` holds the inputs. -/
theorem C37_fjc (N : Nat) (ℓ : α) (m : α) :
    let s := (Polymers.fjc.FJC.init N ℓ m)
    s.hinge_mass = m ∧
      s.link_length = ℓ ∧
      s.number_of_links = N := by
  exact ⟨rfl, rfl, rfl⟩

end Polymers.Props
