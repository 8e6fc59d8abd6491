/- Generated by tools/gen_methods.py ; do not edit by hand. -/
import Verif.Model.Ideal

/-! Properties C37 and C38.  Over any number type, so in particular over floating-point numbers. -/

namespace Polymers.Props

set_option linter.unusedSectionVars false

variable {α : Type} [Add α] [Sub α] [Mul α] [Div α] [Neg α] [OfScientific α] [NatCast α] [Elem α]

/-- C37: `Ideal` of `src/physics/single_chain/ideal/thermodynamics/isometric/mod.rs` as reached from `Ideal::init` holds the inputs. -/
theorem C37_ideal_isometric (N : Nat) (ℓ : α) (m : α) :
    let s := (Polymers.ideal.Ideal.init N ℓ m).thermodynamics.isometric
    s.hinge_mass = m ∧
      s.link_length = ℓ ∧
      s.number_of_links = N ∧
      s = Polymers.ideal.thermodynamics.isometric.Ideal.init N ℓ m := by
  exact ⟨rfl, rfl, rfl, rfl⟩

/-- C38: every method of `Ideal` of `src/physics/single_chain/ideal/thermodynamics/isometric/mod.rs` is the free function at the stored inputs. -/
theorem C38_ideal_isometric (N : Nat) (ℓ : α) (m : α) :
    let s := (Polymers.ideal.Ideal.init N ℓ m).thermodynamics.isometric
    (∀ end_to_end_length temperature : α, s.force end_to_end_length temperature =
        Polymers.ideal.thermodynamics.isometric.force N ℓ end_to_end_length temperature) ∧
      (∀ nondimensional_end_to_end_length_per_link : α, s.nondimensional_force nondimensional_end_to_end_length_per_link =
        Polymers.ideal.thermodynamics.isometric.nondimensional_force nondimensional_end_to_end_length_per_link) ∧
      (∀ end_to_end_length temperature : α, s.helmholtz_free_energy end_to_end_length temperature =
        Polymers.ideal.thermodynamics.isometric.helmholtz_free_energy N ℓ m end_to_end_length temperature) ∧
      (∀ end_to_end_length temperature : α, s.helmholtz_free_energy_per_link end_to_end_length temperature =
        Polymers.ideal.thermodynamics.isometric.helmholtz_free_energy_per_link N ℓ m end_to_end_length temperature) ∧
      (∀ end_to_end_length temperature : α, s.relative_helmholtz_free_energy end_to_end_length temperature =
        Polymers.ideal.thermodynamics.isometric.relative_helmholtz_free_energy N ℓ end_to_end_length temperature) ∧
      (∀ end_to_end_length temperature : α, s.relative_helmholtz_free_energy_per_link end_to_end_length temperature =
        Polymers.ideal.thermodynamics.isometric.relative_helmholtz_free_energy_per_link N ℓ end_to_end_length temperature) ∧
      (∀ nondimensional_end_to_end_length_per_link temperature : α, s.nondimensional_helmholtz_free_energy nondimensional_end_to_end_length_per_link temperature =
        Polymers.ideal.thermodynamics.isometric.nondimensional_helmholtz_free_energy N ℓ m nondimensional_end_to_end_length_per_link temperature) ∧
      (∀ nondimensional_end_to_end_length_per_link temperature : α, s.nondimensional_helmholtz_free_energy_per_link nondimensional_end_to_end_length_per_link temperature =
        Polymers.ideal.thermodynamics.isometric.nondimensional_helmholtz_free_energy_per_link ℓ m nondimensional_end_to_end_length_per_link temperature) ∧
      (∀ nondimensional_end_to_end_length_per_link : α, s.nondimensional_relative_helmholtz_free_energy nondimensional_end_to_end_length_per_link =
        Polymers.ideal.thermodynamics.isometric.nondimensional_relative_helmholtz_free_energy N nondimensional_end_to_end_length_per_link) ∧
      (∀ nondimensional_end_to_end_length_per_link : α, s.nondimensional_relative_helmholtz_free_energy_per_link nondimensional_end_to_end_length_per_link =
        Polymers.ideal.thermodynamics.isometric.nondimensional_relative_helmholtz_free_energy_per_link nondimensional_end_to_end_length_per_link) ∧
      (∀ end_to_end_length : α, s.equilibrium_distribution end_to_end_length =
        Polymers.ideal.thermodynamics.isometric.equilibrium_distribution N ℓ end_to_end_length) ∧
      (∀ nondimensional_end_to_end_length_per_link : α, s.nondimensional_equilibrium_distribution nondimensional_end_to_end_length_per_link =
        Polymers.ideal.thermodynamics.isometric.nondimensional_equilibrium_distribution N nondimensional_end_to_end_length_per_link) ∧
      (∀ end_to_end_length : α, s.equilibrium_radial_distribution end_to_end_length =
        Polymers.ideal.thermodynamics.isometric.equilibrium_radial_distribution N ℓ end_to_end_length) ∧
      (∀ nondimensional_end_to_end_length_per_link : α, s.nondimensional_equilibrium_radial_distribution nondimensional_end_to_end_length_per_link =
        Polymers.ideal.thermodynamics.isometric.nondimensional_equilibrium_radial_distribution N nondimensional_end_to_end_length_per_link) := by
  exact ⟨fun _ _ => rfl, fun _ => rfl, fun _ _ => rfl, fun _ _ => rfl, fun _ _ => rfl, fun _ _ => rfl, fun _ _ => rfl, fun _ _ => rfl, fun _ => rfl, fun _ => rfl, fun _ => rfl, fun _ => rfl, fun _ => rfl, fun _ => rfl⟩

/-- C37: `Ideal` of `src/physics/single_chain/ideal/thermodynamics/isotensional/mod.rs` as reached from `Ideal::init` holds the inputs. -/
theorem C37_ideal_isotensional (N : Nat) (ℓ : α) (m : α) :
    let s := (Polymers.ideal.Ideal.init N ℓ m).thermodynamics.isotensional
    s.hinge_mass = m ∧
      s.link_length = ℓ ∧
      s.number_of_links = N ∧
      s = Polymers.ideal.thermodynamics.isotensional.Ideal.init N ℓ m := by
  exact ⟨rfl, rfl, rfl, rfl⟩

/-- C38: every method of `Ideal` of `src/physics/single_chain/ideal/thermodynamics/isotensional/mod.rs` is the free function at the stored inputs. -/
theorem C38_ideal_isotensional (N : Nat) (ℓ : α) (m : α) :
    let s := (Polymers.ideal.Ideal.init N ℓ m).thermodynamics.isotensional
    (∀ force temperature : α, s.end_to_end_length force temperature =
        Polymers.ideal.thermodynamics.isotensional.end_to_end_length N ℓ force temperature) ∧
      (∀ force temperature : α, s.end_to_end_length_per_link force temperature =
        Polymers.ideal.thermodynamics.isotensional.end_to_end_length_per_link ℓ force temperature) ∧
      (∀ nondimensional_force : α, s.nondimensional_end_to_end_length nondimensional_force =
        Polymers.ideal.thermodynamics.isotensional.nondimensional_end_to_end_length N nondimensional_force) ∧
      (∀ nondimensional_force : α, s.nondimensional_end_to_end_length_per_link nondimensional_force =
        Polymers.ideal.thermodynamics.isotensional.nondimensional_end_to_end_length_per_link nondimensional_force) ∧
      (∀ force temperature : α, s.gibbs_free_energy force temperature =
        Polymers.ideal.thermodynamics.isotensional.gibbs_free_energy N ℓ m force temperature) ∧
      (∀ force temperature : α, s.gibbs_free_energy_per_link force temperature =
        Polymers.ideal.thermodynamics.isotensional.gibbs_free_energy_per_link ℓ m force temperature) ∧
      (∀ force temperature : α, s.relative_gibbs_free_energy force temperature =
        Polymers.ideal.thermodynamics.isotensional.relative_gibbs_free_energy N ℓ force temperature) ∧
      (∀ force temperature : α, s.relative_gibbs_free_energy_per_link force temperature =
        Polymers.ideal.thermodynamics.isotensional.relative_gibbs_free_energy_per_link ℓ force temperature) ∧
      (∀ nondimensional_force temperature : α, s.nondimensional_gibbs_free_energy nondimensional_force temperature =
        Polymers.ideal.thermodynamics.isotensional.nondimensional_gibbs_free_energy N ℓ m nondimensional_force temperature) ∧
      (∀ nondimensional_force temperature : α, s.nondimensional_gibbs_free_energy_per_link nondimensional_force temperature =
        Polymers.ideal.thermodynamics.isotensional.nondimensional_gibbs_free_energy_per_link ℓ m nondimensional_force temperature) ∧
      (∀ nondimensional_force : α, s.nondimensional_relative_gibbs_free_energy nondimensional_force =
        Polymers.ideal.thermodynamics.isotensional.nondimensional_relative_gibbs_free_energy N nondimensional_force) ∧
      (∀ nondimensional_force : α, s.nondimensional_relative_gibbs_free_energy_per_link nondimensional_force =
        Polymers.ideal.thermodynamics.isotensional.nondimensional_relative_gibbs_free_energy_per_link nondimensional_force) := by
  exact ⟨fun _ _ => rfl, fun _ _ => rfl, fun _ => rfl, fun _ => rfl, fun _ _ => rfl, fun _ _ => rfl, fun _ _ => rfl, fun _ _ => rfl, fun _ _ => rfl, fun _ _ => rfl, fun _ => rfl, fun _ => rfl⟩

/-- C37: `Ideal` of `src/physics/single_chain/ideal/thermodynamics/mod.rs` as reached from `Ideal::init` holds the inputs. -/
theorem C37_ideal_thermodynamics (N : Nat) (ℓ : α) (m : α) :
    let s := (Polymers.ideal.Ideal.init N ℓ m).thermodynamics
    s.hinge_mass = m ∧
      s.link_length = ℓ ∧
      s.number_of_links = N ∧
      s = Polymers.ideal.thermodynamics.Ideal.init N ℓ m := by
  exact ⟨rfl, rfl, rfl, rfl⟩

/-- C37: `Ideal` of `src/physics/single_chain/ideal/mod.rs` as reached from `Ideal::init` holds the inputs. -/
theorem C37_ideal (N : Nat) (ℓ : α) (m : α) :
    let s := (Polymers.ideal.Ideal.init N ℓ m)
    s.hinge_mass = m ∧
      s.link_length = ℓ ∧
      s.number_of_links = N := by
  exact ⟨rfl, rfl, rfl⟩

end Polymers.Props
