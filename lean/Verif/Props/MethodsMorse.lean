/- Generated by tools/gen_methods.py ; do not edit by hand. -/
import Verif.Model.Morse

/-! Properties C37 and C38.  Over any number type, so in particular over floating-point numbers. -/

namespace Polymers.Props

set_option linter.unusedSectionVars false

variable {α : Type} [Add α] [Sub α] [Mul α] [Div α] [Neg α] [OfScientific α] [NatCast α] [Elem α]

/-- C37: `MORSEFJC` of `src/physics/single_chain/ufjc/morse/thermodynamics/isometric/asymptotic/reduced/legendre/mod.rs` as reached from `MORSEFJC::init` holds the inputs. -/
theorem C37_morse_isometric_asymptotic_reduced_legendre (N : Nat) (ℓ : α) (m : α) (k : α) (ε : α) :
    let s := (Polymers.ufjc.morse.MORSEFJC.init N ℓ m k ε).thermodynamics.isometric.asymptotic.reduced.legendre
    s.hinge_mass = m ∧
      s.link_length = ℓ ∧
      s.number_of_links = N ∧
      s.link_stiffness = k ∧
      s.link_energy = ε ∧
      s = Polymers.ufjc.morse.thermodynamics.isometric.asymptotic.reduced.legendre.MORSEFJC.init N ℓ m k ε := by
  exact ⟨rfl, rfl, rfl, rfl, rfl, rfl⟩

/-- C38: every method of `MORSEFJC` of `src/physics/single_chain/ufjc/morse/thermodynamics/isometric/asymptotic/reduced/legendre/mod.rs` is the free function at the stored inputs. -/
theorem C38_morse_isometric_asymptotic_reduced_legendre (N : Nat) (ℓ : α) (m : α) (k : α) (ε : α) :
    let s := (Polymers.ufjc.morse.MORSEFJC.init N ℓ m k ε).thermodynamics.isometric.asymptotic.reduced.legendre
    (∀ end_to_end_length temperature : α, s.force end_to_end_length temperature =
        Polymers.ufjc.morse.thermodynamics.isometric.asymptotic.reduced.legendre.force N ℓ k ε end_to_end_length temperature) ∧
      (∀ nondimensional_end_to_end_length_per_link temperature : α, s.nondimensional_force nondimensional_end_to_end_length_per_link temperature =
        Polymers.ufjc.morse.thermodynamics.isometric.asymptotic.reduced.legendre.nondimensional_force (k * Elem.powi ℓ 2 / BOLTZMANN_CONSTANT / temperature) (ε / BOLTZMANN_CONSTANT / temperature) nondimensional_end_to_end_length_per_link) ∧
      (∀ end_to_end_length temperature : α, s.helmholtz_free_energy end_to_end_length temperature =
        Polymers.ufjc.morse.thermodynamics.isometric.asymptotic.reduced.legendre.helmholtz_free_energy N ℓ m k ε end_to_end_length temperature) ∧
      (∀ end_to_end_length temperature : α, s.helmholtz_free_energy_per_link end_to_end_length temperature =
        Polymers.ufjc.morse.thermodynamics.isometric.asymptotic.reduced.legendre.helmholtz_free_energy_per_link N ℓ m k ε end_to_end_length temperature) ∧
      (∀ end_to_end_length temperature : α, s.relative_helmholtz_free_energy end_to_end_length temperature =
        Polymers.ufjc.morse.thermodynamics.isometric.asymptotic.reduced.legendre.relative_helmholtz_free_energy N ℓ k ε end_to_end_length temperature) ∧
      (∀ end_to_end_length temperature : α, s.relative_helmholtz_free_energy_per_link end_to_end_length temperature =
        Polymers.ufjc.morse.thermodynamics.isometric.asymptotic.reduced.legendre.relative_helmholtz_free_energy_per_link N ℓ k ε end_to_end_length temperature) ∧
      (∀ nondimensional_end_to_end_length_per_link temperature : α, s.nondimensional_helmholtz_free_energy nondimensional_end_to_end_length_per_link temperature =
        Polymers.ufjc.morse.thermodynamics.isometric.asymptotic.reduced.legendre.nondimensional_helmholtz_free_energy N ℓ m (k * Elem.powi ℓ 2 / BOLTZMANN_CONSTANT / temperature) (ε / BOLTZMANN_CONSTANT / temperature) nondimensional_end_to_end_length_per_link temperature) ∧
      (∀ nondimensional_end_to_end_length_per_link temperature : α, s.nondimensional_helmholtz_free_energy_per_link nondimensional_end_to_end_length_per_link temperature =
        Polymers.ufjc.morse.thermodynamics.isometric.asymptotic.reduced.legendre.nondimensional_helmholtz_free_energy_per_link N ℓ m (k * Elem.powi ℓ 2 / BOLTZMANN_CONSTANT / temperature) (ε / BOLTZMANN_CONSTANT / temperature) nondimensional_end_to_end_length_per_link temperature) ∧
      (∀ nondimensional_end_to_end_length_per_link temperature : α, s.nondimensional_relative_helmholtz_free_energy nondimensional_end_to_end_length_per_link temperature =
        Polymers.ufjc.morse.thermodynamics.isometric.asymptotic.reduced.legendre.nondimensional_relative_helmholtz_free_energy N (k * Elem.powi ℓ 2 / BOLTZMANN_CONSTANT / temperature) (ε / BOLTZMANN_CONSTANT / temperature) nondimensional_end_to_end_length_per_link) ∧
      (∀ nondimensional_end_to_end_length_per_link temperature : α, s.nondimensional_relative_helmholtz_free_energy_per_link nondimensional_end_to_end_length_per_link temperature =
        Polymers.ufjc.morse.thermodynamics.isometric.asymptotic.reduced.legendre.nondimensional_relative_helmholtz_free_energy_per_link (k * Elem.powi ℓ 2 / BOLTZMANN_CONSTANT / temperature) (ε / BOLTZMANN_CONSTANT / temperature) nondimensional_end_to_end_length_per_link) := by
  exact ⟨fun _ _ => rfl, fun _ _ => rfl, fun _ _ => rfl, fun _ _ => rfl, fun _ _ => rfl, fun _ _ => rfl, fun _ _ => rfl, fun _ _ => rfl, fun _ _ => rfl, fun _ _ => rfl⟩

/-- C37: `MORSEFJC` of `src/physics/single_chain/ufjc/morse/thermodynamics/isotensional/asymptotic/reduced/legendre/mod.rs` as reached from `MORSEFJC::init` holds the inputs. -/
theorem C37_morse_isotensional_asymptotic_reduced_legendre (N : Nat) (ℓ : α) (m : α) (k : α) (ε : α) :
    let s := (Polymers.ufjc.morse.MORSEFJC.init N ℓ m k ε).thermodynamics.isotensional.asymptotic.reduced.legendre
    s.hinge_mass = m ∧
      s.link_length = ℓ ∧
      s.number_of_links = N ∧
      s.link_stiffness = k ∧
      s.link_energy = ε ∧
      s = Polymers.ufjc.morse.thermodynamics.isotensional.asymptotic.reduced.legendre.MORSEFJC.init N ℓ m k ε := by
  exact ⟨rfl, rfl, rfl, rfl, rfl, rfl⟩

/-- C38: every method of `MORSEFJC` of `src/physics/single_chain/ufjc/morse/thermodynamics/isotensional/asymptotic/reduced/legendre/mod.rs` is the free function at the stored inputs. -/
theorem C38_morse_isotensional_asymptotic_reduced_legendre (N : Nat) (ℓ : α) (m : α) (k : α) (ε : α) :
    let s := (Polymers.ufjc.morse.MORSEFJC.init N ℓ m k ε).thermodynamics.isotensional.asymptotic.reduced.legendre
    (∀ force temperature : α, s.helmholtz_free_energy force temperature =
        Polymers.ufjc.morse.thermodynamics.isotensional.asymptotic.reduced.legendre.helmholtz_free_energy N ℓ m k ε force temperature) ∧
      (∀ force temperature : α, s.helmholtz_free_energy_per_link force temperature =
        Polymers.ufjc.morse.thermodynamics.isotensional.asymptotic.reduced.legendre.helmholtz_free_energy_per_link ℓ m k ε force temperature) ∧
      (∀ force temperature : α, s.relative_helmholtz_free_energy force temperature =
        Polymers.ufjc.morse.thermodynamics.isotensional.asymptotic.reduced.legendre.relative_helmholtz_free_energy N ℓ k ε force temperature) ∧
      (∀ force temperature : α, s.relative_helmholtz_free_energy_per_link force temperature =
        Polymers.ufjc.morse.thermodynamics.isotensional.asymptotic.reduced.legendre.relative_helmholtz_free_energy_per_link ℓ k ε force temperature) ∧
      (∀ nondimensional_force temperature : α, s.nondimensional_helmholtz_free_energy nondimensional_force temperature =
        Polymers.ufjc.morse.thermodynamics.isotensional.asymptotic.reduced.legendre.nondimensional_helmholtz_free_energy N ℓ m (k * Elem.powi ℓ 2 / BOLTZMANN_CONSTANT / temperature) (ε / BOLTZMANN_CONSTANT / temperature) nondimensional_force temperature) ∧
      (∀ nondimensional_force temperature : α, s.nondimensional_helmholtz_free_energy_per_link nondimensional_force temperature =
        Polymers.ufjc.morse.thermodynamics.isotensional.asymptotic.reduced.legendre.nondimensional_helmholtz_free_energy_per_link ℓ m (k * Elem.powi ℓ 2 / BOLTZMANN_CONSTANT / temperature) (ε / BOLTZMANN_CONSTANT / temperature) nondimensional_force temperature) ∧
      (∀ nondimensional_force temperature : α, s.nondimensional_relative_helmholtz_free_energy nondimensional_force temperature =
        Polymers.ufjc.morse.thermodynamics.isotensional.asymptotic.reduced.legendre.nondimensional_relative_helmholtz_free_energy N (k * Elem.powi ℓ 2 / BOLTZMANN_CONSTANT / temperature) (ε / BOLTZMANN_CONSTANT / temperature) nondimensional_force) ∧
      (∀ nondimensional_force temperature : α, s.nondimensional_relative_helmholtz_free_energy_per_link nondimensional_force temperature =
        Polymers.ufjc.morse.thermodynamics.isotensional.asymptotic.reduced.legendre.nondimensional_relative_helmholtz_free_energy_per_link (k * Elem.powi ℓ 2 / BOLTZMANN_CONSTANT / temperature) (ε / BOLTZMANN_CONSTANT / temperature) nondimensional_force) := by
  exact ⟨fun _ _ => rfl, fun _ _ => rfl, fun _ _ => rfl, fun _ _ => rfl, fun _ _ => rfl, fun _ _ => rfl, fun _ _ => rfl, fun _ _ => rfl⟩

/-- C37: `MORSEFJC` of `src/physics/single_chain/ufjc/morse/thermodynamics/isometric/asymptotic/legendre/mod.rs` as reached from `MORSEFJC::init` holds the inputs. -/
theorem C37_morse_isometric_asymptotic_legendre (N : Nat) (ℓ : α) (m : α) (k : α) (ε : α) :
    let s := (Polymers.ufjc.morse.MORSEFJC.init N ℓ m k ε).thermodynamics.isometric.asymptotic.legendre
    s.hinge_mass = m ∧
      s.link_length = ℓ ∧
      s.number_of_links = N ∧
      s.link_stiffness = k ∧
      s.link_energy = ε ∧
      s = Polymers.ufjc.morse.thermodynamics.isometric.asymptotic.legendre.MORSEFJC.init N ℓ m k ε := by
  exact ⟨rfl, rfl, rfl, rfl, rfl, rfl⟩

/-- C38: every method of `MORSEFJC` of `src/physics/single_chain/ufjc/morse/thermodynamics/isometric/asymptotic/legendre/mod.rs` is the free function at the stored inputs. -/
theorem C38_morse_isometric_asymptotic_legendre (N : Nat) (ℓ : α) (m : α) (k : α) (ε : α) :
    let s := (Polymers.ufjc.morse.MORSEFJC.init N ℓ m k ε).thermodynamics.isometric.asymptotic.legendre
    (∀ end_to_end_length temperature : α, s.force end_to_end_length temperature =
        Polymers.ufjc.morse.thermodynamics.isometric.asymptotic.legendre.force N ℓ k ε end_to_end_length temperature) ∧
      (∀ nondimensional_end_to_end_length_per_link temperature : α, s.nondimensional_force nondimensional_end_to_end_length_per_link temperature =
        Polymers.ufjc.morse.thermodynamics.isometric.asymptotic.legendre.nondimensional_force (k * Elem.powi ℓ 2 / BOLTZMANN_CONSTANT / temperature) (ε / BOLTZMANN_CONSTANT / temperature) nondimensional_end_to_end_length_per_link) ∧
      (∀ end_to_end_length temperature : α, s.helmholtz_free_energy end_to_end_length temperature =
        Polymers.ufjc.morse.thermodynamics.isometric.asymptotic.legendre.helmholtz_free_energy N ℓ m k ε end_to_end_length temperature) ∧
      (∀ end_to_end_length temperature : α, s.helmholtz_free_energy_per_link end_to_end_length temperature =
        Polymers.ufjc.morse.thermodynamics.isometric.asymptotic.legendre.helmholtz_free_energy_per_link N ℓ m k ε end_to_end_length temperature) ∧
      (∀ end_to_end_length temperature : α, s.relative_helmholtz_free_energy end_to_end_length temperature =
        Polymers.ufjc.morse.thermodynamics.isometric.asymptotic.legendre.relative_helmholtz_free_energy N ℓ k ε end_to_end_length temperature) ∧
      (∀ end_to_end_length temperature : α, s.relative_helmholtz_free_energy_per_link end_to_end_length temperature =
        Polymers.ufjc.morse.thermodynamics.isometric.asymptotic.legendre.relative_helmholtz_free_energy_per_link N ℓ k ε end_to_end_length temperature) ∧
      (∀ nondimensional_end_to_end_length_per_link temperature : α, s.nondimensional_helmholtz_free_energy nondimensional_end_to_end_length_per_link temperature =
        Polymers.ufjc.morse.thermodynamics.isometric.asymptotic.legendre.nondimensional_helmholtz_free_energy N ℓ m (k * Elem.powi ℓ 2 / BOLTZMANN_CONSTANT / temperature) (ε / BOLTZMANN_CONSTANT / temperature) nondimensional_end_to_end_length_per_link temperature) ∧
      (∀ nondimensional_end_to_end_length_per_link temperature : α, s.nondimensional_helmholtz_free_energy_per_link nondimensional_end_to_end_length_per_link temperature =
        Polymers.ufjc.morse.thermodynamics.isometric.asymptotic.legendre.nondimensional_helmholtz_free_energy_per_link N ℓ m (k * Elem.powi ℓ 2 / BOLTZMANN_CONSTANT / temperature) (ε / BOLTZMANN_CONSTANT / temperature) nondimensional_end_to_end_length_per_link temperature) ∧
      (∀ nondimensional_end_to_end_length_per_link temperature : α, s.nondimensional_relative_helmholtz_free_energy nondimensional_end_to_end_length_per_link temperature =
        Polymers.ufjc.morse.thermodynamics.isometric.asymptotic.legendre.nondimensional_relative_helmholtz_free_energy N (k * Elem.powi ℓ 2 / BOLTZMANN_CONSTANT / temperature) (ε / BOLTZMANN_CONSTANT / temperature) nondimensional_end_to_end_length_per_link) ∧
      (∀ nondimensional_end_to_end_length_per_link temperature : α, s.nondimensional_relative_helmholtz_free_energy_per_link nondimensional_end_to_end_length_per_link temperature =
        Polymers.ufjc.morse.thermodynamics.isometric.asymptotic.legendre.nondimensional_relative_helmholtz_free_energy_per_link (k * Elem.powi ℓ 2 / BOLTZMANN_CONSTANT / temperature) (ε / BOLTZMANN_CONSTANT / temperature) nondimensional_end_to_end_length_per_link) := by
  exact ⟨fun _ _ => rfl, fun _ _ => rfl, fun _ _ => rfl, fun _ _ => rfl, fun _ _ => rfl, fun _ _ => rfl, fun _ _ => rfl, fun _ _ => rfl, fun _ _ => rfl, fun _ _ => rfl⟩

/-- C37: `MORSEFJC` of `src/physics/single_chain/ufjc/morse/thermodynamics/isometric/asymptotic/reduced/mod.rs` as reached from `MORSEFJC::init` holds the inputs. -/
theorem C37_morse_isometric_asymptotic_reduced (N : Nat) (ℓ : α) (m : α) (k : α) (ε : α) :
    let s := (Polymers.ufjc.morse.MORSEFJC.init N ℓ m k ε).thermodynamics.isometric.asymptotic.reduced
    s.hinge_mass = m ∧
      s.link_length = ℓ ∧
      s.number_of_links = N ∧
      s.link_stiffness = k ∧
      s.link_energy = ε ∧
      s = Polymers.ufjc.morse.thermodynamics.isometric.asymptotic.reduced.MORSEFJC.init N ℓ m k ε := by
  exact ⟨rfl, rfl, rfl, rfl, rfl, rfl⟩

/-- C37: `MORSEFJC` of `src/physics/single_chain/ufjc/morse/thermodynamics/isotensional/asymptotic/legendre/mod.rs` as reached from `MORSEFJC::init` holds the inputs. -/
theorem C37_morse_isotensional_asymptotic_legendre (N : Nat) (ℓ : α) (m : α) (k : α) (ε : α) :
    let s := (Polymers.ufjc.morse.MORSEFJC.init N ℓ m k ε).thermodynamics.isotensional.asymptotic.legendre
    s.hinge_mass = m ∧
      s.link_length = ℓ ∧
      s.number_of_links = N ∧
      s.link_stiffness = k ∧
      s.link_energy = ε ∧
      s = Polymers.ufjc.morse.thermodynamics.isotensional.asymptotic.legendre.MORSEFJC.init N ℓ m k ε := by
  exact ⟨rfl, rfl, rfl, rfl, rfl, rfl⟩

/-- C38: every method of `MORSEFJC` of `src/physics/single_chain/ufjc/morse/thermodynamics/isotensional/asymptotic/legendre/mod.rs` is the free function at the stored inputs. -/
theorem C38_morse_isotensional_asymptotic_legendre (N : Nat) (ℓ : α) (m : α) (k : α) (ε : α) :
    let s := (Polymers.ufjc.morse.MORSEFJC.init N ℓ m k ε).thermodynamics.isotensional.asymptotic.legendre
    (∀ force temperature : α, s.helmholtz_free_energy force temperature =
        Polymers.ufjc.morse.thermodynamics.isotensional.asymptotic.legendre.helmholtz_free_energy N ℓ m k ε force temperature) ∧
      (∀ force temperature : α, s.helmholtz_free_energy_per_link force temperature =
        Polymers.ufjc.morse.thermodynamics.isotensional.asymptotic.legendre.helmholtz_free_energy_per_link ℓ m k ε force temperature) ∧
      (∀ force temperature : α, s.relative_helmholtz_free_energy force temperature =
        Polymers.ufjc.morse.thermodynamics.isotensional.asymptotic.legendre.relative_helmholtz_free_energy N ℓ k ε force temperature) ∧
      (∀ force temperature : α, s.relative_helmholtz_free_energy_per_link force temperature =
        Polymers.ufjc.morse.thermodynamics.isotensional.asymptotic.legendre.relative_helmholtz_free_energy_per_link ℓ k ε force temperature) ∧
      (∀ nondimensional_force temperature : α, s.nondimensional_helmholtz_free_energy nondimensional_force temperature =
        Polymers.ufjc.morse.thermodynamics.isotensional.asymptotic.legendre.nondimensional_helmholtz_free_energy N ℓ m (k * Elem.powi ℓ 2 / BOLTZMANN_CONSTANT / temperature) (ε / BOLTZMANN_CONSTANT / temperature) nondimensional_force temperature) ∧
      (∀ nondimensional_force temperature : α, s.nondimensional_helmholtz_free_energy_per_link nondimensional_force temperature =
        Polymers.ufjc.morse.thermodynamics.isotensional.asymptotic.legendre.nondimensional_helmholtz_free_energy_per_link ℓ m (k * Elem.powi ℓ 2 / BOLTZMANN_CONSTANT / temperature) (ε / BOLTZMANN_CONSTANT / temperature) nondimensional_force temperature) ∧
      (∀ nondimensional_force temperature : α, s.nondimensional_relative_helmholtz_free_energy nondimensional_force temperature =
        Polymers.ufjc.morse.thermodynamics.isotensional.asymptotic.legendre.nondimensional_relative_helmholtz_free_energy N (k * Elem.powi ℓ 2 / BOLTZMANN_CONSTANT / temperature) (ε / BOLTZMANN_CONSTANT / temperature) nondimensional_force) ∧
      (∀ nondimensional_force temperature : α, s.nondimensional_relative_helmholtz_free_energy_per_link nondimensional_force temperature =
        Polymers.ufjc.morse.thermodynamics.isotensional.asymptotic.legendre.nondimensional_relative_helmholtz_free_energy_per_link (k * Elem.powi ℓ 2 / BOLTZMANN_CONSTANT / temperature) (ε / BOLTZMANN_CONSTANT / temperature) nondimensional_force) := by
  exact ⟨fun _ _ => rfl, fun _ _ => rfl, fun _ _ => rfl, fun _ _ => rfl, fun _ _ => rfl, fun _ _ => rfl, fun _ _ => rfl, fun _ _ => rfl⟩

/-- C37: `MORSEFJC` of `src/physics/single_chain/ufjc/morse/thermodynamics/isotensional/asymptotic/reduced/mod.rs` as reached from `MORSEFJC::init` holds the inputs. -/
theorem C37_morse_isotensional_asymptotic_reduced (N : Nat) (ℓ : α) (m : α) (k : α) (ε : α) :
    let s := (Polymers.ufjc.morse.MORSEFJC.init N ℓ m k ε).thermodynamics.isotensional.asymptotic.reduced
    s.hinge_mass = m ∧
      s.link_length = ℓ ∧
      s.number_of_links = N ∧
      s.link_stiffness = k ∧
      s.link_energy = ε ∧
      s = Polymers.ufjc.morse.thermodynamics.isotensional.asymptotic.reduced.MORSEFJC.init N ℓ m k ε := by
  exact ⟨rfl, rfl, rfl, rfl, rfl, rfl⟩

/-- C38: every method of `MORSEFJC` of `src/physics/single_chain/ufjc/morse/thermodynamics/isotensional/asymptotic/reduced/mod.rs` is the free function at the stored inputs. -/
theorem C38_morse_isotensional_asymptotic_reduced (N : Nat) (ℓ : α) (m : α) (k : α) (ε : α) :
    let s := (Polymers.ufjc.morse.MORSEFJC.init N ℓ m k ε).thermodynamics.isotensional.asymptotic.reduced
    (∀ force temperature : α, s.end_to_end_length force temperature =
        Polymers.ufjc.morse.thermodynamics.isotensional.asymptotic.reduced.end_to_end_length N ℓ k ε force temperature) ∧
      (∀ force temperature : α, s.end_to_end_length_per_link force temperature =
        Polymers.ufjc.morse.thermodynamics.isotensional.asymptotic.reduced.end_to_end_length_per_link ℓ k ε force temperature) ∧
      (∀ nondimensional_force temperature : α, s.nondimensional_end_to_end_length nondimensional_force temperature =
        Polymers.ufjc.morse.thermodynamics.isotensional.asymptotic.reduced.nondimensional_end_to_end_length N (k * Elem.powi ℓ 2 / BOLTZMANN_CONSTANT / temperature) (ε / BOLTZMANN_CONSTANT / temperature) nondimensional_force) ∧
      (∀ nondimensional_force temperature : α, s.nondimensional_end_to_end_length_per_link nondimensional_force temperature =
        Polymers.ufjc.morse.thermodynamics.isotensional.asymptotic.reduced.nondimensional_end_to_end_length_per_link (k * Elem.powi ℓ 2 / BOLTZMANN_CONSTANT / temperature) (ε / BOLTZMANN_CONSTANT / temperature) nondimensional_force) ∧
      (∀ force temperature : α, s.gibbs_free_energy force temperature =
        Polymers.ufjc.morse.thermodynamics.isotensional.asymptotic.reduced.gibbs_free_energy N ℓ m k ε force temperature) ∧
      (∀ force temperature : α, s.gibbs_free_energy_per_link force temperature =
        Polymers.ufjc.morse.thermodynamics.isotensional.asymptotic.reduced.gibbs_free_energy_per_link ℓ m k ε force temperature) ∧
      (∀ force temperature : α, s.relative_gibbs_free_energy force temperature =
        Polymers.ufjc.morse.thermodynamics.isotensional.asymptotic.reduced.relative_gibbs_free_energy N ℓ k ε force temperature) ∧
      (∀ force temperature : α, s.relative_gibbs_free_energy_per_link force temperature =
        Polymers.ufjc.morse.thermodynamics.isotensional.asymptotic.reduced.relative_gibbs_free_energy_per_link ℓ k ε force temperature) ∧
      (∀ nondimensional_force temperature : α, s.nondimensional_gibbs_free_energy nondimensional_force temperature =
        Polymers.ufjc.morse.thermodynamics.isotensional.asymptotic.reduced.nondimensional_gibbs_free_energy N ℓ m (k * Elem.powi ℓ 2 / BOLTZMANN_CONSTANT / temperature) (ε / BOLTZMANN_CONSTANT / temperature) nondimensional_force temperature) ∧
      (∀ nondimensional_force temperature : α, s.nondimensional_gibbs_free_energy_per_link nondimensional_force temperature =
        Polymers.ufjc.morse.thermodynamics.isotensional.asymptotic.reduced.nondimensional_gibbs_free_energy_per_link ℓ m (k * Elem.powi ℓ 2 / BOLTZMANN_CONSTANT / temperature) (ε / BOLTZMANN_CONSTANT / temperature) nondimensional_force temperature) ∧
      (∀ nondimensional_force temperature : α, s.nondimensional_relative_gibbs_free_energy nondimensional_force temperature =
        Polymers.ufjc.morse.thermodynamics.isotensional.asymptotic.reduced.nondimensional_relative_gibbs_free_energy N (k * Elem.powi ℓ 2 / BOLTZMANN_CONSTANT / temperature) (ε / BOLTZMANN_CONSTANT / temperature) nondimensional_force) ∧
      (∀ nondimensional_force temperature : α, s.nondimensional_relative_gibbs_free_energy_per_link nondimensional_force temperature =
        Polymers.ufjc.morse.thermodynamics.isotensional.asymptotic.reduced.nondimensional_relative_gibbs_free_energy_per_link (k * Elem.powi ℓ 2 / BOLTZMANN_CONSTANT / temperature) (ε / BOLTZMANN_CONSTANT / temperature) nondimensional_force) := by
  exact ⟨fun _ _ => rfl, fun _ _ => rfl, fun _ _ => rfl, fun _ _ => rfl, fun _ _ => rfl, fun _ _ => rfl, fun _ _ => rfl, fun _ _ => rfl, fun _ _ => rfl, fun _ _ => rfl, fun _ _ => rfl, fun _ _ => rfl⟩

/-- C37: `MORSEFJC` of `src/physics/single_chain/ufjc/morse/thermodynamics/isometric/asymptotic/mod.rs` as reached from `MORSEFJC::init` holds the inputs. -/
theorem C37_morse_isometric_asymptotic (N : Nat) (ℓ : α) (m : α) (k : α) (ε : α) :
    let s := (Polymers.ufjc.morse.MORSEFJC.init N ℓ m k ε).thermodynamics.isometric.asymptotic
    s.hinge_mass = m ∧
      s.link_length = ℓ ∧
      s.number_of_links = N ∧
      s.link_stiffness = k ∧
      s.link_energy = ε ∧
      s = Polymers.ufjc.morse.thermodynamics.isometric.asymptotic.MORSEFJC.init N ℓ m k ε := by
  exact ⟨rfl, rfl, rfl, rfl, rfl, rfl⟩

/-- C37: `MORSEFJC` of `src/physics/single_chain/ufjc/morse/thermodynamics/isotensional/asymptotic/mod.rs` as reached from `MORSEFJC::init` holds the inputs. -/
theorem C37_morse_isotensional_asymptotic (N : Nat) (ℓ : α) (m : α) (k : α) (ε : α) :
    let s := (Polymers.ufjc.morse.MORSEFJC.init N ℓ m k ε).thermodynamics.isotensional.asymptotic
    s.hinge_mass = m ∧
      s.link_length = ℓ ∧
      s.number_of_links = N ∧
      s.link_stiffness = k ∧
      s.link_energy = ε ∧
      s = Polymers.ufjc.morse.thermodynamics.isotensional.asymptotic.MORSEFJC.init N ℓ m k ε := by
  exact ⟨rfl, rfl, rfl, rfl, rfl, rfl⟩

/-- C38: every method of `MORSEFJC` of `src/physics/single_chain/ufjc/morse/thermodynamics/isotensional/asymptotic/mod.rs` is the free function at the stored inputs. -/
theorem C38_morse_isotensional_asymptotic (N : Nat) (ℓ : α) (m : α) (k : α) (ε : α) :
    let s := (Polymers.ufjc.morse.MORSEFJC.init N ℓ m k ε).thermodynamics.isotensional.asymptotic
    (∀ force temperature : α, s.end_to_end_length force temperature =
        Polymers.ufjc.morse.thermodynamics.isotensional.asymptotic.end_to_end_length N ℓ k ε force temperature) ∧
      (∀ force temperature : α, s.end_to_end_length_per_link force temperature =
        Polymers.ufjc.morse.thermodynamics.isotensional.asymptotic.end_to_end_length_per_link ℓ k ε force temperature) ∧
      (∀ nondimensional_force temperature : α, s.nondimensional_end_to_end_length nondimensional_force temperature =
        Polymers.ufjc.morse.thermodynamics.isotensional.asymptotic.nondimensional_end_to_end_length N (k * Elem.powi ℓ 2 / BOLTZMANN_CONSTANT / temperature) (ε / BOLTZMANN_CONSTANT / temperature) nondimensional_force) ∧
      (∀ nondimensional_force temperature : α, s.nondimensional_end_to_end_length_per_link nondimensional_force temperature =
        Polymers.ufjc.morse.thermodynamics.isotensional.asymptotic.nondimensional_end_to_end_length_per_link (k * Elem.powi ℓ 2 / BOLTZMANN_CONSTANT / temperature) (ε / BOLTZMANN_CONSTANT / temperature) nondimensional_force) ∧
      (∀ force temperature : α, s.gibbs_free_energy force temperature =
        Polymers.ufjc.morse.thermodynamics.isotensional.asymptotic.gibbs_free_energy N ℓ m k ε force temperature) ∧
      (∀ force temperature : α, s.gibbs_free_energy_per_link force temperature =
        Polymers.ufjc.morse.thermodynamics.isotensional.asymptotic.gibbs_free_energy_per_link ℓ m k ε force temperature) ∧
      (∀ force temperature : α, s.relative_gibbs_free_energy force temperature =
        Polymers.ufjc.morse.thermodynamics.isotensional.asymptotic.relative_gibbs_free_energy N ℓ k ε force temperature) ∧
      (∀ force temperature : α, s.relative_gibbs_free_energy_per_link force temperature =
        Polymers.ufjc.morse.thermodynamics.isotensional.asymptotic.relative_gibbs_free_energy_per_link ℓ k ε force temperature) ∧
      (∀ nondimensional_force temperature : α, s.nondimensional_gibbs_free_energy nondimensional_force temperature =
        Polymers.ufjc.morse.thermodynamics.isotensional.asymptotic.nondimensional_gibbs_free_energy N ℓ m (k * Elem.powi ℓ 2 / BOLTZMANN_CONSTANT / temperature) (ε / BOLTZMANN_CONSTANT / temperature) nondimensional_force temperature) ∧
      (∀ nondimensional_force temperature : α, s.nondimensional_gibbs_free_energy_per_link nondimensional_force temperature =
        Polymers.ufjc.morse.thermodynamics.isotensional.asymptotic.nondimensional_gibbs_free_energy_per_link ℓ m (k * Elem.powi ℓ 2 / BOLTZMANN_CONSTANT / temperature) (ε / BOLTZMANN_CONSTANT / temperature) nondimensional_force temperature) ∧
      (∀ nondimensional_force temperature : α, s.nondimensional_relative_gibbs_free_energy nondimensional_force temperature =
        Polymers.ufjc.morse.thermodynamics.isotensional.asymptotic.nondimensional_relative_gibbs_free_energy N (k * Elem.powi ℓ 2 / BOLTZMANN_CONSTANT / temperature) (ε / BOLTZMANN_CONSTANT / temperature) nondimensional_force) ∧
      (∀ nondimensional_force temperature : α, s.nondimensional_relative_gibbs_free_energy_per_link nondimensional_force temperature =
        Polymers.ufjc.morse.thermodynamics.isotensional.asymptotic.nondimensional_relative_gibbs_free_energy_per_link (k * Elem.powi ℓ 2 / BOLTZMANN_CONSTANT / temperature) (ε / BOLTZMANN_CONSTANT / temperature) nondimensional_force) := by
  exact ⟨fun _ _ => rfl, fun _ _ => rfl, fun _ _ => rfl, fun _ _ => rfl, fun _ _ => rfl, fun _ _ => rfl, fun _ _ => rfl, fun _ _ => rfl, fun _ _ => rfl, fun _ _ => rfl, fun _ _ => rfl, fun _ _ => rfl⟩

/-- C37: `MORSEFJC` of `src/physics/single_chain/ufjc/morse/thermodynamics/isotensional/legendre/mod.rs` as reached from `MORSEFJC::init` holds the inputs. -/
theorem C37_morse_isotensional_legendre (N : Nat) (ℓ : α) (m : α) (k : α) (ε : α) :
    let s := (Polymers.ufjc.morse.MORSEFJC.init N ℓ m k ε).thermodynamics.isotensional.legendre
    s.hinge_mass = m ∧
      s.link_length = ℓ ∧
      s.number_of_links = N ∧
      s.link_stiffness = k ∧
      s.link_energy = ε ∧
      s = Polymers.ufjc.morse.thermodynamics.isotensional.legendre.MORSEFJC.init N ℓ m k ε := by
  exact ⟨rfl, rfl, rfl, rfl, rfl, rfl⟩

/-- C38: every method of `MORSEFJC` of `src/physics/single_chain/ufjc/morse/thermodynamics/isotensional/legendre/mod.rs` is the free function at the stored inputs. -/
theorem C38_morse_isotensional_legendre (N : Nat) (ℓ : α) (m : α) (k : α) (ε : α) :
    let s := (Polymers.ufjc.morse.MORSEFJC.init N ℓ m k ε).thermodynamics.isotensional.legendre
    (∀ force temperature : α, s.helmholtz_free_energy force temperature =
        Polymers.ufjc.morse.thermodynamics.isotensional.legendre.helmholtz_free_energy N ℓ m k ε force temperature) ∧
      (∀ force temperature : α, s.helmholtz_free_energy_per_link force temperature =
        Polymers.ufjc.morse.thermodynamics.isotensional.legendre.helmholtz_free_energy_per_link ℓ m k ε force temperature) ∧
      (∀ force temperature : α, s.relative_helmholtz_free_energy force temperature =
        Polymers.ufjc.morse.thermodynamics.isotensional.legendre.relative_helmholtz_free_energy N ℓ k ε force temperature) ∧
      (∀ force temperature : α, s.relative_helmholtz_free_energy_per_link force temperature =
        Polymers.ufjc.morse.thermodynamics.isotensional.legendre.relative_helmholtz_free_energy_per_link ℓ k ε force temperature) ∧
      (∀ nondimensional_force temperature : α, s.nondimensional_helmholtz_free_energy nondimensional_force temperature =
        Polymers.ufjc.morse.thermodynamics.isotensional.legendre.nondimensional_helmholtz_free_energy N ℓ m (k * Elem.powi ℓ 2 / BOLTZMANN_CONSTANT / temperature) (ε / BOLTZMANN_CONSTANT / temperature) nondimensional_force temperature) ∧
      (∀ nondimensional_force temperature : α, s.nondimensional_helmholtz_free_energy_per_link nondimensional_force temperature =
        Polymers.ufjc.morse.thermodynamics.isotensional.legendre.nondimensional_helmholtz_free_energy_per_link ℓ m (k * Elem.powi ℓ 2 / BOLTZMANN_CONSTANT / temperature) (ε / BOLTZMANN_CONSTANT / temperature) nondimensional_force temperature) ∧
      (∀ nondimensional_force temperature : α, s.nondimensional_relative_helmholtz_free_energy nondimensional_force temperature =
        Polymers.ufjc.morse.thermodynamics.isotensional.legendre.nondimensional_relative_helmholtz_free_energy N (k * Elem.powi ℓ 2 / BOLTZMANN_CONSTANT / temperature) (ε / BOLTZMANN_CONSTANT / temperature) nondimensional_force) ∧
      (∀ nondimensional_force temperature : α, s.nondimensional_relative_helmholtz_free_energy_per_link nondimensional_force temperature =
        Polymers.ufjc.morse.thermodynamics.isotensional.legendre.nondimensional_relative_helmholtz_free_energy_per_link (k * Elem.powi ℓ 2 / BOLTZMANN_CONSTANT / temperature) (ε / BOLTZMANN_CONSTANT / temperature) nondimensional_force) := by
  exact ⟨fun _ _ => rfl, fun _ _ => rfl, fun _ _ => rfl, fun _ _ => rfl, fun _ _ => rfl, fun _ _ => rfl, fun _ _ => rfl, fun _ _ => rfl⟩

/-- C37: `MORSEFJC` of `src/physics/single_chain/ufjc/morse/thermodynamics/isometric/mod.rs` as reached from `MORSEFJC::init` holds the inputs. -/
theorem C37_morse_isometric (N : Nat) (ℓ : α) (m : α) (k : α) (ε : α) :
    let s := (Polymers.ufjc.morse.MORSEFJC.init N ℓ m k ε).thermodynamics.isometric
    s.hinge_mass = m ∧
      s.link_length = ℓ ∧
      s.number_of_links = N ∧
      s.link_stiffness = k ∧
      s.link_energy = ε ∧
      s = Polymers.ufjc.morse.thermodynamics.isometric.MORSEFJC.init N ℓ m k ε := by
  exact ⟨rfl, rfl, rfl, rfl, rfl, rfl⟩

/-- C37: `MORSEFJC` of `src/physics/single_chain/ufjc/morse/thermodynamics/isotensional/mod.rs` as reached from `MORSEFJC::init` holds the inputs. -/
theorem C37_morse_isotensional (N : Nat) (ℓ : α) (m : α) (k : α) (ε : α) :
    let s := (Polymers.ufjc.morse.MORSEFJC.init N ℓ m k ε).thermodynamics.isotensional
    s.hinge_mass = m ∧
      s.link_length = ℓ ∧
      s.number_of_links = N ∧
      s.link_stiffness = k ∧
      s.link_energy = ε ∧
      s = Polymers.ufjc.morse.thermodynamics.isotensional.MORSEFJC.init N ℓ m k ε := by
  exact ⟨rfl, rfl, rfl, rfl, rfl, rfl⟩

/-- C38: every method of `MORSEFJC` of `src/physics/single_chain/ufjc/morse/thermodynamics/isotensional/mod.rs` is the free function at the stored inputs. -/
theorem C38_morse_isotensional (N : Nat) (ℓ : α) (m : α) (k : α) (ε : α) :
    let s := (Polymers.ufjc.morse.MORSEFJC.init N ℓ m k ε).thermodynamics.isotensional
    (∀ force temperature : α, s.end_to_end_length force temperature =
        Polymers.ufjc.morse.thermodynamics.isotensional.end_to_end_length N ℓ k ε force temperature) ∧
      (∀ force temperature : α, s.end_to_end_length_per_link force temperature =
        Polymers.ufjc.morse.thermodynamics.isotensional.end_to_end_length_per_link ℓ k ε force temperature) ∧
      (∀ nondimensional_force temperature : α, s.nondimensional_end_to_end_length nondimensional_force temperature =
        Polymers.ufjc.morse.thermodynamics.isotensional.nondimensional_end_to_end_length N (k * Elem.powi ℓ 2 / BOLTZMANN_CONSTANT / temperature) (ε / BOLTZMANN_CONSTANT / temperature) nondimensional_force) ∧
      (∀ nondimensional_force temperature : α, s.nondimensional_end_to_end_length_per_link nondimensional_force temperature =
        Polymers.ufjc.morse.thermodynamics.isotensional.nondimensional_end_to_end_length_per_link (k * Elem.powi ℓ 2 / BOLTZMANN_CONSTANT / temperature) (ε / BOLTZMANN_CONSTANT / temperature) nondimensional_force) ∧
      (∀ force temperature : α, s.gibbs_free_energy force temperature =
        Polymers.ufjc.morse.thermodynamics.isotensional.gibbs_free_energy N ℓ m k ε force temperature) ∧
      (∀ force temperature : α, s.gibbs_free_energy_per_link force temperature =
        Polymers.ufjc.morse.thermodynamics.isotensional.gibbs_free_energy_per_link ℓ m k ε force temperature) ∧
      (∀ force temperature : α, s.relative_gibbs_free_energy force temperature =
        Polymers.ufjc.morse.thermodynamics.isotensional.relative_gibbs_free_energy N ℓ k ε force temperature) ∧
      (∀ force temperature : α, s.relative_gibbs_free_energy_per_link force temperature =
        Polymers.ufjc.morse.thermodynamics.isotensional.relative_gibbs_free_energy_per_link ℓ k ε force temperature) ∧
      (∀ nondimensional_force temperature : α, s.nondimensional_gibbs_free_energy nondimensional_force temperature =
        Polymers.ufjc.morse.thermodynamics.isotensional.nondimensional_gibbs_free_energy N ℓ m (k * Elem.powi ℓ 2 / BOLTZMANN_CONSTANT / temperature) (ε / BOLTZMANN_CONSTANT / temperature) nondimensional_force temperature) ∧
      (∀ nondimensional_force temperature : α, s.nondimensional_gibbs_free_energy_per_link nondimensional_force temperature =
        Polymers.ufjc.morse.thermodynamics.isotensional.nondimensional_gibbs_free_energy_per_link ℓ m (k * Elem.powi ℓ 2 / BOLTZMANN_CONSTANT / temperature) (ε / BOLTZMANN_CONSTANT / temperature) nondimensional_force temperature) ∧
      (∀ nondimensional_force temperature : α, s.nondimensional_relative_gibbs_free_energy nondimensional_force temperature =
        Polymers.ufjc.morse.thermodynamics.isotensional.nondimensional_relative_gibbs_free_energy N (k * Elem.powi ℓ 2 / BOLTZMANN_CONSTANT / temperature) (ε / BOLTZMANN_CONSTANT / temperature) nondimensional_force) ∧
      (∀ nondimensional_force temperature : α, s.nondimensional_relative_gibbs_free_energy_per_link nondimensional_force temperature =
        Polymers.ufjc.morse.thermodynamics.isotensional.nondimensional_relative_gibbs_free_energy_per_link (k * Elem.powi ℓ 2 / BOLTZMANN_CONSTANT / temperature) (ε / BOLTZMANN_CONSTANT / temperature) nondimensional_force) := by
  exact ⟨fun _ _ => rfl, fun _ _ => rfl, fun _ _ => rfl, fun _ _ => rfl, fun _ _ => rfl, fun _ _ => rfl, fun _ _ => rfl, fun _ _ => rfl, fun _ _ => rfl, fun _ _ => rfl, fun _ _ => rfl, fun _ _ => rfl⟩

/-- C37: `MORSEFJC` of `src/physics/single_chain/ufjc/morse/thermodynamics/mod.rs` as reached from `MORSEFJC::init` holds the inputs. -/
theorem C37_morse_thermodynamics (N : Nat) (ℓ : α) (m : α) (k : α) (ε : α) :
    let s := (Polymers.ufjc.morse.MORSEFJC.init N ℓ m k ε).thermodynamics
    s.hinge_mass = m ∧
      s.link_length = ℓ ∧
      s.number_of_links = N ∧
      s.link_stiffness = k ∧
      s.link_energy = ε ∧
      s = Polymers.ufjc.morse.thermodynamics.MORSEFJC.init N ℓ m k ε := by
  exact ⟨rfl, rfl, rfl, rfl, rfl, rfl⟩

/-- C37: `MORSEFJC` of `src/physics/single_chain/ufjc/morse/mod.rs` as reached from `MORSEFJC::init` holds the inputs. -/
theorem C37_morse (N : Nat) (ℓ : α) (m : α) (k : α) (ε : α) :
    let s := (Polymers.ufjc.morse.MORSEFJC.init N ℓ m k ε)
    s.hinge_mass = m ∧
      s.link_length = ℓ ∧
      s.number_of_links = N ∧
      s.link_stiffness = k ∧
      s.link_energy = ε := by
  exact ⟨rfl, rfl, rfl, rfl, rfl⟩

end Polymers.Props
