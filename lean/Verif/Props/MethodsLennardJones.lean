/- Generated by tools/gen_methods.py ; do not edit by hand. -/
import Verif.Model.LennardJones

/-! Properties C37 and C38.  Over any number type, so in particular over floating-point numbers. -/

namespace Polymers.Props

set_option linter.unusedSectionVars false

variable {α : Type} [Add α] [Sub α] [Mul α] [Div α] [Neg α] [OfScientific α] [NatCast α] [Elem α]

/-- C37: `LENNARDJONESFJC` of `src/physics/single_chain/ufjc/lennard_jones/thermodynamics/isometric/asymptotic/reduced/legendre/mod.rs` as reached from `LENNARDJONESFJC::init` holds the inputs. -/
theorem C37_lennard_jones_isometric_asymptotic_reduced_legendre (N : Nat) (ℓ : α) (m : α) (k : α) :
    let s := (Polymers.ufjc.lennard_jones.LENNARDJONESFJC.init N ℓ m k).thermodynamics.isometric.asymptotic.reduced.legendre
    s.hinge_mass = m ∧
      s.link_length = ℓ ∧
      s.number_of_links = N ∧
      s.link_stiffness = k ∧
      s = Polymers.ufjc.lennard_jones.thermodynamics.isometric.asymptotic.reduced.legendre.LENNARDJONESFJC.init N ℓ m k := by
  exact ⟨rfl, rfl, rfl, rfl, rfl⟩

/-- C38: every method of `LENNARDJONESFJC` of `src/physics/single_chain/ufjc/lennard_jones/thermodynamics/isometric/asymptotic/reduced/legendre/mod.rs` is the free function at the stored inputs. -/
theorem C38_lennard_jones_isometric_asymptotic_reduced_legendre (N : Nat) (ℓ : α) (m : α) (k : α) :
    let s := (Polymers.ufjc.lennard_jones.LENNARDJONESFJC.init N ℓ m k).thermodynamics.isometric.asymptotic.reduced.legendre
    (∀ end_to_end_length temperature : α, s.force end_to_end_length temperature =
        Polymers.ufjc.lennard_jones.thermodynamics.isometric.asymptotic.reduced.legendre.force N ℓ k end_to_end_length temperature) ∧
      (∀ nondimensional_end_to_end_length_per_link temperature : α, s.nondimensional_force nondimensional_end_to_end_length_per_link temperature =
        Polymers.ufjc.lennard_jones.thermodynamics.isometric.asymptotic.reduced.legendre.nondimensional_force (k * Elem.powi ℓ 2 / BOLTZMANN_CONSTANT / temperature) nondimensional_end_to_end_length_per_link) ∧
      (∀ end_to_end_length temperature : α, s.helmholtz_free_energy end_to_end_length temperature =
        Polymers.ufjc.lennard_jones.thermodynamics.isometric.asymptotic.reduced.legendre.helmholtz_free_energy N ℓ m k end_to_end_length temperature) ∧
      (∀ end_to_end_length temperature : α, s.helmholtz_free_energy_per_link end_to_end_length temperature =
        Polymers.ufjc.lennard_jones.thermodynamics.isometric.asymptotic.reduced.legendre.helmholtz_free_energy_per_link N ℓ m k end_to_end_length temperature) ∧
      (∀ end_to_end_length temperature : α, s.relative_helmholtz_free_energy end_to_end_length temperature =
        Polymers.ufjc.lennard_jones.thermodynamics.isometric.asymptotic.reduced.legendre.relative_helmholtz_free_energy N ℓ k end_to_end_length temperature) ∧
      (∀ end_to_end_length temperature : α, s.relative_helmholtz_free_energy_per_link end_to_end_length temperature =
        Polymers.ufjc.lennard_jones.thermodynamics.isometric.asymptotic.reduced.legendre.relative_helmholtz_free_energy_per_link N ℓ k end_to_end_length temperature) ∧
      (∀ nondimensional_end_to_end_length_per_link temperature : α, s.nondimensional_helmholtz_free_energy nondimensional_end_to_end_length_per_link temperature =
        Polymers.ufjc.lennard_jones.thermodynamics.isometric.asymptotic.reduced.legendre.nondimensional_helmholtz_free_energy N ℓ m (k * Elem.powi ℓ 2 / BOLTZMANN_CONSTANT / temperature) nondimensional_end_to_end_length_per_link temperature) ∧
      (∀ nondimensional_end_to_end_length_per_link temperature : α, s.nondimensional_helmholtz_free_energy_per_link nondimensional_end_to_end_length_per_link temperature =
        Polymers.ufjc.lennard_jones.thermodynamics.isometric.asymptotic.reduced.legendre.nondimensional_helmholtz_free_energy_per_link N ℓ m (k * Elem.powi ℓ 2 / BOLTZMANN_CONSTANT / temperature) nondimensional_end_to_end_length_per_link temperature) ∧
      (∀ nondimensional_end_to_end_length_per_link temperature : α, s.nondimensional_relative_helmholtz_free_energy nondimensional_end_to_end_length_per_link temperature =
        Polymers.ufjc.lennard_jones.thermodynamics.isometric.asymptotic.reduced.legendre.nondimensional_relative_helmholtz_free_energy N (k * Elem.powi ℓ 2 / BOLTZMANN_CONSTANT / temperature) nondimensional_end_to_end_length_per_link) ∧
      (∀ nondimensional_end_to_end_length_per_link temperature : α, s.nondimensional_relative_helmholtz_free_energy_per_link nondimensional_end_to_end_length_per_link temperature =
        Polymers.ufjc.lennard_jones.thermodynamics.isometric.asymptotic.reduced.legendre.nondimensional_relative_helmholtz_free_energy_per_link (k * Elem.powi ℓ 2 / BOLTZMANN_CONSTANT / temperature) nondimensional_end_to_end_length_per_link) := by
  exact ⟨fun _ _ => rfl, fun _ _ => rfl, fun _ _ => rfl, fun _ _ => rfl, fun _ _ => rfl, fun _ _ => rfl, fun _ _ => rfl, fun _ _ => rfl, fun _ _ => rfl, fun _ _ => rfl⟩

/-- C37: `LENNARDJONESFJC` of `src/physics/single_chain/ufjc/lennard_jones/thermodynamics/isotensional/asymptotic/reduced/legendre/mod.rs` as reached from `LENNARDJONESFJC::init` holds the inputs. -/
theorem C37_lennard_jones_isotensional_asymptotic_reduced_legendre (N : Nat) (ℓ : α) (m : α) (k : α) :
    let s := (Polymers.ufjc.lennard_jones.LENNARDJONESFJC.init N ℓ m k).thermodynamics.isotensional.asymptotic.reduced.legendre
    s.hinge_mass = m ∧
      s.link_length = ℓ ∧
      s.number_of_links = N ∧
      s.link_stiffness = k ∧
      s = Polymers.ufjc.lennard_jones.thermodynamics.isotensional.asymptotic.reduced.legendre.LENNARDJONESFJC.init N ℓ m k := by
  exact ⟨rfl, rfl, rfl, rfl, rfl⟩

/-- C38: every method of `LENNARDJONESFJC` of `src/physics/single_chain/ufjc/lennard_jones/thermodynamics/isotensional/asymptotic/reduced/legendre/mod.rs` is the free function at the stored inputs. -/
theorem C38_lennard_jones_isotensional_asymptotic_reduced_legendre (N : Nat) (ℓ : α) (m : α) (k : α) :
    let s := (Polymers.ufjc.lennard_jones.LENNARDJONESFJC.init N ℓ m k).thermodynamics.isotensional.asymptotic.reduced.legendre
    (∀ force temperature : α, s.helmholtz_free_energy force temperature =
        Polymers.ufjc.lennard_jones.thermodynamics.isotensional.asymptotic.reduced.legendre.helmholtz_free_energy N ℓ m k force temperature) ∧
      (∀ force temperature : α, s.helmholtz_free_energy_per_link force temperature =
        Polymers.ufjc.lennard_jones.thermodynamics.isotensional.asymptotic.reduced.legendre.helmholtz_free_energy_per_link ℓ m k force temperature) ∧
      (∀ force temperature : α, s.relative_helmholtz_free_energy force temperature =
        Polymers.ufjc.lennard_jones.thermodynamics.isotensional.asymptotic.reduced.legendre.relative_helmholtz_free_energy N ℓ k force temperature) ∧
      (∀ force temperature : α, s.relative_helmholtz_free_energy_per_link force temperature =
        Polymers.ufjc.lennard_jones.thermodynamics.isotensional.asymptotic.reduced.legendre.relative_helmholtz_free_energy_per_link ℓ k force temperature) ∧
      (∀ nondimensional_force temperature : α, s.nondimensional_helmholtz_free_energy nondimensional_force temperature =
        Polymers.ufjc.lennard_jones.thermodynamics.isotensional.asymptotic.reduced.legendre.nondimensional_helmholtz_free_energy N ℓ m (k * Elem.powi ℓ 2 / BOLTZMANN_CONSTANT / temperature) nondimensional_force temperature) ∧
      (∀ nondimensional_force temperature : α, s.nondimensional_helmholtz_free_energy_per_link nondimensional_force temperature =
        Polymers.ufjc.lennard_jones.thermodynamics.isotensional.asymptotic.reduced.legendre.nondimensional_helmholtz_free_energy_per_link ℓ m (k * Elem.powi ℓ 2 / BOLTZMANN_CONSTANT / temperature) nondimensional_force temperature) ∧
      (∀ nondimensional_force temperature : α, s.nondimensional_relative_helmholtz_free_energy nondimensional_force temperature =
        Polymers.ufjc.lennard_jones.thermodynamics.isotensional.asymptotic.reduced.legendre.nondimensional_relative_helmholtz_free_energy N (k * Elem.powi ℓ 2 / BOLTZMANN_CONSTANT / temperature) nondimensional_force) ∧
      (∀ nondimensional_force temperature : α, s.nondimensional_relative_helmholtz_free_energy_per_link nondimensional_force temperature =
        Polymers.ufjc.lennard_jones.thermodynamics.isotensional.asymptotic.reduced.legendre.nondimensional_relative_helmholtz_free_energy_per_link (k * Elem.powi ℓ 2 / BOLTZMANN_CONSTANT / temperature) nondimensional_force) := by
  exact ⟨fun _ _ => rfl, fun _ _ => rfl, fun _ _ => rfl, fun _ _ => rfl, fun _ _ => rfl, fun _ _ => rfl, fun _ _ => rfl, fun _ _ => rfl⟩

/-- C37: `LENNARDJONESFJC` of `src/physics/single_chain/ufjc/lennard_jones/thermodynamics/isometric/asymptotic/legendre/mod.rs` as reached from `LENNARDJONESFJC::init` holds the inputs. -/
theorem C37_lennard_jones_isometric_asymptotic_legendre (N : Nat) (ℓ : α) (m : α) (k : α) :
    let s := (Polymers.ufjc.lennard_jones.LENNARDJONESFJC.init N ℓ m k).thermodynamics.isometric.asymptotic.legendre
    s.hinge_mass = m ∧
      s.link_length = ℓ ∧
      s.number_of_links = N ∧
      s.link_stiffness = k ∧
      s = Polymers.ufjc.lennard_jones.thermodynamics.isometric.asymptotic.legendre.LENNARDJONESFJC.init N ℓ m k := by
  exact ⟨rfl, rfl, rfl, rfl, rfl⟩

/-- C38: every method of `LENNARDJONESFJC` of `src/physics/single_chain/ufjc/lennard_jones/thermodynamics/isometric/asymptotic/legendre/mod.rs` is the free function at the stored inputs. -/
theorem C38_lennard_jones_isometric_asymptotic_legendre (N : Nat) (ℓ : α) (m : α) (k : α) :
    let s := (Polymers.ufjc.lennard_jones.LENNARDJONESFJC.init N ℓ m k).thermodynamics.isometric.asymptotic.legendre
    (∀ end_to_end_length temperature : α, s.force end_to_end_length temperature =
        Polymers.ufjc.lennard_jones.thermodynamics.isometric.asymptotic.legendre.force N ℓ k end_to_end_length temperature) ∧
      (∀ nondimensional_end_to_end_length_per_link temperature : α, s.nondimensional_force nondimensional_end_to_end_length_per_link temperature =
        Polymers.ufjc.lennard_jones.thermodynamics.isometric.asymptotic.legendre.nondimensional_force (k * Elem.powi ℓ 2 / BOLTZMANN_CONSTANT / temperature) nondimensional_end_to_end_length_per_link) ∧
      (∀ end_to_end_length temperature : α, s.helmholtz_free_energy end_to_end_length temperature =
        Polymers.ufjc.lennard_jones.thermodynamics.isometric.asymptotic.legendre.helmholtz_free_energy N ℓ m k end_to_end_length temperature) ∧
      (∀ end_to_end_length temperature : α, s.helmholtz_free_energy_per_link end_to_end_length temperature =
        Polymers.ufjc.lennard_jones.thermodynamics.isometric.asymptotic.legendre.helmholtz_free_energy_per_link N ℓ m k end_to_end_length temperature) ∧
      (∀ end_to_end_length temperature : α, s.relative_helmholtz_free_energy end_to_end_length temperature =
        Polymers.ufjc.lennard_jones.thermodynamics.isometric.asymptotic.legendre.relative_helmholtz_free_energy N ℓ k end_to_end_length temperature) ∧
      (∀ end_to_end_length temperature : α, s.relative_helmholtz_free_energy_per_link end_to_end_length temperature =
        Polymers.ufjc.lennard_jones.thermodynamics.isometric.asymptotic.legendre.relative_helmholtz_free_energy_per_link N ℓ k end_to_end_length temperature) ∧
      (∀ nondimensional_end_to_end_length_per_link temperature : α, s.nondimensional_helmholtz_free_energy nondimensional_end_to_end_length_per_link temperature =
        Polymers.ufjc.lennard_jones.thermodynamics.isometric.asymptotic.legendre.nondimensional_helmholtz_free_energy N ℓ m (k * Elem.powi ℓ 2 / BOLTZMANN_CONSTANT / temperature) nondimensional_end_to_end_length_per_link temperature) ∧
      (∀ nondimensional_end_to_end_length_per_link temperature : α, s.nondimensional_helmholtz_free_energy_per_link nondimensional_end_to_end_length_per_link temperature =
        Polymers.ufjc.lennard_jones.thermodynamics.isometric.asymptotic.legendre.nondimensional_helmholtz_free_energy_per_link N ℓ m (k * Elem.powi ℓ 2 / BOLTZMANN_CONSTANT / temperature) nondimensional_end_to_end_length_per_link temperature) ∧
      (∀ nondimensional_end_to_end_length_per_link temperature : α, s.nondimensional_relative_helmholtz_free_energy nondimensional_end_to_end_length_per_link temperature =
        Polymers.ufjc.lennard_jones.thermodynamics.isometric.asymptotic.legendre.nondimensional_relative_helmholtz_free_energy N (k * Elem.powi ℓ 2 / BOLTZMANN_CONSTANT / temperature) nondimensional_end_to_end_length_per_link) ∧
      (∀ nondimensional_end_to_end_length_per_link temperature : α, s.nondimensional_relative_helmholtz_free_energy_per_link nondimensional_end_to_end_length_per_link temperature =
        Polymers.ufjc.lennard_jones.thermodynamics.isometric.asymptotic.legendre.nondimensional_relative_helmholtz_free_energy_per_link (k * Elem.powi ℓ 2 / BOLTZMANN_CONSTANT / temperature) nondimensional_end_to_end_length_per_link) := by
  exact ⟨fun _ _ => rfl, fun _ _ => rfl, fun _ _ => rfl, fun _ _ => rfl, fun _ _ => rfl, fun _ _ => rfl, fun _ _ => rfl, fun _ _ => rfl, fun _ _ => rfl, fun _ _ => rfl⟩

/-- C37: `LENNARDJONESFJC` of `src/physics/single_chain/ufjc/lennard_jones/thermodynamics/isometric/asymptotic/reduced/mod.rs` as reached from `LENNARDJONESFJC::init` holds the inputs. -/
theorem C37_lennard_jones_isometric_asymptotic_reduced (N : Nat) (ℓ : α) (m : α) (k : α) :
    let s := (Polymers.ufjc.lennard_jones.LENNARDJONESFJC.init N ℓ m k).thermodynamics.isometric.asymptotic.reduced
    s.hinge_mass = m ∧
      s.link_length = ℓ ∧
      s.number_of_links = N ∧
      s.link_stiffness = k ∧
      s = Polymers.ufjc.lennard_jones.thermodynamics.isometric.asymptotic.reduced.LENNARDJONESFJC.init N ℓ m k := by
  exact ⟨rfl, rfl, rfl, rfl, rfl⟩

/-- C37: `LENNARDJONESFJC` of `src/physics/single_chain/ufjc/lennard_jones/thermodynamics/isotensional/asymptotic/legendre/mod.rs` as reached from `LENNARDJONESFJC::init` holds the inputs. -/
theorem C37_lennard_jones_isotensional_asymptotic_legendre (N : Nat) (ℓ : α) (m : α) (k : α) :
    let s := (Polymers.ufjc.lennard_jones.LENNARDJONESFJC.init N ℓ m k).thermodynamics.isotensional.asymptotic.legendre
    s.hinge_mass = m ∧
      s.link_length = ℓ ∧
      s.number_of_links = N ∧
      s.link_stiffness = k ∧
      s = Polymers.ufjc.lennard_jones.thermodynamics.isotensional.asymptotic.legendre.LENNARDJONESFJC.init N ℓ m k := by
  exact ⟨rfl, rfl, rfl, rfl, rfl⟩

/-- C38: every method of `LENNARDJONESFJC` of `src/physics/single_chain/ufjc/lennard_jones/thermodynamics/isotensional/asymptotic/legendre/mod.rs` is the free function at the stored inputs. -/
theorem C38_lennard_jones_isotensional_asymptotic_legendre (N : Nat) (ℓ : α) (m : α) (k : α) :
    let s := (Polymers.ufjc.lennard_jones.LENNARDJONESFJC.init N ℓ m k).thermodynamics.isotensional.asymptotic.legendre
    (∀ force temperature : α, s.helmholtz_free_energy force temperature =
        Polymers.ufjc.lennard_jones.thermodynamics.isotensional.asymptotic.legendre.helmholtz_free_energy N ℓ m k force temperature) ∧
      (∀ force temperature : α, s.helmholtz_free_energy_per_link force temperature =
        Polymers.ufjc.lennard_jones.thermodynamics.isotensional.asymptotic.legendre.helmholtz_free_energy_per_link ℓ m k force temperature) ∧
      (∀ force temperature : α, s.relative_helmholtz_free_energy force temperature =
        Polymers.ufjc.lennard_jones.thermodynamics.isotensional.asymptotic.legendre.relative_helmholtz_free_energy N ℓ k force temperature) ∧
      (∀ force temperature : α, s.relative_helmholtz_free_energy_per_link force temperature =
        Polymers.ufjc.lennard_jones.thermodynamics.isotensional.asymptotic.legendre.relative_helmholtz_free_energy_per_link ℓ k force temperature) ∧
      (∀ nondimensional_force temperature : α, s.nondimensional_helmholtz_free_energy nondimensional_force temperature =
        Polymers.ufjc.lennard_jones.thermodynamics.isotensional.asymptotic.legendre.nondimensional_helmholtz_free_energy N ℓ m (k * Elem.powi ℓ 2 / BOLTZMANN_CONSTANT / temperature) nondimensional_force temperature) ∧
      (∀ nondimensional_force temperature : α, s.nondimensional_helmholtz_free_energy_per_link nondimensional_force temperature =
        Polymers.ufjc.lennard_jones.thermodynamics.isotensional.asymptotic.legendre.nondimensional_helmholtz_free_energy_per_link ℓ m (k * Elem.powi ℓ 2 / BOLTZMANN_CONSTANT / temperature) nondimensional_force temperature) ∧
      (∀ nondimensional_force temperature : α, s.nondimensional_relative_helmholtz_free_energy nondimensional_force temperature =
        Polymers.ufjc.lennard_jones.thermodynamics.isotensional.asymptotic.legendre.nondimensional_relative_helmholtz_free_energy N (k * Elem.powi ℓ 2 / BOLTZMANN_CONSTANT / temperature) nondimensional_force) ∧
      (∀ nondimensional_force temperature : α, s.nondimensional_relative_helmholtz_free_energy_per_link nondimensional_force temperature =
        Polymers.ufjc.lennard_jones.thermodynamics.isotensional.asymptotic.legendre.nondimensional_relative_helmholtz_free_energy_per_link (k * Elem.powi ℓ 2 / BOLTZMANN_CONSTANT / temperature) nondimensional_force) := by
  exact ⟨fun _ _ => rfl, fun _ _ => rfl, fun _ _ => rfl, fun _ _ => rfl, fun _ _ => rfl, fun _ _ => rfl, fun _ _ => rfl, fun _ _ => rfl⟩

/-- C37: `LENNARDJONESFJC` of `src/physics/single_chain/ufjc/lennard_jones/thermodynamics/isotensional/asymptotic/reduced/mod.rs` as reached from `LENNARDJONESFJC::init` holds the inputs. -/
theorem C37_lennard_jones_isotensional_asymptotic_reduced (N : Nat) (ℓ : α) (m : α) (k : α) :
    let s := (Polymers.ufjc.lennard_jones.LENNARDJONESFJC.init N ℓ m k).thermodynamics.isotensional.asymptotic.reduced
    s.hinge_mass = m ∧
      s.link_length = ℓ ∧
      s.number_of_links = N ∧
      s.link_stiffness = k ∧
      s = Polymers.ufjc.lennard_jones.thermodynamics.isotensional.asymptotic.reduced.LENNARDJONESFJC.init N ℓ m k := by
  exact ⟨rfl, rfl, rfl, rfl, rfl⟩

/-- C38: every method of `LENNARDJONESFJC` of `src/physics/single_chain/ufjc/lennard_jones/thermodynamics/isotensional/asymptotic/reduced/mod.rs` is the free function at the stored inputs. -/
theorem C38_lennard_jones_isotensional_asymptotic_reduced (N : Nat) (ℓ : α) (m : α) (k : α) :
    let s := (Polymers.ufjc.lennard_jones.LENNARDJONESFJC.init N ℓ m k).thermodynamics.isotensional.asymptotic.reduced
    (∀ force temperature : α, s.end_to_end_length force temperature =
        Polymers.ufjc.lennard_jones.thermodynamics.isotensional.asymptotic.reduced.end_to_end_length N ℓ k force temperature) ∧
      (∀ force temperature : α, s.end_to_end_length_per_link force temperature =
        Polymers.ufjc.lennard_jones.thermodynamics.isotensional.asymptotic.reduced.end_to_end_length_per_link ℓ k force temperature) ∧
      (∀ nondimensional_force temperature : α, s.nondimensional_end_to_end_length nondimensional_force temperature =
        Polymers.ufjc.lennard_jones.thermodynamics.isotensional.asymptotic.reduced.nondimensional_end_to_end_length N (k * Elem.powi ℓ 2 / BOLTZMANN_CONSTANT / temperature) nondimensional_force) ∧
      (∀ nondimensional_force temperature : α, s.nondimensional_end_to_end_length_per_link nondimensional_force temperature =
        Polymers.ufjc.lennard_jones.thermodynamics.isotensional.asymptotic.reduced.nondimensional_end_to_end_length_per_link (k * Elem.powi ℓ 2 / BOLTZMANN_CONSTANT / temperature) nondimensional_force) ∧
      (∀ force temperature : α, s.gibbs_free_energy force temperature =
        Polymers.ufjc.lennard_jones.thermodynamics.isotensional.asymptotic.reduced.gibbs_free_energy N ℓ m k force temperature) ∧
      (∀ force temperature : α, s.gibbs_free_energy_per_link force temperature =
        Polymers.ufjc.lennard_jones.thermodynamics.isotensional.asymptotic.reduced.gibbs_free_energy_per_link ℓ m k force temperature) ∧
      (∀ force temperature : α, s.relative_gibbs_free_energy force temperature =
        Polymers.ufjc.lennard_jones.thermodynamics.isotensional.asymptotic.reduced.relative_gibbs_free_energy N ℓ k force temperature) ∧
      (∀ force temperature : α, s.relative_gibbs_free_energy_per_link force temperature =
        Polymers.ufjc.lennard_jones.thermodynamics.isotensional.asymptotic.reduced.relative_gibbs_free_energy_per_link ℓ k force temperature) ∧
      (∀ nondimensional_force temperature : α, s.nondimensional_gibbs_free_energy nondimensional_force temperature =
        Polymers.ufjc.lennard_jones.thermodynamics.isotensional.asymptotic.reduced.nondimensional_gibbs_free_energy N ℓ m (k * Elem.powi ℓ 2 / BOLTZMANN_CONSTANT / temperature) nondimensional_force temperature) ∧
      (∀ nondimensional_force temperature : α, s.nondimensional_gibbs_free_energy_per_link nondimensional_force temperature =
        Polymers.ufjc.lennard_jones.thermodynamics.isotensional.asymptotic.reduced.nondimensional_gibbs_free_energy_per_link ℓ m (k * Elem.powi ℓ 2 / BOLTZMANN_CONSTANT / temperature) nondimensional_force temperature) ∧
      (∀ nondimensional_force temperature : α, s.nondimensional_relative_gibbs_free_energy nondimensional_force temperature =
        Polymers.ufjc.lennard_jones.thermodynamics.isotensional.asymptotic.reduced.nondimensional_relative_gibbs_free_energy N (k * Elem.powi ℓ 2 / BOLTZMANN_CONSTANT / temperature) nondimensional_force) ∧
      (∀ nondimensional_force temperature : α, s.nondimensional_relative_gibbs_free_energy_per_link nondimensional_force temperature =
        Polymers.ufjc.lennard_jones.thermodynamics.isotensional.asymptotic.reduced.nondimensional_relative_gibbs_free_energy_per_link (k * Elem.powi ℓ 2 / BOLTZMANN_CONSTANT / temperature) nondimensional_force) := by
  exact ⟨fun _ _ => rfl, fun _ _ => rfl, fun _ _ => rfl, fun _ _ => rfl, fun _ _ => rfl, fun _ _ => rfl, fun _ _ => rfl, fun _ _ => rfl, fun _ _ => rfl, fun _ _ => rfl, fun _ _ => rfl, fun _ _ => rfl⟩

/-- C37: `LENNARDJONESFJC` of `src/physics/single_chain/ufjc/lennard_jones/thermodynamics/isometric/asymptotic/mod.rs` as reached from `LENNARDJONESFJC::init` holds the inputs. -/
theorem C37_lennard_jones_isometric_asymptotic (N : Nat) (ℓ : α) (m : α) (k : α) :
    let s := (Polymers.ufjc.lennard_jones.LENNARDJONESFJC.init N ℓ m k).thermodynamics.isometric.asymptotic
    s.hinge_mass = m ∧
      s.link_length = ℓ ∧
      s.number_of_links = N ∧
      s.link_stiffness = k ∧
      s = Polymers.ufjc.lennard_jones.thermodynamics.isometric.asymptotic.LENNARDJONESFJC.init N ℓ m k := by
  exact ⟨rfl, rfl, rfl, rfl, rfl⟩

/-- C37: `LENNARDJONESFJC` of `src/physics/single_chain/ufjc/lennard_jones/thermodynamics/isotensional/asymptotic/mod.rs` as reached from `LENNARDJONESFJC::init` holds the inputs. -/
theorem C37_lennard_jones_isotensional_asymptotic (N : Nat) (ℓ : α) (m : α) (k : α) :
    let s := (Polymers.ufjc.lennard_jones.LENNARDJONESFJC.init N ℓ m k).thermodynamics.isotensional.asymptotic
    s.hinge_mass = m ∧
      s.link_length = ℓ ∧
      s.number_of_links = N ∧
      s.link_stiffness = k ∧
      s = Polymers.ufjc.lennard_jones.thermodynamics.isotensional.asymptotic.LENNARDJONESFJC.init N ℓ m k := by
  exact ⟨rfl, rfl, rfl, rfl, rfl⟩

/-- C38: every method of `LENNARDJONESFJC` of `src/physics/single_chain/ufjc/lennard_jones/thermodynamics/isotensional/asymptotic/mod.rs` is the free function at the stored inputs. -/
theorem C38_lennard_jones_isotensional_asymptotic (N : Nat) (ℓ : α) (m : α) (k : α) :
    let s := (Polymers.ufjc.lennard_jones.LENNARDJONESFJC.init N ℓ m k).thermodynamics.isotensional.asymptotic
    (∀ force temperature : α, s.end_to_end_length force temperature =
        Polymers.ufjc.lennard_jones.thermodynamics.isotensional.asymptotic.end_to_end_length N ℓ k force temperature) ∧
      (∀ force temperature : α, s.end_to_end_length_per_link force temperature =
        Polymers.ufjc.lennard_jones.thermodynamics.isotensional.asymptotic.end_to_end_length_per_link ℓ k force temperature) ∧
      (∀ nondimensional_force temperature : α, s.nondimensional_end_to_end_length nondimensional_force temperature =
        Polymers.ufjc.lennard_jones.thermodynamics.isotensional.asymptotic.nondimensional_end_to_end_length N (k * Elem.powi ℓ 2 / BOLTZMANN_CONSTANT / temperature) nondimensional_force) ∧
      (∀ nondimensional_force temperature : α, s.nondimensional_end_to_end_length_per_link nondimensional_force temperature =
        Polymers.ufjc.lennard_jones.thermodynamics.isotensional.asymptotic.nondimensional_end_to_end_length_per_link (k * Elem.powi ℓ 2 / BOLTZMANN_CONSTANT / temperature) nondimensional_force) ∧
      (∀ force temperature : α, s.gibbs_free_energy force temperature =
        Polymers.ufjc.lennard_jones.thermodynamics.isotensional.asymptotic.gibbs_free_energy N ℓ m k force temperature) ∧
      (∀ force temperature : α, s.gibbs_free_energy_per_link force temperature =
        Polymers.ufjc.lennard_jones.thermodynamics.isotensional.asymptotic.gibbs_free_energy_per_link ℓ m k force temperature) ∧
      (∀ force temperature : α, s.relative_gibbs_free_energy force temperature =
        Polymers.ufjc.lennard_jones.thermodynamics.isotensional.asymptotic.relative_gibbs_free_energy N ℓ k force temperature) ∧
      (∀ force temperature : α, s.relative_gibbs_free_energy_per_link force temperature =
        Polymers.ufjc.lennard_jones.thermodynamics.isotensional.asymptotic.relative_gibbs_free_energy_per_link ℓ k force temperature) ∧
      (∀ nondimensional_force temperature : α, s.nondimensional_gibbs_free_energy nondimensional_force temperature =
        Polymers.ufjc.lennard_jones.thermodynamics.isotensional.asymptotic.nondimensional_gibbs_free_energy N ℓ m (k * Elem.powi ℓ 2 / BOLTZMANN_CONSTANT / temperature) nondimensional_force temperature) ∧
      (∀ nondimensional_force temperature : α, s.nondimensional_gibbs_free_energy_per_link nondimensional_force temperature =
        Polymers.ufjc.lennard_jones.thermodynamics.isotensional.asymptotic.nondimensional_gibbs_free_energy_per_link ℓ m (k * Elem.powi ℓ 2 / BOLTZMANN_CONSTANT / temperature) nondimensional_force temperature) ∧
      (∀ nondimensional_force temperature : α, s.nondimensional_relative_gibbs_free_energy nondimensional_force temperature =
        Polymers.ufjc.lennard_jones.thermodynamics.isotensional.asymptotic.nondimensional_relative_gibbs_free_energy N (k * Elem.powi ℓ 2 / BOLTZMANN_CONSTANT / temperature) nondimensional_force) ∧
      (∀ nondimensional_force temperature : α, s.nondimensional_relative_gibbs_free_energy_per_link nondimensional_force temperature =
        Polymers.ufjc.lennard_jones.thermodynamics.isotensional.asymptotic.nondimensional_relative_gibbs_free_energy_per_link (k * Elem.powi ℓ 2 / BOLTZMANN_CONSTANT / temperature) nondimensional_force) := by
  exact ⟨fun _ _ => rfl, fun _ _ => rfl, fun _ _ => rfl, fun _ _ => rfl, fun _ _ => rfl, fun _ _ => rfl, fun _ _ => rfl, fun _ _ => rfl, fun _ _ => rfl, fun _ _ => rfl, fun _ _ => rfl, fun _ _ => rfl⟩

/-- C37: `LENNARDJONESFJC` of `src/physics/single_chain/ufjc/lennard_jones/thermodynamics/isotensional/legendre/mod.rs` as reached from `LENNARDJONESFJC::init` holds the inputs. -/
theorem C37_lennard_jones_isotensional_legendre (N : Nat) (ℓ : α) (m : α) (k : α) :
    let s := (Polymers.ufjc.lennard_jones.LENNARDJONESFJC.init N ℓ m k).thermodynamics.isotensional.legendre
    s.hinge_mass = m ∧
      s.link_length = ℓ ∧
      s.number_of_links = N ∧
      s.link_stiffness = k ∧
      s = Polymers.ufjc.lennard_jones.thermodynamics.isotensional.legendre.LENNARDJONESFJC.init N ℓ m k := by
  exact ⟨rfl, rfl, rfl, rfl, rfl⟩

/-- C38: every method of `LENNARDJONESFJC` of `src/physics/single_chain/ufjc/lennard_jones/thermodynamics/isotensional/legendre/mod.rs` is the free function at the stored inputs. -/
theorem C38_lennard_jones_isotensional_legendre (N : Nat) (ℓ : α) (m : α) (k : α) :
    let s := (Polymers.ufjc.lennard_jones.LENNARDJONESFJC.init N ℓ m k).thermodynamics.isotensional.legendre
    (∀ force temperature : α, s.helmholtz_free_energy force temperature =
        Polymers.ufjc.lennard_jones.thermodynamics.isotensional.legendre.helmholtz_free_energy N ℓ m k force temperature) ∧
      (∀ force temperature : α, s.helmholtz_free_energy_per_link force temperature =
        Polymers.ufjc.lennard_jones.thermodynamics.isotensional.legendre.helmholtz_free_energy_per_link ℓ m k force temperature) ∧
      (∀ force temperature : α, s.relative_helmholtz_free_energy force temperature =
        Polymers.ufjc.lennard_jones.thermodynamics.isotensional.legendre.relative_helmholtz_free_energy N ℓ k force temperature) ∧
      (∀ force temperature : α, s.relative_helmholtz_free_energy_per_link force temperature =
        Polymers.ufjc.lennard_jones.thermodynamics.isotensional.legendre.relative_helmholtz_free_energy_per_link ℓ k force temperature) ∧
      (∀ nondimensional_force temperature : α, s.nondimensional_helmholtz_free_energy nondimensional_force temperature =
        Polymers.ufjc.lennard_jones.thermodynamics.isotensional.legendre.nondimensional_helmholtz_free_energy N ℓ m (k * Elem.powi ℓ 2 / BOLTZMANN_CONSTANT / temperature) nondimensional_force temperature) ∧
      (∀ nondimensional_force temperature : α, s.nondimensional_helmholtz_free_energy_per_link nondimensional_force temperature =
        Polymers.ufjc.lennard_jones.thermodynamics.isotensional.legendre.nondimensional_helmholtz_free_energy_per_link ℓ m (k * Elem.powi ℓ 2 / BOLTZMANN_CONSTANT / temperature) nondimensional_force temperature) ∧
      (∀ nondimensional_force temperature : α, s.nondimensional_relative_helmholtz_free_energy nondimensional_force temperature =
        Polymers.ufjc.lennard_jones.thermodynamics.isotensional.legendre.nondimensional_relative_helmholtz_free_energy N (k * Elem.powi ℓ 2 / BOLTZMANN_CONSTANT / temperature) nondimensional_force) ∧
      (∀ nondimensional_force temperature : α, s.nondimensional_relative_helmholtz_free_energy_per_link nondimensional_force temperature =
        Polymers.ufjc.lennard_jones.thermodynamics.isotensional.legendre.nondimensional_relative_helmholtz_free_energy_per_link (k * Elem.powi ℓ 2 / BOLTZMANN_CONSTANT / temperature) nondimensional_force) := by
  exact ⟨fun _ _ => rfl, fun _ _ => rfl, fun _ _ => rfl, fun _ _ => rfl, fun _ _ => rfl, fun _ _ => rfl, fun _ _ => rfl, fun _ _ => rfl⟩

/-- C37: `LENNARDJONESFJC` of `src/physics/single_chain/ufjc/lennard_jones/thermodynamics/isometric/mod.rs` as reached from `LENNARDJONESFJC::init` holds the inputs. -/
theorem C37_lennard_jones_isometric (N : Nat) (ℓ : α) (m : α) (k : α) :
    let s := (Polymers.ufjc.lennard_jones.LENNARDJONESFJC.init N ℓ m k).thermodynamics.isometric
    s.hinge_mass = m ∧
      s.link_length = ℓ ∧
      s.number_of_links = N ∧
      s.link_stiffness = k ∧
      s = Polymers.ufjc.lennard_jones.thermodynamics.isometric.LENNARDJONESFJC.init N ℓ m k := by
  exact ⟨rfl, rfl, rfl, rfl, rfl⟩

/-- C37: `LENNARDJONESFJC` of `src/physics/single_chain/ufjc/lennard_jones/thermodynamics/isotensional/mod.rs` as reached from `LENNARDJONESFJC::init` holds the inputs. -/
theorem C37_lennard_jones_isotensional (N : Nat) (ℓ : α) (m : α) (k : α) :
    let s := (Polymers.ufjc.lennard_jones.LENNARDJONESFJC.init N ℓ m k).thermodynamics.isotensional
    s.hinge_mass = m ∧
      s.link_length = ℓ ∧
      s.number_of_links = N ∧
      s.link_stiffness = k ∧
      s = Polymers.ufjc.lennard_jones.thermodynamics.isotensional.LENNARDJONESFJC.init N ℓ m k := by
  exact ⟨rfl, rfl, rfl, rfl, rfl⟩

/-- C38: every method of `LENNARDJONESFJC` of `src/physics/single_chain/ufjc/lennard_jones/thermodynamics/isotensional/mod.rs` is the free function at the stored inputs. -/
theorem C38_lennard_jones_isotensional (N : Nat) (ℓ : α) (m : α) (k : α) :
    let s := (Polymers.ufjc.lennard_jones.LENNARDJONESFJC.init N ℓ m k).thermodynamics.isotensional
    (∀ force temperature : α, s.end_to_end_length force temperature =
        Polymers.ufjc.lennard_jones.thermodynamics.isotensional.end_to_end_length N ℓ k force temperature) ∧
      (∀ force temperature : α, s.end_to_end_length_per_link force temperature =
        Polymers.ufjc.lennard_jones.thermodynamics.isotensional.end_to_end_length_per_link ℓ k force temperature) ∧
      (∀ nondimensional_force temperature : α, s.nondimensional_end_to_end_length nondimensional_force temperature =
        Polymers.ufjc.lennard_jones.thermodynamics.isotensional.nondimensional_end_to_end_length N (k * Elem.powi ℓ 2 / BOLTZMANN_CONSTANT / temperature) nondimensional_force) ∧
      (∀ nondimensional_force temperature : α, s.nondimensional_end_to_end_length_per_link nondimensional_force temperature =
        Polymers.ufjc.lennard_jones.thermodynamics.isotensional.nondimensional_end_to_end_length_per_link (k * Elem.powi ℓ 2 / BOLTZMANN_CONSTANT / temperature) nondimensional_force) ∧
      (∀ force temperature : α, s.gibbs_free_energy force temperature =
        Polymers.ufjc.lennard_jones.thermodynamics.isotensional.gibbs_free_energy N ℓ m k force temperature) ∧
      (∀ force temperature : α, s.gibbs_free_energy_per_link force temperature =
        Polymers.ufjc.lennard_jones.thermodynamics.isotensional.gibbs_free_energy_per_link ℓ m k force temperature) ∧
      (∀ force temperature : α, s.relative_gibbs_free_energy force temperature =
        Polymers.ufjc.lennard_jones.thermodynamics.isotensional.relative_gibbs_free_energy N ℓ k force temperature) ∧
      (∀ force temperature : α, s.relative_gibbs_free_energy_per_link force temperature =
        Polymers.ufjc.lennard_jones.thermodynamics.isotensional.relative_gibbs_free_energy_per_link ℓ k force temperature) ∧
      (∀ nondimensional_force temperature : α, s.nondimensional_gibbs_free_energy nondimensional_force temperature =
        Polymers.ufjc.lennard_jones.thermodynamics.isotensional.nondimensional_gibbs_free_energy N ℓ m (k * Elem.powi ℓ 2 / BOLTZMANN_CONSTANT / temperature) nondimensional_force temperature) ∧
      (∀ nondimensional_force temperature : α, s.nondimensional_gibbs_free_energy_per_link nondimensional_force temperature =
        Polymers.ufjc.lennard_jones.thermodynamics.isotensional.nondimensional_gibbs_free_energy_per_link ℓ m (k * Elem.powi ℓ 2 / BOLTZMANN_CONSTANT / temperature) nondimensional_force temperature) ∧
      (∀ nondimensional_force temperature : α, s.nondimensional_relative_gibbs_free_energy nondimensional_force temperature =
        Polymers.ufjc.lennard_jones.thermodynamics.isotensional.nondimensional_relative_gibbs_free_energy N (k * Elem.powi ℓ 2 / BOLTZMANN_CONSTANT / temperature) nondimensional_force) ∧
      (∀ nondimensional_force temperature : α, s.nondimensional_relative_gibbs_free_energy_per_link nondimensional_force temperature =
        Polymers.ufjc.lennard_jones.thermodynamics.isotensional.nondimensional_relative_gibbs_free_energy_per_link (k * Elem.powi ℓ 2 / BOLTZMANN_CONSTANT / temperature) nondimensional_force) := by
  exact ⟨fun _ _ => rfl, fun _ _ => rfl, fun _ _ => rfl, fun _ _ => rfl, fun _ _ => rfl, fun _ _ => rfl, fun _ _ => rfl, fun _ _ => rfl, fun _ _ => rfl, fun _ _ => rfl, fun _ _ => rfl, fun _ _ => rfl⟩

/-- C37: `LENNARDJONESFJC` of `src/physics/single_chain/ufjc/lennard_jones/thermodynamics/mod.rs` as reached from `LENNARDJONESFJC::init` holds the inputs. -/
theorem C37_lennard_jones_thermodynamics (N : Nat) (ℓ : α) (m : α) (k : α) :
    let s := (Polymers.ufjc.lennard_jones.LENNARDJONESFJC.init N ℓ m k).thermodynamics
    s.hinge_mass = m ∧
      s.link_length = ℓ ∧
      s.number_of_links = N ∧
      s.link_stiffness = k ∧
      s = Polymers.ufjc.lennard_jones.thermodynamics.LENNARDJONESFJC.init N ℓ m k := by
  exact ⟨rfl, rfl, rfl, rfl, rfl⟩

/-- C37: `LENNARDJONESFJC` of `src/physics/single_chain/ufjc/lennard_jones/mod.rs` as reached from `LENNARDJONESFJC::init` holds the inputs. -/
theorem C37_lennard_jones (N : Nat) (ℓ : α) (m : α) (k : α) :
    let s := (Polymers.ufjc.lennard_jones.LENNARDJONESFJC.init N ℓ m k)
    s.hinge_mass = m ∧
      s.link_length = ℓ ∧
      s.number_of_links = N ∧
      s.link_stiffness = k := by
  exact ⟨rfl, rfl, rfl, rfl⟩

end Polymers.Props
