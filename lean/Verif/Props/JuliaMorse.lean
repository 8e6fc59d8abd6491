/- Generated by tools/gen_bindings.py ; do not edit by hand. -/
import Verif.Model.JuliaMorse
import Verif.Lemmas.Julia

/-! Property C60.  Over any number type, so in particular over floating-point numbers. -/

namespace Polymers.Props

open Polymers.Julia Polymers.Spec

set_option linter.unusedSectionVars false

variable {α : Type} [Add α] [Sub α] [Mul α] [Div α] [Neg α] [OfScientific α] [NatCast α] [Elem α]

/-- C60: the Julia struct of `src/physics/single_chain/ufjc/morse/thermodynamics/isometric/asymptotic/reduced/legendre/mod.jl`, as reached from `MORSEFJC(number_of_links, link_length, hinge_mass, link_stiffness, link_energy)`. -/
theorem C60_julia_morse_isometric_asymptotic_reduced_legendre (other : α → JArr α → Option (JArr α)) (N : Nat) (ℓ : α) (m : α) (k : α) (ε : α) :
    let jl := (Polymers.Julia.Ufjc.Morse.MORSEFJC.new other N ℓ m k ε).thermodynamics.isometric.asymptotic.reduced.legendre
    let s := (Polymers.ufjc.morse.MORSEFJC.init N ℓ m k ε).thermodynamics.isometric.asymptotic.reduced.legendre
    jl.hinge_mass = m ∧
      jl.link_length = ℓ ∧
      jl.number_of_links = N ∧
      jl.link_stiffness = k ∧
      jl.link_energy = ε ∧
      Elementwise₂ s.force jl.force ∧
      (∀ temperature : α, Elementwise₁ (fun x => s.nondimensional_force x temperature) fun x => jl.nondimensional_force x (JArr.scalar temperature)) ∧
      Elementwise₂ s.helmholtz_free_energy jl.helmholtz_free_energy ∧
      Elementwise₂ s.helmholtz_free_energy_per_link jl.helmholtz_free_energy_per_link ∧
      Elementwise₂ s.relative_helmholtz_free_energy jl.relative_helmholtz_free_energy ∧
      Elementwise₂ s.relative_helmholtz_free_energy_per_link jl.relative_helmholtz_free_energy_per_link ∧
      (∀ temperature : α, Elementwise₁ (fun x => s.nondimensional_helmholtz_free_energy x temperature) fun x => jl.nondimensional_helmholtz_free_energy x (JArr.scalar temperature)) ∧
      (∀ temperature : α, Elementwise₁ (fun x => s.nondimensional_helmholtz_free_energy_per_link x temperature) fun x => jl.nondimensional_helmholtz_free_energy_per_link x (JArr.scalar temperature)) ∧
      (∀ temperature : α, Elementwise₁ (fun x => s.nondimensional_relative_helmholtz_free_energy x temperature) fun x => jl.nondimensional_relative_helmholtz_free_energy x (JArr.scalar temperature)) ∧
      (∀ temperature : α, Elementwise₁ (fun x => s.nondimensional_relative_helmholtz_free_energy_per_link x temperature) fun x => jl.nondimensional_relative_helmholtz_free_energy_per_link x (JArr.scalar temperature)) := by
  exact ⟨rfl, rfl, rfl, rfl, rfl, JArr.elementwise₂ fun _ _ => rfl, fun t => JArr.elementwise₁ fun _ => rfl, JArr.elementwise₂ fun _ _ => rfl, JArr.elementwise₂ fun _ _ => rfl, JArr.elementwise₂ fun _ _ => rfl, JArr.elementwise₂ fun _ _ => rfl, fun t => JArr.elementwise₁_scalar t fun _ => rfl, fun t => JArr.elementwise₁_scalar t fun _ => rfl, fun t => JArr.elementwise₁ fun _ => rfl, fun t => JArr.elementwise₁ fun _ => rfl⟩

/-- C60: the Julia struct of `src/physics/single_chain/ufjc/morse/thermodynamics/isotensional/asymptotic/reduced/legendre/mod.jl`, as reached from `MORSEFJC(number_of_links, link_length, hinge_mass, link_stiffness, link_energy)`. -/
theorem C60_julia_morse_isotensional_asymptotic_reduced_legendre (other : α → JArr α → Option (JArr α)) (N : Nat) (ℓ : α) (m : α) (k : α) (ε : α) :
    let jl := (Polymers.Julia.Ufjc.Morse.MORSEFJC.new other N ℓ m k ε).thermodynamics.isotensional.asymptotic.reduced.legendre
    let s := (Polymers.ufjc.morse.MORSEFJC.init N ℓ m k ε).thermodynamics.isotensional.asymptotic.reduced.legendre
    jl.hinge_mass = m ∧
      jl.link_length = ℓ ∧
      jl.number_of_links = N ∧
      jl.link_stiffness = k ∧
      jl.link_energy = ε ∧
      Elementwise₂ s.helmholtz_free_energy jl.helmholtz_free_energy ∧
      Elementwise₂ s.helmholtz_free_energy_per_link jl.helmholtz_free_energy_per_link ∧
      Elementwise₂ s.relative_helmholtz_free_energy jl.relative_helmholtz_free_energy ∧
      Elementwise₂ s.relative_helmholtz_free_energy_per_link jl.relative_helmholtz_free_energy_per_link ∧
      (∀ temperature : α, Elementwise₁ (fun x => s.nondimensional_helmholtz_free_energy x temperature) fun x => jl.nondimensional_helmholtz_free_energy x (JArr.scalar temperature)) ∧
      (∀ temperature : α, Elementwise₁ (fun x => s.nondimensional_helmholtz_free_energy_per_link x temperature) fun x => jl.nondimensional_helmholtz_free_energy_per_link x (JArr.scalar temperature)) ∧
      (∀ temperature : α, Elementwise₁ (fun x => s.nondimensional_relative_helmholtz_free_energy x temperature) fun x => jl.nondimensional_relative_helmholtz_free_energy x (JArr.scalar temperature)) ∧
      (∀ temperature : α, Elementwise₁ (fun x => s.nondimensional_relative_helmholtz_free_energy_per_link x temperature) fun x => jl.nondimensional_relative_helmholtz_free_energy_per_link x (JArr.scalar temperature)) := by
  exact ⟨rfl, rfl, rfl, rfl, rfl, JArr.elementwise₂ fun _ _ => rfl, JArr.elementwise₂ fun _ _ => rfl, JArr.elementwise₂ fun _ _ => rfl, JArr.elementwise₂ fun _ _ => rfl, fun t => JArr.elementwise₁_scalar t fun _ => rfl, fun t => JArr.elementwise₁_scalar t fun _ => rfl, fun t => JArr.elementwise₁ fun _ => rfl, fun t => JArr.elementwise₁ fun _ => rfl⟩

/-- C60: the Julia struct of `src/physics/single_chain/ufjc/morse/thermodynamics/isometric/asymptotic/legendre/mod.jl`, as reached from `MORSEFJC(number_of_links, link_length, hinge_mass, link_stiffness, link_energy)`. -/
theorem C60_julia_morse_isometric_asymptotic_legendre (other : α → JArr α → Option (JArr α)) (N : Nat) (ℓ : α) (m : α) (k : α) (ε : α) :
    let jl := (Polymers.Julia.Ufjc.Morse.MORSEFJC.new other N ℓ m k ε).thermodynamics.isometric.asymptotic.legendre
    let s := (Polymers.ufjc.morse.MORSEFJC.init N ℓ m k ε).thermodynamics.isometric.asymptotic.legendre
    jl.hinge_mass = m ∧
      jl.link_length = ℓ ∧
      jl.number_of_links = N ∧
      jl.link_stiffness = k ∧
      jl.link_energy = ε ∧
      Elementwise₂ s.force jl.force ∧
      (∀ temperature : α, Elementwise₁ (fun x => s.nondimensional_force x temperature) fun x => jl.nondimensional_force x (JArr.scalar temperature)) ∧
      Elementwise₂ s.helmholtz_free_energy jl.helmholtz_free_energy ∧
      Elementwise₂ s.helmholtz_free_energy_per_link jl.helmholtz_free_energy_per_link ∧
      Elementwise₂ s.relative_helmholtz_free_energy jl.relative_helmholtz_free_energy ∧
      Elementwise₂ s.relative_helmholtz_free_energy_per_link jl.relative_helmholtz_free_energy_per_link ∧
      (∀ temperature : α, Elementwise₁ (fun x => s.nondimensional_helmholtz_free_energy x temperature) fun x => jl.nondimensional_helmholtz_free_energy x (JArr.scalar temperature)) ∧
      (∀ temperature : α, Elementwise₁ (fun x => s.nondimensional_helmholtz_free_energy_per_link x temperature) fun x => jl.nondimensional_helmholtz_free_energy_per_link x (JArr.scalar temperature)) ∧
      (∀ temperature : α, Elementwise₁ (fun x => s.nondimensional_relative_helmholtz_free_energy x temperature) fun x => jl.nondimensional_relative_helmholtz_free_energy x (JArr.scalar temperature)) ∧
      (∀ temperature : α, Elementwise₁ (fun x => s.nondimensional_relative_helmholtz_free_energy_per_link x temperature) fun x => jl.nondimensional_relative_helmholtz_free_energy_per_link x (JArr.scalar temperature)) := by
  exact ⟨rfl, rfl, rfl, rfl, rfl, JArr.elementwise₂ fun _ _ => rfl, fun t => JArr.elementwise₁ fun _ => rfl, JArr.elementwise₂ fun _ _ => rfl, JArr.elementwise₂ fun _ _ => rfl, JArr.elementwise₂ fun _ _ => rfl, JArr.elementwise₂ fun _ _ => rfl, fun t => JArr.elementwise₁_scalar t fun _ => rfl, fun t => JArr.elementwise₁_scalar t fun _ => rfl, fun t => JArr.elementwise₁ fun _ => rfl, fun t => JArr.elementwise₁ fun _ => rfl⟩

/-- C60: the Julia struct of `src/physics/single_chain/ufjc/morse/thermodynamics/isometric/asymptotic/reduced/mod.jl`, as reached from `MORSEFJC(number_of_links, link_length, hinge_mass, link_stiffness, link_energy)`. -/
theorem C60_julia_morse_isometric_asymptotic_reduced (other : α → JArr α → Option (JArr α)) (N : Nat) (ℓ : α) (m : α) (k : α) (ε : α) :
    let jl := (Polymers.Julia.Ufjc.Morse.MORSEFJC.new other N ℓ m k ε).thermodynamics.isometric.asymptotic.reduced
    jl.hinge_mass = m ∧
      jl.link_length = ℓ ∧
      jl.number_of_links = N ∧
      jl.link_stiffness = k ∧
      jl.link_energy = ε := by
  exact ⟨rfl, rfl, rfl, rfl, rfl⟩

/-- C60: the Julia struct of `src/physics/single_chain/ufjc/morse/thermodynamics/isotensional/asymptotic/legendre/mod.jl`, as reached from `MORSEFJC(number_of_links, link_length, hinge_mass, link_stiffness, link_energy)`. -/
theorem C60_julia_morse_isotensional_asymptotic_legendre (other : α → JArr α → Option (JArr α)) (N : Nat) (ℓ : α) (m : α) (k : α) (ε : α) :
    let jl := (Polymers.Julia.Ufjc.Morse.MORSEFJC.new other N ℓ m k ε).thermodynamics.isotensional.asymptotic.legendre
    let s := (Polymers.ufjc.morse.MORSEFJC.init N ℓ m k ε).thermodynamics.isotensional.asymptotic.legendre
    jl.hinge_mass = m ∧
      jl.link_length = ℓ ∧
      jl.number_of_links = N ∧
      jl.link_stiffness = k ∧
      jl.link_energy = ε ∧
      Elementwise₂ s.helmholtz_free_energy jl.helmholtz_free_energy ∧
      Elementwise₂ s.helmholtz_free_energy_per_link jl.helmholtz_free_energy_per_link ∧
      Elementwise₂ s.relative_helmholtz_free_energy jl.relative_helmholtz_free_energy ∧
      Elementwise₂ s.relative_helmholtz_free_energy_per_link jl.relative_helmholtz_free_energy_per_link ∧
      (∀ temperature : α, Elementwise₁ (fun x => s.nondimensional_helmholtz_free_energy x temperature) fun x => jl.nondimensional_helmholtz_free_energy x (JArr.scalar temperature)) ∧
      (∀ temperature : α, Elementwise₁ (fun x => s.nondimensional_helmholtz_free_energy_per_link x temperature) fun x => jl.nondimensional_helmholtz_free_energy_per_link x (JArr.scalar temperature)) ∧
      (∀ temperature : α, Elementwise₁ (fun x => s.nondimensional_relative_helmholtz_free_energy x temperature) fun x => jl.nondimensional_relative_helmholtz_free_energy x (JArr.scalar temperature)) ∧
      (∀ temperature : α, Elementwise₁ (fun x => s.nondimensional_relative_helmholtz_free_energy_per_link x temperature) fun x => jl.nondimensional_relative_helmholtz_free_energy_per_link x (JArr.scalar temperature)) := by
  exact ⟨rfl, rfl, rfl, rfl, rfl, JArr.elementwise₂ fun _ _ => rfl, JArr.elementwise₂ fun _ _ => rfl, JArr.elementwise₂ fun _ _ => rfl, JArr.elementwise₂ fun _ _ => rfl, fun t => JArr.elementwise₁_scalar t fun _ => rfl, fun t => JArr.elementwise₁_scalar t fun _ => rfl, fun t => JArr.elementwise₁ fun _ => rfl, fun t => JArr.elementwise₁ fun _ => rfl⟩

/-- C60: the Julia struct of `src/physics/single_chain/ufjc/morse/thermodynamics/isotensional/asymptotic/reduced/mod.jl`, as reached from `MORSEFJC(number_of_links, link_length, hinge_mass, link_stiffness, link_energy)`. -/
theorem C60_julia_morse_isotensional_asymptotic_reduced (other : α → JArr α → Option (JArr α)) (N : Nat) (ℓ : α) (m : α) (k : α) (ε : α) :
    let jl := (Polymers.Julia.Ufjc.Morse.MORSEFJC.new other N ℓ m k ε).thermodynamics.isotensional.asymptotic.reduced
    let s := (Polymers.ufjc.morse.MORSEFJC.init N ℓ m k ε).thermodynamics.isotensional.asymptotic.reduced
    jl.hinge_mass = m ∧
      jl.link_length = ℓ ∧
      jl.number_of_links = N ∧
      jl.link_stiffness = k ∧
      jl.link_energy = ε ∧
      Elementwise₂ s.end_to_end_length jl.end_to_end_length ∧
      Elementwise₂ s.end_to_end_length_per_link jl.end_to_end_length_per_link ∧
      (∀ temperature : α, Elementwise₁ (fun x => s.nondimensional_end_to_end_length x temperature) fun x => jl.nondimensional_end_to_end_length x (JArr.scalar temperature)) ∧
      (∀ temperature : α, Elementwise₁ (fun x => s.nondimensional_end_to_end_length_per_link x temperature) fun x => jl.nondimensional_end_to_end_length_per_link x (JArr.scalar temperature)) ∧
      Elementwise₂ s.gibbs_free_energy jl.gibbs_free_energy ∧
      Elementwise₂ s.gibbs_free_energy_per_link jl.gibbs_free_energy_per_link ∧
      Elementwise₂ s.relative_gibbs_free_energy jl.relative_gibbs_free_energy ∧
      Elementwise₂ s.relative_gibbs_free_energy_per_link jl.relative_gibbs_free_energy_per_link ∧
      (∀ temperature : α, Elementwise₁ (fun x => s.nondimensional_gibbs_free_energy x temperature) fun x => jl.nondimensional_gibbs_free_energy x (JArr.scalar temperature)) ∧
      (∀ temperature : α, Elementwise₁ (fun x => s.nondimensional_gibbs_free_energy_per_link x temperature) fun x => jl.nondimensional_gibbs_free_energy_per_link x (JArr.scalar temperature)) ∧
      (∀ temperature : α, Elementwise₁ (fun x => s.nondimensional_relative_gibbs_free_energy x temperature) fun x => jl.nondimensional_relative_gibbs_free_energy x (JArr.scalar temperature)) ∧
      (∀ temperature : α, Elementwise₁ (fun x => s.nondimensional_relative_gibbs_free_energy_per_link x temperature) fun x => jl.nondimensional_relative_gibbs_free_energy_per_link x (JArr.scalar temperature)) := by
  exact ⟨rfl, rfl, rfl, rfl, rfl, JArr.elementwise₂ fun _ _ => rfl, JArr.elementwise₂ fun _ _ => rfl, fun t => JArr.elementwise₁ fun _ => rfl, fun t => JArr.elementwise₁ fun _ => rfl, JArr.elementwise₂ fun _ _ => rfl, JArr.elementwise₂ fun _ _ => rfl, JArr.elementwise₂ fun _ _ => rfl, JArr.elementwise₂ fun _ _ => rfl, fun t => JArr.elementwise₁_scalar t fun _ => rfl, fun t => JArr.elementwise₁_scalar t fun _ => rfl, fun t => JArr.elementwise₁ fun _ => rfl, fun t => JArr.elementwise₁ fun _ => rfl⟩

/-- C60: the Julia struct of `src/physics/single_chain/ufjc/morse/thermodynamics/isometric/asymptotic/mod.jl`, as reached from `MORSEFJC(number_of_links, link_length, hinge_mass, link_stiffness, link_energy)`. -/
theorem C60_julia_morse_isometric_asymptotic (other : α → JArr α → Option (JArr α)) (N : Nat) (ℓ : α) (m : α) (k : α) (ε : α) :
    let jl := (Polymers.Julia.Ufjc.Morse.MORSEFJC.new other N ℓ m k ε).thermodynamics.isometric.asymptotic
    jl.hinge_mass = m ∧
      jl.link_length = ℓ ∧
      jl.number_of_links = N ∧
      jl.link_stiffness = k ∧
      jl.link_energy = ε := by
  exact ⟨rfl, rfl, rfl, rfl, rfl⟩

/-- C60: the Julia struct of `src/physics/single_chain/ufjc/morse/thermodynamics/isotensional/asymptotic/mod.jl`, as reached from `MORSEFJC(number_of_links, link_length, hinge_mass, link_stiffness, link_energy)`. -/
theorem C60_julia_morse_isotensional_asymptotic (other : α → JArr α → Option (JArr α)) (N : Nat) (ℓ : α) (m : α) (k : α) (ε : α) :
    let jl := (Polymers.Julia.Ufjc.Morse.MORSEFJC.new other N ℓ m k ε).thermodynamics.isotensional.asymptotic
    let s := (Polymers.ufjc.morse.MORSEFJC.init N ℓ m k ε).thermodynamics.isotensional.asymptotic
    jl.hinge_mass = m ∧
      jl.link_length = ℓ ∧
      jl.number_of_links = N ∧
      jl.link_stiffness = k ∧
      jl.link_energy = ε ∧
      Elementwise₂ s.end_to_end_length jl.end_to_end_length ∧
      Elementwise₂ s.end_to_end_length_per_link jl.end_to_end_length_per_link ∧
      (∀ temperature : α, Elementwise₁ (fun x => s.nondimensional_end_to_end_length x temperature) fun x => jl.nondimensional_end_to_end_length x (JArr.scalar temperature)) ∧
      (∀ temperature : α, Elementwise₁ (fun x => s.nondimensional_end_to_end_length_per_link x temperature) fun x => jl.nondimensional_end_to_end_length_per_link x (JArr.scalar temperature)) ∧
      Elementwise₂ s.gibbs_free_energy jl.gibbs_free_energy ∧
      Elementwise₂ s.gibbs_free_energy_per_link jl.gibbs_free_energy_per_link ∧
      Elementwise₂ s.relative_gibbs_free_energy jl.relative_gibbs_free_energy ∧
      Elementwise₂ s.relative_gibbs_free_energy_per_link jl.relative_gibbs_free_energy_per_link ∧
      (∀ temperature : α, Elementwise₁ (fun x => s.nondimensional_gibbs_free_energy x temperature) fun x => jl.nondimensional_gibbs_free_energy x (JArr.scalar temperature)) ∧
      (∀ temperature : α, Elementwise₁ (fun x => s.nondimensional_gibbs_free_energy_per_link x temperature) fun x => jl.nondimensional_gibbs_free_energy_per_link x (JArr.scalar temperature)) ∧
      (∀ temperature : α, Elementwise₁ (fun x => s.nondimensional_relative_gibbs_free_energy x temperature) fun x => jl.nondimensional_relative_gibbs_free_energy x (JArr.scalar temperature)) ∧
      (∀ temperature : α, Elementwise₁ (fun x => s.nondimensional_relative_gibbs_free_energy_per_link x temperature) fun x => jl.nondimensional_relative_gibbs_free_energy_per_link x (JArr.scalar temperature)) := by
  exact ⟨rfl, rfl, rfl, rfl, rfl, JArr.elementwise₂ fun _ _ => rfl, JArr.elementwise₂ fun _ _ => rfl, fun t => JArr.elementwise₁ fun _ => rfl, fun t => JArr.elementwise₁ fun _ => rfl, JArr.elementwise₂ fun _ _ => rfl, JArr.elementwise₂ fun _ _ => rfl, JArr.elementwise₂ fun _ _ => rfl, JArr.elementwise₂ fun _ _ => rfl, fun t => JArr.elementwise₁_scalar t fun _ => rfl, fun t => JArr.elementwise₁_scalar t fun _ => rfl, fun t => JArr.elementwise₁ fun _ => rfl, fun t => JArr.elementwise₁ fun _ => rfl⟩

/-- C60: the Julia struct of `src/physics/single_chain/ufjc/morse/thermodynamics/isotensional/legendre/mod.jl`, as reached from `MORSEFJC(number_of_links, link_length, hinge_mass, link_stiffness, link_energy)`. -/
theorem C60_julia_morse_isotensional_legendre (other : α → JArr α → Option (JArr α)) (N : Nat) (ℓ : α) (m : α) (k : α) (ε : α) :
    let jl := (Polymers.Julia.Ufjc.Morse.MORSEFJC.new other N ℓ m k ε).thermodynamics.isotensional.legendre
    let s := (Polymers.ufjc.morse.MORSEFJC.init N ℓ m k ε).thermodynamics.isotensional.legendre
    jl.hinge_mass = m ∧
      jl.link_length = ℓ ∧
      jl.number_of_links = N ∧
      jl.link_stiffness = k ∧
      jl.link_energy = ε ∧
      Elementwise₂ s.helmholtz_free_energy jl.helmholtz_free_energy ∧
      Elementwise₂ s.helmholtz_free_energy_per_link jl.helmholtz_free_energy_per_link ∧
      Elementwise₂ s.relative_helmholtz_free_energy jl.relative_helmholtz_free_energy ∧
      Elementwise₂ s.relative_helmholtz_free_energy_per_link jl.relative_helmholtz_free_energy_per_link ∧
      (∀ temperature : α, Elementwise₁ (fun x => s.nondimensional_helmholtz_free_energy x temperature) fun x => jl.nondimensional_helmholtz_free_energy x (JArr.scalar temperature)) ∧
      (∀ temperature : α, Elementwise₁ (fun x => s.nondimensional_helmholtz_free_energy_per_link x temperature) fun x => jl.nondimensional_helmholtz_free_energy_per_link x (JArr.scalar temperature)) ∧
      (∀ temperature : α, Elementwise₁ (fun x => s.nondimensional_relative_helmholtz_free_energy x temperature) fun x => jl.nondimensional_relative_helmholtz_free_energy x (JArr.scalar temperature)) ∧
      (∀ temperature : α, Elementwise₁ (fun x => s.nondimensional_relative_helmholtz_free_energy_per_link x temperature) fun x => jl.nondimensional_relative_helmholtz_free_energy_per_link x (JArr.scalar temperature)) := by
  exact ⟨rfl, rfl, rfl, rfl, rfl, JArr.elementwise₂ fun _ _ => rfl, JArr.elementwise₂ fun _ _ => rfl, JArr.elementwise₂ fun _ _ => rfl, JArr.elementwise₂ fun _ _ => rfl, fun t => JArr.elementwise₁_scalar t fun _ => rfl, fun t => JArr.elementwise₁_scalar t fun _ => rfl, fun t => JArr.elementwise₁ fun _ => rfl, fun t => JArr.elementwise₁ fun _ => rfl⟩

/-- C60: the Julia struct of `src/physics/single_chain/ufjc/morse/thermodynamics/isometric/mod.jl`, as reached from `MORSEFJC(number_of_links, link_length, hinge_mass, link_stiffness, link_energy)`. -/
theorem C60_julia_morse_isometric (other : α → JArr α → Option (JArr α)) (N : Nat) (ℓ : α) (m : α) (k : α) (ε : α) :
    let jl := (Polymers.Julia.Ufjc.Morse.MORSEFJC.new other N ℓ m k ε).thermodynamics.isometric
    jl.hinge_mass = m ∧
      jl.link_length = ℓ ∧
      jl.number_of_links = N ∧
      jl.link_stiffness = k ∧
      jl.link_energy = ε := by
  exact ⟨rfl, rfl, rfl, rfl, rfl⟩

/-- C60: the Julia struct of `src/physics/single_chain/ufjc/morse/thermodynamics/isotensional/mod.jl`, as reached from `MORSEFJC(number_of_links, link_length, hinge_mass, link_stiffness, link_energy)`. -/
theorem C60_julia_morse_isotensional (other : α → JArr α → Option (JArr α)) (N : Nat) (ℓ : α) (m : α) (k : α) (ε : α) :
    let jl := (Polymers.Julia.Ufjc.Morse.MORSEFJC.new other N ℓ m k ε).thermodynamics.isotensional
    let s := (Polymers.ufjc.morse.MORSEFJC.init N ℓ m k ε).thermodynamics.isotensional
    jl.hinge_mass = m ∧
      jl.link_length = ℓ ∧
      jl.number_of_links = N ∧
      jl.link_stiffness = k ∧
      jl.link_energy = ε ∧
      Elementwise₂ s.end_to_end_length jl.end_to_end_length ∧
      Elementwise₂ s.end_to_end_length_per_link jl.end_to_end_length_per_link ∧
      (∀ temperature : α, Elementwise₁ (fun x => s.nondimensional_end_to_end_length x temperature) fun x => jl.nondimensional_end_to_end_length x (JArr.scalar temperature)) ∧
      (∀ temperature : α, Elementwise₁ (fun x => s.nondimensional_end_to_end_length_per_link x temperature) fun x => jl.nondimensional_end_to_end_length_per_link x (JArr.scalar temperature)) ∧
      Elementwise₂ s.gibbs_free_energy jl.gibbs_free_energy ∧
      Elementwise₂ s.gibbs_free_energy_per_link jl.gibbs_free_energy_per_link ∧
      Elementwise₂ s.relative_gibbs_free_energy jl.relative_gibbs_free_energy ∧
      Elementwise₂ s.relative_gibbs_free_energy_per_link jl.relative_gibbs_free_energy_per_link ∧
      (∀ temperature : α, Elementwise₁ (fun x => s.nondimensional_gibbs_free_energy x temperature) fun x => jl.nondimensional_gibbs_free_energy x (JArr.scalar temperature)) ∧
      (∀ temperature : α, Elementwise₁ (fun x => s.nondimensional_gibbs_free_energy_per_link x temperature) fun x => jl.nondimensional_gibbs_free_energy_per_link x (JArr.scalar temperature)) ∧
      (∀ temperature : α, Elementwise₁ (fun x => s.nondimensional_relative_gibbs_free_energy x temperature) fun x => jl.nondimensional_relative_gibbs_free_energy x (JArr.scalar temperature)) ∧
      (∀ temperature : α, Elementwise₁ (fun x => s.nondimensional_relative_gibbs_free_energy_per_link x temperature) fun x => jl.nondimensional_relative_gibbs_free_energy_per_link x (JArr.scalar temperature)) := by
  exact ⟨rfl, rfl, rfl, rfl, rfl, JArr.elementwise₂ fun _ _ => rfl, JArr.elementwise₂ fun _ _ => rfl, fun t => JArr.elementwise₁ fun _ => rfl, fun t => JArr.elementwise₁ fun _ => rfl, JArr.elementwise₂ fun _ _ => rfl, JArr.elementwise₂ fun _ _ => rfl, JArr.elementwise₂ fun _ _ => rfl, JArr.elementwise₂ fun _ _ => rfl, fun t => JArr.elementwise₁_scalar t fun _ => rfl, fun t => JArr.elementwise₁_scalar t fun _ => rfl, fun t => JArr.elementwise₁ fun _ => rfl, fun t => JArr.elementwise₁ fun _ => rfl⟩

/-- C60: the Julia struct of `src/physics/single_chain/ufjc/morse/thermodynamics/mod.jl`, as reached from `MORSEFJC(number_of_links, link_length, hinge_mass, link_stiffness, link_energy)`. -/
theorem C60_julia_morse_thermodynamics (other : α → JArr α → Option (JArr α)) (N : Nat) (ℓ : α) (m : α) (k : α) (ε : α) :
    let jl := (Polymers.Julia.Ufjc.Morse.MORSEFJC.new other N ℓ m k ε).thermodynamics
    jl.hinge_mass = m ∧
      jl.link_length = ℓ ∧
      jl.number_of_links = N ∧
      jl.link_stiffness = k ∧
      jl.link_energy = ε := by
  exact ⟨rfl, rfl, rfl, rfl, rfl⟩

/-- C60: the Julia struct of `src/physics/single_chain/ufjc/morse/mod.jl`, as reached from `MORSEFJC(number_of_links, link_length, hinge_mass, link_stiffness, link_energy)`. -/
theorem C60_julia_morse (other : α → JArr α → Option (JArr α)) (N : Nat) (ℓ : α) (m : α) (k : α) (ε : α) :
    let jl := (Polymers.Julia.Ufjc.Morse.MORSEFJC.new other N ℓ m k ε)
    jl.hinge_mass = m ∧
      jl.link_length = ℓ ∧
      jl.number_of_links = N ∧
      jl.link_stiffness = k ∧
      jl.link_energy = ε := by
  exact ⟨rfl, rfl, rfl, rfl, rfl⟩

/-! ### Property C91 -/

/-- C91: the Julia struct of `src/physics/single_chain/ufjc/morse/thermodynamics/isometric/asymptotic/reduced/legendre/mod.jl`, as reached from `MORSEFJC(number_of_links, link_length, hinge_mass, link_stiffness, link_energy)`. -/
theorem C91_julia_morse_isometric_asymptotic_reduced_legendre (other : α → JArr α → Option (JArr α)) (hother : QuotientIsRow other) (N : Nat) (ℓ : α) (m : α) (k : α) (ε : α) :
    let jl := (Polymers.Julia.Ufjc.Morse.MORSEFJC.new other N ℓ m k ε).thermodynamics.isometric.asymptotic.reduced.legendre
    Squares jl.nondimensional_force ∧
      Squares jl.nondimensional_helmholtz_free_energy ∧
      Squares jl.nondimensional_helmholtz_free_energy_per_link ∧
      Squares jl.nondimensional_relative_helmholtz_free_energy ∧
      Squares jl.nondimensional_relative_helmholtz_free_energy_per_link := by
  exact ⟨JArr.squares₂ hother (k * Elem.powi ℓ 2 / BOLTZMANN_CONSTANT) (ε / BOLTZMANN_CONSTANT) (fun q r x => Polymers.C.physics_single_chain_ufjc_morse_thermodynamics_isometric_asymptotic_reduced_legendre_nondimensional_force q r x) fun _ _ => rfl, JArr.squares₂_scalar hother (k * Elem.powi ℓ 2 / BOLTZMANN_CONSTANT) (ε / BOLTZMANN_CONSTANT) (fun q r x t => Polymers.C.physics_single_chain_ufjc_morse_thermodynamics_isometric_asymptotic_reduced_legendre_nondimensional_helmholtz_free_energy N ℓ m q r x t) fun _ _ => rfl, JArr.squares₂_scalar hother (k * Elem.powi ℓ 2 / BOLTZMANN_CONSTANT) (ε / BOLTZMANN_CONSTANT) (fun q r x t => Polymers.C.physics_single_chain_ufjc_morse_thermodynamics_isometric_asymptotic_reduced_legendre_nondimensional_helmholtz_free_energy_per_link N ℓ m q r x t) fun _ _ => rfl, JArr.squares₂ hother (k * Elem.powi ℓ 2 / BOLTZMANN_CONSTANT) (ε / BOLTZMANN_CONSTANT) (fun q r x => Polymers.C.physics_single_chain_ufjc_morse_thermodynamics_isometric_asymptotic_reduced_legendre_nondimensional_relative_helmholtz_free_energy N q r x) fun _ _ => rfl, JArr.squares₂ hother (k * Elem.powi ℓ 2 / BOLTZMANN_CONSTANT) (ε / BOLTZMANN_CONSTANT) (fun q r x => Polymers.C.physics_single_chain_ufjc_morse_thermodynamics_isometric_asymptotic_reduced_legendre_nondimensional_relative_helmholtz_free_energy_per_link q r x) fun _ _ => rfl⟩

/-- C91: the Julia struct of `src/physics/single_chain/ufjc/morse/thermodynamics/isotensional/asymptotic/reduced/legendre/mod.jl`, as reached from `MORSEFJC(number_of_links, link_length, hinge_mass, link_stiffness, link_energy)`. -/
theorem C91_julia_morse_isotensional_asymptotic_reduced_legendre (other : α → JArr α → Option (JArr α)) (hother : QuotientIsRow other) (N : Nat) (ℓ : α) (m : α) (k : α) (ε : α) :
    let jl := (Polymers.Julia.Ufjc.Morse.MORSEFJC.new other N ℓ m k ε).thermodynamics.isotensional.asymptotic.reduced.legendre
    Squares jl.nondimensional_helmholtz_free_energy ∧
      Squares jl.nondimensional_helmholtz_free_energy_per_link ∧
      Squares jl.nondimensional_relative_helmholtz_free_energy ∧
      Squares jl.nondimensional_relative_helmholtz_free_energy_per_link := by
  exact ⟨JArr.squares₂_scalar hother (k * Elem.powi ℓ 2 / BOLTZMANN_CONSTANT) (ε / BOLTZMANN_CONSTANT) (fun q r x t => Polymers.C.physics_single_chain_ufjc_morse_thermodynamics_isotensional_asymptotic_reduced_legendre_nondimensional_helmholtz_free_energy N ℓ m q r x t) fun _ _ => rfl, JArr.squares₂_scalar hother (k * Elem.powi ℓ 2 / BOLTZMANN_CONSTANT) (ε / BOLTZMANN_CONSTANT) (fun q r x t => Polymers.C.physics_single_chain_ufjc_morse_thermodynamics_isotensional_asymptotic_reduced_legendre_nondimensional_helmholtz_free_energy_per_link ℓ m q r x t) fun _ _ => rfl, JArr.squares₂ hother (k * Elem.powi ℓ 2 / BOLTZMANN_CONSTANT) (ε / BOLTZMANN_CONSTANT) (fun q r x => Polymers.C.physics_single_chain_ufjc_morse_thermodynamics_isotensional_asymptotic_reduced_legendre_nondimensional_relative_helmholtz_free_energy N q r x) fun _ _ => rfl, JArr.squares₂ hother (k * Elem.powi ℓ 2 / BOLTZMANN_CONSTANT) (ε / BOLTZMANN_CONSTANT) (fun q r x => Polymers.C.physics_single_chain_ufjc_morse_thermodynamics_isotensional_asymptotic_reduced_legendre_nondimensional_relative_helmholtz_free_energy_per_link q r x) fun _ _ => rfl⟩

/-- C91: the Julia struct of `src/physics/single_chain/ufjc/morse/thermodynamics/isometric/asymptotic/legendre/mod.jl`, as reached from `MORSEFJC(number_of_links, link_length, hinge_mass, link_stiffness, link_energy)`. -/
theorem C91_julia_morse_isometric_asymptotic_legendre (other : α → JArr α → Option (JArr α)) (hother : QuotientIsRow other) (N : Nat) (ℓ : α) (m : α) (k : α) (ε : α) :
    let jl := (Polymers.Julia.Ufjc.Morse.MORSEFJC.new other N ℓ m k ε).thermodynamics.isometric.asymptotic.legendre
    Squares jl.nondimensional_force ∧
      Squares jl.nondimensional_helmholtz_free_energy ∧
      Squares jl.nondimensional_helmholtz_free_energy_per_link ∧
      Squares jl.nondimensional_relative_helmholtz_free_energy ∧
      Squares jl.nondimensional_relative_helmholtz_free_energy_per_link := by
  exact ⟨JArr.squares₂ hother (k * Elem.powi ℓ 2 / BOLTZMANN_CONSTANT) (ε / BOLTZMANN_CONSTANT) (fun q r x => Polymers.C.physics_single_chain_ufjc_morse_thermodynamics_isometric_asymptotic_legendre_nondimensional_force q r x) fun _ _ => rfl, JArr.squares₂_scalar hother (k * Elem.powi ℓ 2 / BOLTZMANN_CONSTANT) (ε / BOLTZMANN_CONSTANT) (fun q r x t => Polymers.C.physics_single_chain_ufjc_morse_thermodynamics_isometric_asymptotic_legendre_nondimensional_helmholtz_free_energy N ℓ m q r x t) fun _ _ => rfl, JArr.squares₂_scalar hother (k * Elem.powi ℓ 2 / BOLTZMANN_CONSTANT) (ε / BOLTZMANN_CONSTANT) (fun q r x t => Polymers.C.physics_single_chain_ufjc_morse_thermodynamics_isometric_asymptotic_legendre_nondimensional_helmholtz_free_energy_per_link N ℓ m q r x t) fun _ _ => rfl, JArr.squares₂ hother (k * Elem.powi ℓ 2 / BOLTZMANN_CONSTANT) (ε / BOLTZMANN_CONSTANT) (fun q r x => Polymers.C.physics_single_chain_ufjc_morse_thermodynamics_isometric_asymptotic_legendre_nondimensional_relative_helmholtz_free_energy N q r x) fun _ _ => rfl, JArr.squares₂ hother (k * Elem.powi ℓ 2 / BOLTZMANN_CONSTANT) (ε / BOLTZMANN_CONSTANT) (fun q r x => Polymers.C.physics_single_chain_ufjc_morse_thermodynamics_isometric_asymptotic_legendre_nondimensional_relative_helmholtz_free_energy_per_link q r x) fun _ _ => rfl⟩

/-- C91: the Julia struct of `src/physics/single_chain/ufjc/morse/thermodynamics/isotensional/asymptotic/legendre/mod.jl`, as reached from `MORSEFJC(number_of_links, link_length, hinge_mass, link_stiffness, link_energy)`. -/
theorem C91_julia_morse_isotensional_asymptotic_legendre (other : α → JArr α → Option (JArr α)) (hother : QuotientIsRow other) (N : Nat) (ℓ : α) (m : α) (k : α) (ε : α) :
    let jl := (Polymers.Julia.Ufjc.Morse.MORSEFJC.new other N ℓ m k ε).thermodynamics.isotensional.asymptotic.legendre
    Squares jl.nondimensional_helmholtz_free_energy ∧
      Squares jl.nondimensional_helmholtz_free_energy_per_link ∧
      Squares jl.nondimensional_relative_helmholtz_free_energy ∧
      Squares jl.nondimensional_relative_helmholtz_free_energy_per_link := by
  exact ⟨JArr.squares₂_scalar hother (k * Elem.powi ℓ 2 / BOLTZMANN_CONSTANT) (ε / BOLTZMANN_CONSTANT) (fun q r x t => Polymers.C.physics_single_chain_ufjc_morse_thermodynamics_isotensional_asymptotic_legendre_nondimensional_helmholtz_free_energy N ℓ m q r x t) fun _ _ => rfl, JArr.squares₂_scalar hother (k * Elem.powi ℓ 2 / BOLTZMANN_CONSTANT) (ε / BOLTZMANN_CONSTANT) (fun q r x t => Polymers.C.physics_single_chain_ufjc_morse_thermodynamics_isotensional_asymptotic_legendre_nondimensional_helmholtz_free_energy_per_link ℓ m q r x t) fun _ _ => rfl, JArr.squares₂ hother (k * Elem.powi ℓ 2 / BOLTZMANN_CONSTANT) (ε / BOLTZMANN_CONSTANT) (fun q r x => Polymers.C.physics_single_chain_ufjc_morse_thermodynamics_isotensional_asymptotic_legendre_nondimensional_relative_helmholtz_free_energy N q r x) fun _ _ => rfl, JArr.squares₂ hother (k * Elem.powi ℓ 2 / BOLTZMANN_CONSTANT) (ε / BOLTZMANN_CONSTANT) (fun q r x => Polymers.C.physics_single_chain_ufjc_morse_thermodynamics_isotensional_asymptotic_legendre_nondimensional_relative_helmholtz_free_energy_per_link q r x) fun _ _ => rfl⟩

/-- C91: the Julia struct of `src/physics/single_chain/ufjc/morse/thermodynamics/isotensional/asymptotic/reduced/mod.jl`, as reached from `MORSEFJC(number_of_links, link_length, hinge_mass, link_stiffness, link_energy)`. -/
theorem C91_julia_morse_isotensional_asymptotic_reduced (other : α → JArr α → Option (JArr α)) (hother : QuotientIsRow other) (N : Nat) (ℓ : α) (m : α) (k : α) (ε : α) :
    let jl := (Polymers.Julia.Ufjc.Morse.MORSEFJC.new other N ℓ m k ε).thermodynamics.isotensional.asymptotic.reduced
    Squares jl.nondimensional_end_to_end_length ∧
      Squares jl.nondimensional_end_to_end_length_per_link ∧
      Squares jl.nondimensional_gibbs_free_energy ∧
      Squares jl.nondimensional_gibbs_free_energy_per_link ∧
      Squares jl.nondimensional_relative_gibbs_free_energy ∧
      Squares jl.nondimensional_relative_gibbs_free_energy_per_link := by
  exact ⟨JArr.squares₂ hother (k * Elem.powi ℓ 2 / BOLTZMANN_CONSTANT) (ε / BOLTZMANN_CONSTANT) (fun q r x => Polymers.C.physics_single_chain_ufjc_morse_thermodynamics_isotensional_asymptotic_reduced_nondimensional_end_to_end_length N q r x) fun _ _ => rfl, JArr.squares₂ hother (k * Elem.powi ℓ 2 / BOLTZMANN_CONSTANT) (ε / BOLTZMANN_CONSTANT) (fun q r x => Polymers.C.physics_single_chain_ufjc_morse_thermodynamics_isotensional_asymptotic_reduced_nondimensional_end_to_end_length_per_link q r x) fun _ _ => rfl, JArr.squares₂_scalar hother (k * Elem.powi ℓ 2 / BOLTZMANN_CONSTANT) (ε / BOLTZMANN_CONSTANT) (fun q r x t => Polymers.C.physics_single_chain_ufjc_morse_thermodynamics_isotensional_asymptotic_reduced_nondimensional_gibbs_free_energy N ℓ m q r x t) fun _ _ => rfl, JArr.squares₂_scalar hother (k * Elem.powi ℓ 2 / BOLTZMANN_CONSTANT) (ε / BOLTZMANN_CONSTANT) (fun q r x t => Polymers.C.physics_single_chain_ufjc_morse_thermodynamics_isotensional_asymptotic_reduced_nondimensional_gibbs_free_energy_per_link ℓ m q r x t) fun _ _ => rfl, JArr.squares₂ hother (k * Elem.powi ℓ 2 / BOLTZMANN_CONSTANT) (ε / BOLTZMANN_CONSTANT) (fun q r x => Polymers.C.physics_single_chain_ufjc_morse_thermodynamics_isotensional_asymptotic_reduced_nondimensional_relative_gibbs_free_energy N q r x) fun _ _ => rfl, JArr.squares₂ hother (k * Elem.powi ℓ 2 / BOLTZMANN_CONSTANT) (ε / BOLTZMANN_CONSTANT) (fun q r x => Polymers.C.physics_single_chain_ufjc_morse_thermodynamics_isotensional_asymptotic_reduced_nondimensional_relative_gibbs_free_energy_per_link q r x) fun _ _ => rfl⟩

/-- C91: the Julia struct of `src/physics/single_chain/ufjc/morse/thermodynamics/isotensional/asymptotic/mod.jl`, as reached from `MORSEFJC(number_of_links, link_length, hinge_mass, link_stiffness, link_energy)`. -/
theorem C91_julia_morse_isotensional_asymptotic (other : α → JArr α → Option (JArr α)) (hother : QuotientIsRow other) (N : Nat) (ℓ : α) (m : α) (k : α) (ε : α) :
    let jl := (Polymers.Julia.Ufjc.Morse.MORSEFJC.new other N ℓ m k ε).thermodynamics.isotensional.asymptotic
    Squares jl.nondimensional_end_to_end_length ∧
      Squares jl.nondimensional_end_to_end_length_per_link ∧
      Squares jl.nondimensional_gibbs_free_energy ∧
      Squares jl.nondimensional_gibbs_free_energy_per_link ∧
      Squares jl.nondimensional_relative_gibbs_free_energy ∧
      Squares jl.nondimensional_relative_gibbs_free_energy_per_link := by
  exact ⟨JArr.squares₂ hother (k * Elem.powi ℓ 2 / BOLTZMANN_CONSTANT) (ε / BOLTZMANN_CONSTANT) (fun q r x => Polymers.C.physics_single_chain_ufjc_morse_thermodynamics_isotensional_asymptotic_nondimensional_end_to_end_length N q r x) fun _ _ => rfl, JArr.squares₂ hother (k * Elem.powi ℓ 2 / BOLTZMANN_CONSTANT) (ε / BOLTZMANN_CONSTANT) (fun q r x => Polymers.C.physics_single_chain_ufjc_morse_thermodynamics_isotensional_asymptotic_nondimensional_end_to_end_length_per_link q r x) fun _ _ => rfl, JArr.squares₂_scalar hother (k * Elem.powi ℓ 2 / BOLTZMANN_CONSTANT) (ε / BOLTZMANN_CONSTANT) (fun q r x t => Polymers.C.physics_single_chain_ufjc_morse_thermodynamics_isotensional_asymptotic_nondimensional_gibbs_free_energy N ℓ m q r x t) fun _ _ => rfl, JArr.squares₂_scalar hother (k * Elem.powi ℓ 2 / BOLTZMANN_CONSTANT) (ε / BOLTZMANN_CONSTANT) (fun q r x t => Polymers.C.physics_single_chain_ufjc_morse_thermodynamics_isotensional_asymptotic_nondimensional_gibbs_free_energy_per_link ℓ m q r x t) fun _ _ => rfl, JArr.squares₂ hother (k * Elem.powi ℓ 2 / BOLTZMANN_CONSTANT) (ε / BOLTZMANN_CONSTANT) (fun q r x => Polymers.C.physics_single_chain_ufjc_morse_thermodynamics_isotensional_asymptotic_nondimensional_relative_gibbs_free_energy N q r x) fun _ _ => rfl, JArr.squares₂ hother (k * Elem.powi ℓ 2 / BOLTZMANN_CONSTANT) (ε / BOLTZMANN_CONSTANT) (fun q r x => Polymers.C.physics_single_chain_ufjc_morse_thermodynamics_isotensional_asymptotic_nondimensional_relative_gibbs_free_energy_per_link q r x) fun _ _ => rfl⟩

/-- C91: the Julia struct of `src/physics/single_chain/ufjc/morse/thermodynamics/isotensional/legendre/mod.jl`, as reached from `MORSEFJC(number_of_links, link_length, hinge_mass, link_stiffness, link_energy)`. -/
theorem C91_julia_morse_isotensional_legendre (other : α → JArr α → Option (JArr α)) (hother : QuotientIsRow other) (N : Nat) (ℓ : α) (m : α) (k : α) (ε : α) :
    let jl := (Polymers.Julia.Ufjc.Morse.MORSEFJC.new other N ℓ m k ε).thermodynamics.isotensional.legendre
    Squares jl.nondimensional_helmholtz_free_energy ∧
      Squares jl.nondimensional_helmholtz_free_energy_per_link ∧
      Squares jl.nondimensional_relative_helmholtz_free_energy ∧
      Squares jl.nondimensional_relative_helmholtz_free_energy_per_link := by
  exact ⟨JArr.squares₂_scalar hother (k * Elem.powi ℓ 2 / BOLTZMANN_CONSTANT) (ε / BOLTZMANN_CONSTANT) (fun q r x t => Polymers.C.physics_single_chain_ufjc_morse_thermodynamics_isotensional_legendre_nondimensional_helmholtz_free_energy N ℓ m q r x t) fun _ _ => rfl, JArr.squares₂_scalar hother (k * Elem.powi ℓ 2 / BOLTZMANN_CONSTANT) (ε / BOLTZMANN_CONSTANT) (fun q r x t => Polymers.C.physics_single_chain_ufjc_morse_thermodynamics_isotensional_legendre_nondimensional_helmholtz_free_energy_per_link ℓ m q r x t) fun _ _ => rfl, JArr.squares₂ hother (k * Elem.powi ℓ 2 / BOLTZMANN_CONSTANT) (ε / BOLTZMANN_CONSTANT) (fun q r x => Polymers.C.physics_single_chain_ufjc_morse_thermodynamics_isotensional_legendre_nondimensional_relative_helmholtz_free_energy N q r x) fun _ _ => rfl, JArr.squares₂ hother (k * Elem.powi ℓ 2 / BOLTZMANN_CONSTANT) (ε / BOLTZMANN_CONSTANT) (fun q r x => Polymers.C.physics_single_chain_ufjc_morse_thermodynamics_isotensional_legendre_nondimensional_relative_helmholtz_free_energy_per_link q r x) fun _ _ => rfl⟩

/-- C91: the Julia struct of `src/physics/single_chain/ufjc/morse/thermodynamics/isotensional/mod.jl`, as reached from `MORSEFJC(number_of_links, link_length, hinge_mass, link_stiffness, link_energy)`. -/
theorem C91_julia_morse_isotensional (other : α → JArr α → Option (JArr α)) (hother : QuotientIsRow other) (N : Nat) (ℓ : α) (m : α) (k : α) (ε : α) :
    let jl := (Polymers.Julia.Ufjc.Morse.MORSEFJC.new other N ℓ m k ε).thermodynamics.isotensional
    Squares jl.nondimensional_end_to_end_length ∧
      Squares jl.nondimensional_end_to_end_length_per_link ∧
      Squares jl.nondimensional_gibbs_free_energy ∧
      Squares jl.nondimensional_gibbs_free_energy_per_link ∧
      Squares jl.nondimensional_relative_gibbs_free_energy ∧
      Squares jl.nondimensional_relative_gibbs_free_energy_per_link := by
  exact ⟨JArr.squares₂ hother (k * Elem.powi ℓ 2 / BOLTZMANN_CONSTANT) (ε / BOLTZMANN_CONSTANT) (fun q r x => Polymers.C.physics_single_chain_ufjc_morse_thermodynamics_isotensional_nondimensional_end_to_end_length N q r x) fun _ _ => rfl, JArr.squares₂ hother (k * Elem.powi ℓ 2 / BOLTZMANN_CONSTANT) (ε / BOLTZMANN_CONSTANT) (fun q r x => Polymers.C.physics_single_chain_ufjc_morse_thermodynamics_isotensional_nondimensional_end_to_end_length_per_link q r x) fun _ _ => rfl, JArr.squares₂_scalar hother (k * Elem.powi ℓ 2 / BOLTZMANN_CONSTANT) (ε / BOLTZMANN_CONSTANT) (fun q r x t => Polymers.C.physics_single_chain_ufjc_morse_thermodynamics_isotensional_nondimensional_gibbs_free_energy N ℓ m q r x t) fun _ _ => rfl, JArr.squares₂_scalar hother (k * Elem.powi ℓ 2 / BOLTZMANN_CONSTANT) (ε / BOLTZMANN_CONSTANT) (fun q r x t => Polymers.C.physics_single_chain_ufjc_morse_thermodynamics_isotensional_nondimensional_gibbs_free_energy_per_link ℓ m q r x t) fun _ _ => rfl, JArr.squares₂ hother (k * Elem.powi ℓ 2 / BOLTZMANN_CONSTANT) (ε / BOLTZMANN_CONSTANT) (fun q r x => Polymers.C.physics_single_chain_ufjc_morse_thermodynamics_isotensional_nondimensional_relative_gibbs_free_energy N q r x) fun _ _ => rfl, JArr.squares₂ hother (k * Elem.powi ℓ 2 / BOLTZMANN_CONSTANT) (ε / BOLTZMANN_CONSTANT) (fun q r x => Polymers.C.physics_single_chain_ufjc_morse_thermodynamics_isotensional_nondimensional_relative_gibbs_free_energy_per_link q r x) fun _ _ => rfl⟩

end Polymers.Props
