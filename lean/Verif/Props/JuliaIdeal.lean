/- Generated by tools/gen_bindings.py ; do not edit by hand. -/
import Verif.Model.JuliaIdeal
import Verif.Lemmas.Julia

/-! Property C60.  Over any number type, so in particular over floating-point numbers. -/

namespace Polymers.Props

open Polymers.Julia Polymers.Spec

set_option linter.unusedSectionVars false

variable {α : Type} [Add α] [Sub α] [Mul α] [Div α] [Neg α] [OfScientific α] [NatCast α] [Elem α]

/-- C60: the Julia struct of `src/physics/single_chain/ideal/thermodynamics/isometric/mod.jl`, as reached from `IDEAL(number_of_links, link_length, hinge_mass)`. -/
theorem C60_julia_ideal_isometric (N : Nat) (ℓ : α) (m : α) :
    let jl := (Polymers.Julia.Ideal.IDEAL.new N ℓ m).thermodynamics.isometric
    let s := (Polymers.ideal.Ideal.init N ℓ m).thermodynamics.isometric
    jl.hinge_mass = m ∧
      jl.link_length = ℓ ∧
      jl.number_of_links = N ∧
      Elementwise₂ s.force jl.force ∧
      Elementwise₁ s.nondimensional_force jl.nondimensional_force ∧
      Elementwise₂ s.helmholtz_free_energy jl.helmholtz_free_energy ∧
      Elementwise₂ s.helmholtz_free_energy_per_link jl.helmholtz_free_energy_per_link ∧
      Elementwise₂ s.relative_helmholtz_free_energy jl.relative_helmholtz_free_energy ∧
      Elementwise₂ s.relative_helmholtz_free_energy_per_link jl.relative_helmholtz_free_energy_per_link ∧
      Elementwise₂ s.nondimensional_helmholtz_free_energy jl.nondimensional_helmholtz_free_energy ∧
      Elementwise₂ s.nondimensional_helmholtz_free_energy_per_link jl.nondimensional_helmholtz_free_energy_per_link ∧
      Elementwise₁ s.nondimensional_relative_helmholtz_free_energy jl.nondimensional_relative_helmholtz_free_energy ∧
      Elementwise₁ s.nondimensional_relative_helmholtz_free_energy_per_link jl.nondimensional_relative_helmholtz_free_energy_per_link ∧
      Elementwise₁ s.equilibrium_distribution jl.equilibrium_distribution ∧
      Elementwise₁ s.nondimensional_equilibrium_distribution jl.nondimensional_equilibrium_distribution ∧
      Elementwise₁ s.equilibrium_radial_distribution jl.equilibrium_radial_distribution ∧
      Elementwise₁ s.nondimensional_equilibrium_radial_distribution jl.nondimensional_equilibrium_radial_distribution := by
  exact ⟨rfl, rfl, rfl, JArr.elementwise₂ fun _ _ => rfl, JArr.elementwise₁ fun _ => rfl, JArr.elementwise₂ fun _ _ => rfl, JArr.elementwise₂ fun _ _ => rfl, JArr.elementwise₂ fun _ _ => rfl, JArr.elementwise₂ fun _ _ => rfl, JArr.elementwise₂ fun _ _ => rfl, JArr.elementwise₂ fun _ _ => rfl, JArr.elementwise₁ fun _ => rfl, JArr.elementwise₁ fun _ => rfl, JArr.elementwise₁ fun _ => rfl, JArr.elementwise₁ fun _ => rfl, JArr.elementwise₁ fun _ => rfl, JArr.elementwise₁ fun _ => rfl⟩

/-- C60: the Julia struct of `src/physics/single_chain/ideal/thermodynamics/isotensional/mod.jl`, as reached from `IDEAL(number_of_links, link_length, hinge_mass)`. -/
theorem C60_julia_ideal_isotensional (N : Nat) (ℓ : α) (m : α) :
    let jl := (Polymers.Julia.Ideal.IDEAL.new N ℓ m).thermodynamics.isotensional
    let s := (Polymers.ideal.Ideal.init N ℓ m).thermodynamics.isotensional
    jl.hinge_mass = m ∧
      jl.link_length = ℓ ∧
      jl.number_of_links = N ∧
      Elementwise₂ s.end_to_end_length jl.end_to_end_length ∧
      Elementwise₂ s.end_to_end_length_per_link jl.end_to_end_length_per_link ∧
      Elementwise₁ s.nondimensional_end_to_end_length jl.nondimensional_end_to_end_length ∧
      Elementwise₁ s.nondimensional_end_to_end_length_per_link jl.nondimensional_end_to_end_length_per_link ∧
      Elementwise₂ s.gibbs_free_energy jl.gibbs_free_energy ∧
      Elementwise₂ s.gibbs_free_energy_per_link jl.gibbs_free_energy_per_link ∧
      Elementwise₂ s.relative_gibbs_free_energy jl.relative_gibbs_free_energy ∧
      Elementwise₂ s.relative_gibbs_free_energy_per_link jl.relative_gibbs_free_energy_per_link ∧
      Elementwise₂ s.nondimensional_gibbs_free_energy jl.nondimensional_gibbs_free_energy ∧
      Elementwise₂ s.nondimensional_gibbs_free_energy_per_link jl.nondimensional_gibbs_free_energy_per_link ∧
      Elementwise₁ s.nondimensional_relative_gibbs_free_energy jl.nondimensional_relative_gibbs_free_energy ∧
      Elementwise₁ s.nondimensional_relative_gibbs_free_energy_per_link jl.nondimensional_relative_gibbs_free_energy_per_link := by
  exact ⟨rfl, rfl, rfl, JArr.elementwise₂ fun _ _ => rfl, JArr.elementwise₂ fun _ _ => rfl, JArr.elementwise₁ fun _ => rfl, JArr.elementwise₁ fun _ => rfl, JArr.elementwise₂ fun _ _ => rfl, JArr.elementwise₂ fun _ _ => rfl, JArr.elementwise₂ fun _ _ => rfl, JArr.elementwise₂ fun _ _ => rfl, JArr.elementwise₂ fun _ _ => rfl, JArr.elementwise₂ fun _ _ => rfl, JArr.elementwise₁ fun _ => rfl, JArr.elementwise₁ fun _ => rfl⟩

/-- C60: the Julia struct of `src/physics/single_chain/ideal/thermodynamics/mod.jl`, as reached from `IDEAL(number_of_links, link_length, hinge_mass)`. -/
theorem C60_julia_ideal_thermodynamics (N : Nat) (ℓ : α) (m : α) :
    let jl := (Polymers.Julia.Ideal.IDEAL.new N ℓ m).thermodynamics
    jl.hinge_mass = m ∧
      jl.link_length = ℓ ∧
      jl.number_of_links = N := by
  exact ⟨rfl, rfl, rfl⟩

/-- C60: the Julia struct of `src/physics/single_chain/ideal/mod.jl`, as reached from `IDEAL(number_of_links, link_length, hinge_mass)`. -/
theorem C60_julia_ideal (N : Nat) (ℓ : α) (m : α) :
    let jl := (Polymers.Julia.Ideal.IDEAL.new N ℓ m)
    jl.hinge_mass = m ∧
      jl.link_length = ℓ ∧
      jl.number_of_links = N := by
  exact ⟨rfl, rfl, rfl⟩

end Polymers.Props
