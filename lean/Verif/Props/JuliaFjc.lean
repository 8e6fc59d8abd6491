/- Generated by tools/gen_bindings.py ; do not edit by hand. -/
import Verif.Model.JuliaFjc
import Verif.Lemmas.Julia

/-! Property C60.  Over any number type, so in particular over floating-point numbers. -/

namespace Polymers.Props

open Polymers.Julia Polymers.Spec

set_option linter.unusedSectionVars false

variable {α : Type} [Add α] [Sub α] [Mul α] [Div α] [Neg α] [OfScientific α] [NatCast α] [Elem α]

/-- C60: the Julia struct of `src/physics/single_chain/fjc/thermodynamics/modified_canonical/asymptotic/strong_potential/mod.jl`, as reached from `FJC(number_of_links, link_length, hinge_mass)`. -/
theorem C60_julia_fjc_modified_canonical_asymptotic_strong_potential (N : Nat) (ℓ : α) (m : α) :
    let jl := (Polymers.Julia.Fjc.FJC.new N ℓ m).thermodynamics.modified_canonical.asymptotic.strong_potential
    let s := (Polymers.fjc.FJC.init N ℓ m).thermodynamics.modified_canonical.asymptotic.strong_potential
    jl.hinge_mass = m ∧
      jl.link_length = ℓ ∧
      jl.number_of_links = N ∧
      Elementwise₃ s.force jl.force ∧
      Elementwise₂ s.nondimensional_force jl.nondimensional_force ∧
      Elementwise₃ s.helmholtz_free_energy jl.helmholtz_free_energy ∧
      Elementwise₃ s.helmholtz_free_energy_per_link jl.helmholtz_free_energy_per_link ∧
      Elementwise₃ s.relative_helmholtz_free_energy jl.relative_helmholtz_free_energy ∧
      Elementwise₃ s.relative_helmholtz_free_energy_per_link jl.relative_helmholtz_free_energy_per_link ∧
      Elementwise₃ s.nondimensional_helmholtz_free_energy jl.nondimensional_helmholtz_free_energy ∧
      Elementwise₃ s.nondimensional_helmholtz_free_energy_per_link jl.nondimensional_helmholtz_free_energy_per_link ∧
      Elementwise₂ s.nondimensional_relative_helmholtz_free_energy jl.nondimensional_relative_helmholtz_free_energy ∧
      Elementwise₂ s.nondimensional_relative_helmholtz_free_energy_per_link jl.nondimensional_relative_helmholtz_free_energy_per_link := by
  exact ⟨rfl, rfl, rfl, JArr.elementwise₃ fun _ _ _ => rfl, JArr.elementwise₂ fun _ _ => rfl, JArr.elementwise₃ fun _ _ _ => rfl, JArr.elementwise₃ fun _ _ _ => rfl, JArr.elementwise₃ fun _ _ _ => rfl, JArr.elementwise₃ fun _ _ _ => rfl, JArr.elementwise₃ fun _ _ _ => rfl, JArr.elementwise₃ fun _ _ _ => rfl, JArr.elementwise₂ fun _ _ => rfl, JArr.elementwise₂ fun _ _ => rfl⟩

/-- C60: the Julia struct of `src/physics/single_chain/fjc/thermodynamics/modified_canonical/asymptotic/weak_potential/mod.jl`, as reached from `FJC(number_of_links, link_length, hinge_mass)`. -/
theorem C60_julia_fjc_modified_canonical_asymptotic_weak_potential (N : Nat) (ℓ : α) (m : α) :
    let jl := (Polymers.Julia.Fjc.FJC.new N ℓ m).thermodynamics.modified_canonical.asymptotic.weak_potential
    let s := (Polymers.fjc.FJC.init N ℓ m).thermodynamics.modified_canonical.asymptotic.weak_potential
    jl.hinge_mass = m ∧
      jl.link_length = ℓ ∧
      jl.number_of_links = N ∧
      Elementwise₃ s.end_to_end_length jl.end_to_end_length ∧
      Elementwise₃ s.end_to_end_length_per_link jl.end_to_end_length_per_link ∧
      Elementwise₂ s.nondimensional_end_to_end_length jl.nondimensional_end_to_end_length ∧
      Elementwise₂ s.nondimensional_end_to_end_length_per_link jl.nondimensional_end_to_end_length_per_link ∧
      Elementwise₂ s.force jl.force ∧
      Elementwise₂ s.nondimensional_force jl.nondimensional_force ∧
      Elementwise₃ s.gibbs_free_energy jl.gibbs_free_energy ∧
      Elementwise₃ s.gibbs_free_energy_per_link jl.gibbs_free_energy_per_link ∧
      Elementwise₃ s.relative_gibbs_free_energy jl.relative_gibbs_free_energy ∧
      Elementwise₃ s.relative_gibbs_free_energy_per_link jl.relative_gibbs_free_energy_per_link ∧
      Elementwise₃ s.nondimensional_gibbs_free_energy jl.nondimensional_gibbs_free_energy ∧
      Elementwise₃ s.nondimensional_gibbs_free_energy_per_link jl.nondimensional_gibbs_free_energy_per_link ∧
      Elementwise₂ s.nondimensional_relative_gibbs_free_energy jl.nondimensional_relative_gibbs_free_energy ∧
      Elementwise₂ s.nondimensional_relative_gibbs_free_energy_per_link jl.nondimensional_relative_gibbs_free_energy_per_link := by
  exact ⟨rfl, rfl, rfl, JArr.elementwise₃ fun _ _ _ => rfl, JArr.elementwise₃ fun _ _ _ => rfl, JArr.elementwise₂ fun _ _ => rfl, JArr.elementwise₂ fun _ _ => rfl, JArr.elementwise₂ fun _ _ => rfl, JArr.elementwise₂ fun _ _ => rfl, JArr.elementwise₃ fun _ _ _ => rfl, JArr.elementwise₃ fun _ _ _ => rfl, JArr.elementwise₃ fun _ _ _ => rfl, JArr.elementwise₃ fun _ _ _ => rfl, JArr.elementwise₃ fun _ _ _ => rfl, JArr.elementwise₃ fun _ _ _ => rfl, JArr.elementwise₂ fun _ _ => rfl, JArr.elementwise₂ fun _ _ => rfl⟩

/-- C60: the Julia struct of `src/physics/single_chain/fjc/thermodynamics/isometric/legendre/mod.jl`, as reached from `FJC(number_of_links, link_length, hinge_mass)`. -/
theorem C60_julia_fjc_isometric_legendre (N : Nat) (ℓ : α) (m : α) :
    let jl := (Polymers.Julia.Fjc.FJC.new N ℓ m).thermodynamics.isometric.legendre
    let s := (Polymers.fjc.FJC.init N ℓ m).thermodynamics.isometric.legendre
    jl.hinge_mass = m ∧
      jl.link_length = ℓ ∧
      jl.number_of_links = N ∧
      Elementwise₂ s.force jl.force ∧
      Elementwise₁ s.nondimensional_force jl.nondimensional_force ∧
      Elementwise₂ s.helmholtz_free_energy jl.helmholtz_free_energy ∧
      Elementwise₂ s.helmholtz_free_energy_per_link jl.helmholtz_free_energy_per_link ∧
      Elementwise₂ s.relative_helmholtz_free_energy jl.relative_helmholtz_free_energy ∧
      Elementwise₂ s.relative_helmholtz_free_energy_per_link jl.relative_helmholtz_free_energy_per_link ∧
      Elementwise₂ s.nondimensional_helmholtz_free_energy jl.nondimensional_helmholtz_free_energy ∧
      Elementwise₂ s.nondimensional_helmholtz_free_energy_per_link jl.nondimensional_helmholtz_free_energy_per_link ∧
      Elementwise₁ s.nondimensional_relative_helmholtz_free_energy jl.nondimensional_relative_helmholtz_free_energy ∧
      Elementwise₁ s.nondimensional_relative_helmholtz_free_energy_per_link jl.nondimensional_relative_helmholtz_free_energy_per_link ∧
      Elementwise₁ s.equilibrium_distribution jl.equilibrium_distribution ∧
      Elementwise₁ s.nondimensional_equilibrium_distribution jl.nondimensional_equilibrium_distribution ∧
      Elementwise₁ s.equilibrium_radial_distribution jl.equilibrium_radial_distribution ∧
      Elementwise₁ s.nondimensional_equilibrium_radial_distribution jl.nondimensional_equilibrium_radial_distribution ∧
      Elementwise₂ s.gibbs_free_energy jl.gibbs_free_energy ∧
      Elementwise₂ s.gibbs_free_energy_per_link jl.gibbs_free_energy_per_link ∧
      Elementwise₂ s.relative_gibbs_free_energy jl.relative_gibbs_free_energy ∧
      Elementwise₂ s.relative_gibbs_free_energy_per_link jl.relative_gibbs_free_energy_per_link ∧
      Elementwise₂ s.nondimensional_gibbs_free_energy jl.nondimensional_gibbs_free_energy ∧
      Elementwise₂ s.nondimensional_gibbs_free_energy_per_link jl.nondimensional_gibbs_free_energy_per_link ∧
      Elementwise₁ s.nondimensional_relative_gibbs_free_energy jl.nondimensional_relative_gibbs_free_energy ∧
      Elementwise₁ s.nondimensional_relative_gibbs_free_energy_per_link jl.nondimensional_relative_gibbs_free_energy_per_link := by
  exact ⟨rfl, rfl, rfl, JArr.elementwise₂ fun _ _ => rfl, JArr.elementwise₁ fun _ => rfl, JArr.elementwise₂ fun _ _ => rfl, JArr.elementwise₂ fun _ _ => rfl, JArr.elementwise₂ fun _ _ => rfl, JArr.elementwise₂ fun _ _ => rfl, JArr.elementwise₂ fun _ _ => rfl, JArr.elementwise₂ fun _ _ => rfl, JArr.elementwise₁ fun _ => rfl, JArr.elementwise₁ fun _ => rfl, JArr.elementwise₁ fun _ => rfl, JArr.elementwise₁ fun _ => rfl, JArr.elementwise₁ fun _ => rfl, JArr.elementwise₁ fun _ => rfl, JArr.elementwise₂ fun _ _ => rfl, JArr.elementwise₂ fun _ _ => rfl, JArr.elementwise₂ fun _ _ => rfl, JArr.elementwise₂ fun _ _ => rfl, JArr.elementwise₂ fun _ _ => rfl, JArr.elementwise₂ fun _ _ => rfl, JArr.elementwise₁ fun _ => rfl, JArr.elementwise₁ fun _ => rfl⟩

/-- C60: the Julia struct of `src/physics/single_chain/fjc/thermodynamics/isotensional/legendre/mod.jl`, as reached from `FJC(number_of_links, link_length, hinge_mass)`. -/
theorem C60_julia_fjc_isotensional_legendre (N : Nat) (ℓ : α) (m : α) :
    let jl := (Polymers.Julia.Fjc.FJC.new N ℓ m).thermodynamics.isotensional.legendre
    let s := (Polymers.fjc.FJC.init N ℓ m).thermodynamics.isotensional.legendre
    jl.hinge_mass = m ∧
      jl.link_length = ℓ ∧
      jl.number_of_links = N ∧
      Elementwise₂ s.helmholtz_free_energy jl.helmholtz_free_energy ∧
      Elementwise₂ s.helmholtz_free_energy_per_link jl.helmholtz_free_energy_per_link ∧
      Elementwise₂ s.relative_helmholtz_free_energy jl.relative_helmholtz_free_energy ∧
      Elementwise₂ s.relative_helmholtz_free_energy_per_link jl.relative_helmholtz_free_energy_per_link ∧
      Elementwise₂ s.nondimensional_helmholtz_free_energy jl.nondimensional_helmholtz_free_energy ∧
      Elementwise₂ s.nondimensional_helmholtz_free_energy_per_link jl.nondimensional_helmholtz_free_energy_per_link ∧
      Elementwise₁ s.nondimensional_relative_helmholtz_free_energy jl.nondimensional_relative_helmholtz_free_energy ∧
      Elementwise₁ s.nondimensional_relative_helmholtz_free_energy_per_link jl.nondimensional_relative_helmholtz_free_energy_per_link := by
  exact ⟨rfl, rfl, rfl, JArr.elementwise₂ fun _ _ => rfl, JArr.elementwise₂ fun _ _ => rfl, JArr.elementwise₂ fun _ _ => rfl, JArr.elementwise₂ fun _ _ => rfl, JArr.elementwise₂ fun _ _ => rfl, JArr.elementwise₂ fun _ _ => rfl, JArr.elementwise₁ fun _ => rfl, JArr.elementwise₁ fun _ => rfl⟩

/-- C60: the Julia struct of `src/physics/single_chain/fjc/thermodynamics/modified_canonical/asymptotic/mod.jl`, as reached from `FJC(number_of_links, link_length, hinge_mass)`. -/
theorem C60_julia_fjc_modified_canonical_asymptotic (N : Nat) (ℓ : α) (m : α) :
    let jl := (Polymers.Julia.Fjc.FJC.new N ℓ m).thermodynamics.modified_canonical.asymptotic
    jl.hinge_mass = m ∧
      jl.link_length = ℓ ∧
      jl.number_of_links = N := by
  exact ⟨rfl, rfl, rfl⟩

/-- C60: the Julia struct of `src/physics/single_chain/fjc/thermodynamics/isometric/mod.jl`, as reached from `FJC(number_of_links, link_length, hinge_mass)`. -/
theorem C60_julia_fjc_isometric (N : Nat) (ℓ : α) (m : α) :
    let jl := (Polymers.Julia.Fjc.FJC.new N ℓ m).thermodynamics.isometric
    let s := (Polymers.fjc.FJC.init N ℓ m).thermodynamics.isometric
    jl.hinge_mass = m ∧
      jl.link_length = ℓ ∧
      jl.number_of_links = N ∧
      Elementwise₂ s.force jl.force ∧
      Elementwise₁ s.nondimensional_force jl.nondimensional_force ∧
      Elementwise₂ s.helmholtz_free_energy jl.helmholtz_free_energy ∧
      Elementwise₂ s.helmholtz_free_energy_per_link jl.helmholtz_free_energy_per_link ∧
      Elementwise₂ s.relative_helmholtz_free_energy jl.relative_helmholtz_free_energy ∧
      Elementwise₂ s.relative_helmholtz_free_energy_per_link jl.relative_helmholtz_free_energy_per_link ∧
      Elementwise₂ s.nondimensional_helmholtz_free_energy jl.nondimensional_helmholtz_free_energy ∧
      Elementwise₂ s.nondimensional_helmholtz_free_energy_per_link jl.nondimensional_helmholtz_free_energy_per_link ∧
      Elementwise₁ s.nondimensional_relative_helmholtz_free_energy jl.nondimensional_relative_helmholtz_free_energy ∧
      Elementwise₁ s.nondimensional_relative_helmholtz_free_energy_per_link jl.nondimensional_relative_helmholtz_free_energy_per_link ∧
      Elementwise₁ s.equilibrium_distribution jl.equilibrium_distribution ∧
      Elementwise₁ s.nondimensional_equilibrium_distribution jl.nondimensional_equilibrium_distribution ∧
      Elementwise₁ s.equilibrium_radial_distribution jl.equilibrium_radial_distribution ∧
      Elementwise₁ s.nondimensional_equilibrium_radial_distribution jl.nondimensional_equilibrium_radial_distribution := by
  exact ⟨rfl, rfl, rfl, JArr.elementwise₂ fun _ _ => rfl, JArr.elementwise₁ fun _ => rfl, JArr.elementwise₂ fun _ _ => rfl, JArr.elementwise₂ fun _ _ => rfl, JArr.elementwise₂ fun _ _ => rfl, JArr.elementwise₂ fun _ _ => rfl, JArr.elementwise₂ fun _ _ => rfl, JArr.elementwise₂ fun _ _ => rfl, JArr.elementwise₁ fun _ => rfl, JArr.elementwise₁ fun _ => rfl, JArr.elementwise₁ fun _ => rfl, JArr.elementwise₁ fun _ => rfl, JArr.elementwise₁ fun _ => rfl, JArr.elementwise₁ fun _ => rfl⟩

/-- C60: the Julia struct of `src/physics/single_chain/fjc/thermodynamics/isotensional/mod.jl`, as reached from `FJC(number_of_links, link_length, hinge_mass)`. -/
theorem C60_julia_fjc_isotensional (N : Nat) (ℓ : α) (m : α) :
    let jl := (Polymers.Julia.Fjc.FJC.new N ℓ m).thermodynamics.isotensional
    let s := (Polymers.fjc.FJC.init N ℓ m).thermodynamics.isotensional
    jl.hinge_mass = m ∧
      jl.link_length = ℓ ∧
      jl.number_of_links = N ∧
      Elementwise₂ s.end_to_end_length jl.end_to_end_length ∧
      Elementwise₂ s.end_to_end_length_per_link jl.end_to_end_length_per_link ∧
      Elementwise₁ s.nondimensional_end_to_end_length jl.nondimensional_end_to_end_length ∧
      Elementwise₁ s.nondimensional_end_to_end_length_per_link jl.nondimensional_end_to_end_length_per_link ∧
      Elementwise₂ s.gibbs_free_energy jl.gibbs_free_energy ∧
      Elementwise₂ s.gibbs_free_energy_per_link jl.gibbs_free_energy_per_link ∧
      Elementwise₂ s.relative_gibbs_free_energy jl.relative_gibbs_free_energy ∧
      Elementwise₂ s.relative_gibbs_free_energy_per_link jl.relative_gibbs_free_energy_per_link ∧
      Elementwise₂ s.nondimensional_gibbs_free_energy jl.nondimensional_gibbs_free_energy ∧
      Elementwise₂ s.nondimensional_gibbs_free_energy_per_link jl.nondimensional_gibbs_free_energy_per_link ∧
      Elementwise₁ s.nondimensional_relative_gibbs_free_energy jl.nondimensional_relative_gibbs_free_energy ∧
      Elementwise₁ s.nondimensional_relative_gibbs_free_energy_per_link jl.nondimensional_relative_gibbs_free_energy_per_link := by
  exact ⟨rfl, rfl, rfl, JArr.elementwise₂ fun _ _ => rfl, JArr.elementwise₂ fun _ _ => rfl, JArr.elementwise₁ fun _ => rfl, JArr.elementwise₁ fun _ => rfl, JArr.elementwise₂ fun _ _ => rfl, JArr.elementwise₂ fun _ _ => rfl, JArr.elementwise₂ fun _ _ => rfl, JArr.elementwise₂ fun _ _ => rfl, JArr.elementwise₂ fun _ _ => rfl, JArr.elementwise₂ fun _ _ => rfl, JArr.elementwise₁ fun _ => rfl, JArr.elementwise₁ fun _ => rfl⟩

/-- C60: the Julia struct of `src/physics/single_chain/fjc/thermodynamics/modified_canonical/mod.jl`, as reached from `FJC(number_of_links, link_length, hinge_mass)`. -/
theorem C60_julia_fjc_modified_canonical (N : Nat) (ℓ : α) (m : α) :
    let jl := (Polymers.Julia.Fjc.FJC.new N ℓ m).thermodynamics.modified_canonical
    let s := (Polymers.fjc.FJC.init N ℓ m).thermodynamics.modified_canonical
    jl.hinge_mass = m ∧
      jl.link_length = ℓ ∧
      jl.number_of_links = N ∧
      Elementwise₃ s.end_to_end_length jl.end_to_end_length ∧
      Elementwise₃ s.end_to_end_length_per_link jl.end_to_end_length_per_link ∧
      Elementwise₂ s.nondimensional_end_to_end_length jl.nondimensional_end_to_end_length ∧
      Elementwise₂ s.nondimensional_end_to_end_length_per_link jl.nondimensional_end_to_end_length_per_link ∧
      Elementwise₃ s.force jl.force ∧
      Elementwise₂ s.nondimensional_force jl.nondimensional_force ∧
      Elementwise₃ s.helmholtz_free_energy jl.helmholtz_free_energy ∧
      Elementwise₃ s.helmholtz_free_energy_per_link jl.helmholtz_free_energy_per_link ∧
      Elementwise₃ s.relative_helmholtz_free_energy jl.relative_helmholtz_free_energy ∧
      Elementwise₃ s.relative_helmholtz_free_energy_per_link jl.relative_helmholtz_free_energy_per_link ∧
      Elementwise₃ s.nondimensional_helmholtz_free_energy jl.nondimensional_helmholtz_free_energy ∧
      Elementwise₃ s.nondimensional_helmholtz_free_energy_per_link jl.nondimensional_helmholtz_free_energy_per_link ∧
      Elementwise₂ s.nondimensional_relative_helmholtz_free_energy jl.nondimensional_relative_helmholtz_free_energy ∧
      Elementwise₂ s.nondimensional_relative_helmholtz_free_energy_per_link jl.nondimensional_relative_helmholtz_free_energy_per_link ∧
      Elementwise₃ s.gibbs_free_energy jl.gibbs_free_energy ∧
      Elementwise₃ s.gibbs_free_energy_per_link jl.gibbs_free_energy_per_link ∧
      Elementwise₃ s.relative_gibbs_free_energy jl.relative_gibbs_free_energy ∧
      Elementwise₃ s.relative_gibbs_free_energy_per_link jl.relative_gibbs_free_energy_per_link ∧
      Elementwise₃ s.nondimensional_gibbs_free_energy jl.nondimensional_gibbs_free_energy ∧
      Elementwise₃ s.nondimensional_gibbs_free_energy_per_link jl.nondimensional_gibbs_free_energy_per_link ∧
      Elementwise₂ s.nondimensional_relative_gibbs_free_energy jl.nondimensional_relative_gibbs_free_energy ∧
      Elementwise₂ s.nondimensional_relative_gibbs_free_energy_per_link jl.nondimensional_relative_gibbs_free_energy_per_link := by
  exact ⟨rfl, rfl, rfl, JArr.elementwise₃ fun _ _ _ => rfl, JArr.elementwise₃ fun _ _ _ => rfl, JArr.elementwise₂ fun _ _ => rfl, JArr.elementwise₂ fun _ _ => rfl, JArr.elementwise₃ fun _ _ _ => rfl, JArr.elementwise₂ fun _ _ => rfl, JArr.elementwise₃ fun _ _ _ => rfl, JArr.elementwise₃ fun _ _ _ => rfl, JArr.elementwise₃ fun _ _ _ => rfl, JArr.elementwise₃ fun _ _ _ => rfl, JArr.elementwise₃ fun _ _ _ => rfl, JArr.elementwise₃ fun _ _ _ => rfl, JArr.elementwise₂ fun _ _ => rfl, JArr.elementwise₂ fun _ _ => rfl, JArr.elementwise₃ fun _ _ _ => rfl, JArr.elementwise₃ fun _ _ _ => rfl, JArr.elementwise₃ fun _ _ _ => rfl, JArr.elementwise₃ fun _ _ _ => rfl, JArr.elementwise₃ fun _ _ _ => rfl, JArr.elementwise₃ fun _ _ _ => rfl, JArr.elementwise₂ fun _ _ => rfl, JArr.elementwise₂ fun _ _ => rfl⟩

/-- C60: the Julia struct of `src/physics/single_chain/fjc/thermodynamics/mod.jl`, as reached from `FJC(number_of_links, link_length, hinge_mass)`. -/
theorem C60_julia_fjc_thermodynamics (N : Nat) (ℓ : α) (m : α) :
    let jl := (Polymers.Julia.Fjc.FJC.new N ℓ m).thermodynamics
    jl.hinge_mass = m ∧
      jl.link_length = ℓ ∧
      jl.number_of_links = N := by
  exact ⟨rfl, rfl, rfl⟩

/-- C60: the Julia struct of `src/physics/single_chain/fjc/mod.jl`, as reached from `FJC(number_of_links, link_length, hinge_mass)`. -/
theorem C60_julia_fjc (N : Nat) (ℓ : α) (m : α) :
    let jl := (Polymers.Julia.Fjc.FJC.new N ℓ m)
    jl.hinge_mass = m ∧
      jl.link_length = ℓ ∧
      jl.number_of_links = N := by
  exact ⟨rfl, rfl, rfl⟩

end Polymers.Props
