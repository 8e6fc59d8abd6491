/- Generated by tools/gen_bindings.py ; do not edit by hand. -/
import Verif.Model.JuliaWlc
import Verif.Lemmas.Julia

/-! Property C60.  Over any number type, so in particular over floating-point numbers. -/

namespace Polymers.Props

open Polymers.Julia Polymers.Spec

set_option linter.unusedSectionVars false

variable {α : Type} [Add α] [Sub α] [Mul α] [Div α] [Neg α] [OfScientific α] [NatCast α] [Elem α]

/-- C60: the Julia struct of `src/physics/single_chain/wlc/thermodynamics/isometric/legendre/mod.jl`, as reached from `WLC(number_of_links, link_length, hinge_mass, persistance_length)`. -/
theorem C60_julia_wlc_isometric_legendre (pass : List (CArg α) → Registers α) (N : Nat) (ℓ : α) (m : α) (p : α) :
    let jl := (Polymers.Julia.Wlc.WLC.new pass N ℓ m p).thermodynamics.isometric.legendre
    let s := (Polymers.wlc.WLC.init N ℓ m p).thermodynamics.isometric.legendre
    jl.hinge_mass = m ∧
      jl.link_length = ℓ ∧
      jl.number_of_links = N ∧
      jl.persistance_length = p ∧
      Elementwise₂ s.gibbs_free_energy jl.gibbs_free_energy ∧
      Elementwise₂ s.gibbs_free_energy_per_link jl.gibbs_free_energy_per_link ∧
      Elementwise₂ s.relative_gibbs_free_energy jl.relative_gibbs_free_energy ∧
      Elementwise₂ s.relative_gibbs_free_energy_per_link jl.relative_gibbs_free_energy_per_link ∧
      Elementwise₂ s.nondimensional_gibbs_free_energy jl.nondimensional_gibbs_free_energy ∧
      Elementwise₂ s.nondimensional_gibbs_free_energy_per_link jl.nondimensional_gibbs_free_energy_per_link ∧
      Elementwise₁ s.nondimensional_relative_gibbs_free_energy jl.nondimensional_relative_gibbs_free_energy ∧
      Elementwise₁ s.nondimensional_relative_gibbs_free_energy_per_link jl.nondimensional_relative_gibbs_free_energy_per_link := by
  exact ⟨rfl, rfl, rfl, rfl, JArr.elementwise₂ fun _ _ => rfl, JArr.elementwise₂ fun _ _ => rfl, JArr.elementwise₂ fun _ _ => rfl, JArr.elementwise₂ fun _ _ => rfl, JArr.elementwise₂ fun _ _ => rfl, JArr.elementwise₂ fun _ _ => rfl, JArr.elementwise₁ fun _ => rfl, JArr.elementwise₁ fun _ => rfl⟩

/-- C60: the Julia struct of `src/physics/single_chain/wlc/thermodynamics/isotensional/legendre/mod.jl`, as reached from `WLC(number_of_links, link_length, hinge_mass, persistance_length)`. -/
theorem C60_julia_wlc_isotensional_legendre (pass : List (CArg α) → Registers α) (N : Nat) (ℓ : α) (m : α) (p : α) :
    let jl := (Polymers.Julia.Wlc.WLC.new pass N ℓ m p).thermodynamics.isotensional.legendre
    let s := (Polymers.wlc.WLC.init N ℓ m p).thermodynamics.isotensional.legendre
    jl.hinge_mass = m ∧
      jl.link_length = ℓ ∧
      jl.number_of_links = N ∧
      jl.persistance_length = p ∧
      Elementwise₂ s.helmholtz_free_energy jl.helmholtz_free_energy ∧
      Elementwise₂ s.helmholtz_free_energy_per_link jl.helmholtz_free_energy_per_link ∧
      Elementwise₂ s.relative_helmholtz_free_energy jl.relative_helmholtz_free_energy ∧
      Elementwise₂ s.relative_helmholtz_free_energy_per_link jl.relative_helmholtz_free_energy_per_link ∧
      Elementwise₂ s.nondimensional_helmholtz_free_energy jl.nondimensional_helmholtz_free_energy ∧
      Elementwise₂ s.nondimensional_helmholtz_free_energy_per_link jl.nondimensional_helmholtz_free_energy_per_link ∧
      Elementwise₁ s.nondimensional_relative_helmholtz_free_energy jl.nondimensional_relative_helmholtz_free_energy ∧
      Elementwise₁ s.nondimensional_relative_helmholtz_free_energy_per_link jl.nondimensional_relative_helmholtz_free_energy_per_link := by
  exact ⟨rfl, rfl, rfl, rfl, JArr.elementwise₂ fun _ _ => rfl, JArr.elementwise₂ fun _ _ => rfl, JArr.elementwise₂ fun _ _ => rfl, JArr.elementwise₂ fun _ _ => rfl, JArr.elementwise₂ fun _ _ => rfl, JArr.elementwise₂ fun _ _ => rfl, JArr.elementwise₁ fun _ => rfl, JArr.elementwise₁ fun _ => rfl⟩

/-- C60: the Julia struct of `src/physics/single_chain/wlc/thermodynamics/isometric/mod.jl`, as reached from `WLC(number_of_links, link_length, hinge_mass, persistance_length)`. -/
theorem C60_julia_wlc_isometric (pass : List (CArg α) → Registers α) (N : Nat) (ℓ : α) (m : α) (p : α) :
    let jl := (Polymers.Julia.Wlc.WLC.new pass N ℓ m p).thermodynamics.isometric
    let s := (Polymers.wlc.WLC.init N ℓ m p).thermodynamics.isometric
    jl.hinge_mass = m ∧
      jl.link_length = ℓ ∧
      jl.number_of_links = N ∧
      jl.persistance_length = p ∧
      Elementwise₂ s.force jl.force ∧
      Elementwise₁ s.nondimensional_force jl.nondimensional_force ∧
      Elementwise₂ s.helmholtz_free_energy jl.helmholtz_free_energy ∧
      Elementwise₂ s.helmholtz_free_energy_per_link jl.helmholtz_free_energy_per_link ∧
      Elementwise₂ s.relative_helmholtz_free_energy jl.relative_helmholtz_free_energy ∧
      Elementwise₂ s.relative_helmholtz_free_energy_per_link jl.relative_helmholtz_free_energy_per_link ∧
      Elementwise₂ s.nondimensional_helmholtz_free_energy jl.nondimensional_helmholtz_free_energy ∧
      Elementwise₂ s.nondimensional_helmholtz_free_energy_per_link jl.nondimensional_helmholtz_free_energy_per_link ∧
      Elementwise₁ s.nondimensional_relative_helmholtz_free_energy jl.nondimensional_relative_helmholtz_free_energy ∧
      Elementwise₁ s.nondimensional_relative_helmholtz_free_energy_per_link jl.nondimensional_relative_helmholtz_free_energy_per_link := by
  exact ⟨rfl, rfl, rfl, rfl, JArr.elementwise₂ fun _ _ => rfl, JArr.elementwise₁ fun _ => rfl, JArr.elementwise₂ fun _ _ => rfl, JArr.elementwise₂ fun _ _ => rfl, JArr.elementwise₂ fun _ _ => rfl, JArr.elementwise₂ fun _ _ => rfl, JArr.elementwise₂ fun _ _ => rfl, JArr.elementwise₂ fun _ _ => rfl, JArr.elementwise₁ fun _ => rfl, JArr.elementwise₁ fun _ => rfl⟩

/-- C60: the Julia struct of `src/physics/single_chain/wlc/thermodynamics/isotensional/mod.jl`, as reached from `WLC(number_of_links, link_length, hinge_mass, persistance_length)`. -/
theorem C60_julia_wlc_isotensional (pass : List (CArg α) → Registers α) (N : Nat) (ℓ : α) (m : α) (p : α) :
    let jl := (Polymers.Julia.Wlc.WLC.new pass N ℓ m p).thermodynamics.isotensional
    let s := (Polymers.wlc.WLC.init N ℓ m p).thermodynamics.isotensional
    jl.hinge_mass = m ∧
      jl.link_length = ℓ ∧
      jl.number_of_links = N ∧
      jl.persistance_length = p ∧
      Elementwise₂ s.end_to_end_length jl.end_to_end_length ∧
      Elementwise₂ s.end_to_end_length_per_link jl.end_to_end_length_per_link ∧
      Elementwise₁ s.nondimensional_end_to_end_length jl.nondimensional_end_to_end_length ∧
      Elementwise₁ s.nondimensional_end_to_end_length_per_link jl.nondimensional_end_to_end_length_per_link ∧
      Elementwise₂ s.gibbs_free_energy jl.gibbs_free_energy ∧
      Elementwise₂ s.gibbs_free_energy_per_link jl.gibbs_free_energy_per_link ∧
      Elementwise₂ s.relative_gibbs_free_energy jl.relative_gibbs_free_energy ∧
      Elementwise₂ s.relative_gibbs_free_energy_per_link jl.relative_gibbs_free_energy_per_link ∧
      Elementwise₂ s.nondimensional_gibbs_free_energy jl.nondimensional_gibbs_free_energy ∧
      Elementwise₂ s.nondimensional_gibbs_free_energy_per_link jl.nondimensional_gibbs_free_energy_per_link ∧
      Elementwise₁ s.nondimensional_relative_gibbs_free_energy jl.nondimensional_relative_gibbs_free_energy ∧
      Elementwise₁ s.nondimensional_relative_gibbs_free_energy_per_link jl.nondimensional_relative_gibbs_free_energy_per_link := by
  exact ⟨rfl, rfl, rfl, rfl, JArr.elementwise₂ fun _ _ => rfl, JArr.elementwise₂ fun _ _ => rfl, JArr.elementwise₁ fun _ => rfl, JArr.elementwise₁ fun _ => rfl, JArr.elementwise₂ fun _ _ => rfl, JArr.elementwise₂ fun _ _ => rfl, JArr.elementwise₂ fun _ _ => rfl, JArr.elementwise₂ fun _ _ => rfl, JArr.elementwise₂ fun _ _ => rfl, JArr.elementwise₂ fun _ _ => rfl, JArr.elementwise₁ fun _ => rfl, JArr.elementwise₁ fun _ => rfl⟩

/-- C60: the Julia struct of `src/physics/single_chain/wlc/thermodynamics/mod.jl`, as reached from `WLC(number_of_links, link_length, hinge_mass, persistance_length)`. -/
theorem C60_julia_wlc_thermodynamics (pass : List (CArg α) → Registers α) (N : Nat) (ℓ : α) (m : α) (p : α) :
    let jl := (Polymers.Julia.Wlc.WLC.new pass N ℓ m p).thermodynamics
    jl.hinge_mass = m ∧
      jl.link_length = ℓ ∧
      jl.number_of_links = N ∧
      jl.persistance_length = p := by
  exact ⟨rfl, rfl, rfl, rfl⟩

/-- C60: the Julia struct of `src/physics/single_chain/wlc/mod.jl`, as reached from `WLC(number_of_links, link_length, hinge_mass, persistance_length)`. -/
theorem C60_julia_wlc (pass : List (CArg α) → Registers α) (N : Nat) (ℓ : α) (m : α) (p : α) :
    let jl := (Polymers.Julia.Wlc.WLC.new pass N ℓ m p)
    jl.hinge_mass = m ∧
      jl.link_length = ℓ ∧
      jl.number_of_links = N ∧
      jl.persistance_length = p := by
  exact ⟨rfl, rfl, rfl, rfl⟩

end Polymers.Props
