import Verif.Props.MethodsFjc
import Verif.Props.MethodsEfjc
import Verif.Lemmas.Lits

/-! Property C38: the one method whose body is not a call of the free function of the same name, and sample instances. -/

namespace Polymers.Props

/-- C38: `EFJC::nondimensional_helmholtz_free_energy_per_link` of
`src/physics/single_chain/efjc/thermodynamics/isotensional/asymptotic/legendre/mod.rs` repeats the formula with
`kT/k` in place of `ℓ²/κ`; over the reals this is the free function at the stored inputs. -/
theorem C38_efjc_isotensional_asymptotic_legendre_nd_per_link (N : ℕ) (ℓ m k η T : ℝ) (hℓ : ℓ ≠ 0) :
    (efjc.EFJC.init N ℓ m k).thermodynamics.isotensional.asymptotic.legendre.nondimensional_helmholtz_free_energy_per_link
        η T =
      efjc.thermodynamics.isotensional.asymptotic.legendre.nondimensional_helmholtz_free_energy_per_link ℓ m
        (k * ℓ ^ 2 / BOLTZMANN_CONSTANT / T) η T := by
  simp only [efjc.EFJC.init, efjc.thermodynamics.EFJC.init, efjc.thermodynamics.isotensional.EFJC.init,
    efjc.thermodynamics.isotensional.asymptotic.EFJC.init,
    efjc.thermodynamics.isotensional.asymptotic.legendre.EFJC.init,
    efjc.thermodynamics.isotensional.asymptotic.legendre.EFJC.nondimensional_helmholtz_free_energy_per_link,
    efjc.thermodynamics.isotensional.asymptotic.legendre.nondimensional_helmholtz_free_energy_per_link, model_real]
  have : 2 * Real.pi * BOLTZMANN_CONSTANT * T / k = 2 * Real.pi * ℓ ^ 2 / (k * ℓ ^ 2 / BOLTZMANN_CONSTANT / T) := by
    rw [div_div, div_div_eq_mul_div]
    by_cases hk : k = 0
    · simp [hk]
    · field_simp
  rw [this]

example : (fjc.FJC.init 8 (2 : ℝ) 3).thermodynamics.isometric.legendre.link_length = 2 :=
  (C37_fjc_isometric_legendre 8 2 3).2.1

end Polymers.Props
