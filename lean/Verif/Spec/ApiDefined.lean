/- Generated by tools/gen_api_s.py ; do not edit by hand. -/
import Verif.Spec.Defined
import Verif.Model.SReal
import Verif.Model.Ideal
import Verif.Model.Fjc
import Verif.Model.Efjc
import Verif.Model.Swfjc
import Verif.Model.LennardJones
import Verif.Model.LogSquared
import Verif.Model.Morse
import Verif.Model.Wlc

/-!
The method families of `Verif/Spec/Api.lean` and `Verif/Spec/ApiPotential.lean` evaluated over `SReal`, where an operation
outside its domain gives `undef` and a panic gives `panic`.  The constructor arguments are real numbers. -/

namespace Polymers.ApiS

open Polymers.Spec Polymers.SReal

/-- `src/physics/single_chain/ideal/thermodynamics/isometric/mod.rs`: the helmholtz methods of `Ideal`. -/
noncomputable def ideal_isometric_helmholtz (N : ℕ) (ℓ : ℝ) (m : ℝ) : EnergyMethodsS :=
  let s := (Polymers.ideal.Ideal.init N (val ℓ) (val m)).thermodynamics.isometric
  { energy := fun x T => s.helmholtz_free_energy (val x) (val T)
    energy_per_link := fun x T => s.helmholtz_free_energy_per_link (val x) (val T)
    relative := fun x T => s.relative_helmholtz_free_energy (val x) (val T)
    relative_per_link := fun x T => s.relative_helmholtz_free_energy_per_link (val x) (val T)
    nd_energy := fun x T => s.nondimensional_helmholtz_free_energy (val x) (val T)
    nd_energy_per_link := fun x T => s.nondimensional_helmholtz_free_energy_per_link (val x) (val T)
    nd_relative := fun x _ => s.nondimensional_relative_helmholtz_free_energy (val x)
    nd_relative_per_link := fun x _ => s.nondimensional_relative_helmholtz_free_energy_per_link (val x) }

/-- `src/physics/single_chain/ideal/thermodynamics/isometric/mod.rs`: the forces methods of `Ideal`. -/
noncomputable def ideal_isometric_forces (N : ℕ) (ℓ : ℝ) (m : ℝ) : ForceMethodsS :=
  let s := (Polymers.ideal.Ideal.init N (val ℓ) (val m)).thermodynamics.isometric
  { force := fun x T => s.force (val x) (val T)
    nd_force := fun x _ => s.nondimensional_force (val x) }

/-- `src/physics/single_chain/ideal/thermodynamics/isometric/mod.rs`: the distribution methods of `Ideal`. -/
noncomputable def ideal_isometric_distribution (N : ℕ) (ℓ : ℝ) (m : ℝ) : DistributionMethodsS :=
  let s := (Polymers.ideal.Ideal.init N (val ℓ) (val m)).thermodynamics.isometric
  { density := fun x => s.equilibrium_distribution (val x)
    nd_density := fun x => s.nondimensional_equilibrium_distribution (val x)
    radial := fun x => s.equilibrium_radial_distribution (val x)
    nd_radial := fun x => s.nondimensional_equilibrium_radial_distribution (val x) }

/-- `src/physics/single_chain/ideal/thermodynamics/isotensional/mod.rs`: the gibbs methods of `Ideal`. -/
noncomputable def ideal_isotensional_gibbs (N : ℕ) (ℓ : ℝ) (m : ℝ) : EnergyMethodsS :=
  let s := (Polymers.ideal.Ideal.init N (val ℓ) (val m)).thermodynamics.isotensional
  { energy := fun x T => s.gibbs_free_energy (val x) (val T)
    energy_per_link := fun x T => s.gibbs_free_energy_per_link (val x) (val T)
    relative := fun x T => s.relative_gibbs_free_energy (val x) (val T)
    relative_per_link := fun x T => s.relative_gibbs_free_energy_per_link (val x) (val T)
    nd_energy := fun x T => s.nondimensional_gibbs_free_energy (val x) (val T)
    nd_energy_per_link := fun x T => s.nondimensional_gibbs_free_energy_per_link (val x) (val T)
    nd_relative := fun x _ => s.nondimensional_relative_gibbs_free_energy (val x)
    nd_relative_per_link := fun x _ => s.nondimensional_relative_gibbs_free_energy_per_link (val x) }

/-- `src/physics/single_chain/ideal/thermodynamics/isotensional/mod.rs`: the lengths methods of `Ideal`. -/
noncomputable def ideal_isotensional_lengths (N : ℕ) (ℓ : ℝ) (m : ℝ) : LengthMethodsS :=
  let s := (Polymers.ideal.Ideal.init N (val ℓ) (val m)).thermodynamics.isotensional
  { length := fun x T => s.end_to_end_length (val x) (val T)
    length_per_link := fun x T => s.end_to_end_length_per_link (val x) (val T)
    nd_length := fun x _ => s.nondimensional_end_to_end_length (val x)
    nd_length_per_link := fun x _ => s.nondimensional_end_to_end_length_per_link (val x) }

/-- `src/physics/single_chain/fjc/thermodynamics/isometric/legendre/mod.rs`: the gibbs methods of `FJC`. -/
noncomputable def fjc_isometric_legendre_gibbs (N : ℕ) (ℓ : ℝ) (m : ℝ) : EnergyMethodsS :=
  let s := (Polymers.fjc.FJC.init N (val ℓ) (val m)).thermodynamics.isometric.legendre
  { energy := fun x T => s.gibbs_free_energy (val x) (val T)
    energy_per_link := fun x T => s.gibbs_free_energy_per_link (val x) (val T)
    relative := fun x T => s.relative_gibbs_free_energy (val x) (val T)
    relative_per_link := fun x T => s.relative_gibbs_free_energy_per_link (val x) (val T)
    nd_energy := fun x T => s.nondimensional_gibbs_free_energy (val x) (val T)
    nd_energy_per_link := fun x T => s.nondimensional_gibbs_free_energy_per_link (val x) (val T)
    nd_relative := fun x _ => s.nondimensional_relative_gibbs_free_energy (val x)
    nd_relative_per_link := fun x _ => s.nondimensional_relative_gibbs_free_energy_per_link (val x) }

/-- `src/physics/single_chain/fjc/thermodynamics/isometric/legendre/mod.rs`: the helmholtz methods of `FJC`. -/
noncomputable def fjc_isometric_legendre_helmholtz (N : ℕ) (ℓ : ℝ) (m : ℝ) : EnergyMethodsS :=
  let s := (Polymers.fjc.FJC.init N (val ℓ) (val m)).thermodynamics.isometric.legendre
  { energy := fun x T => s.helmholtz_free_energy (val x) (val T)
    energy_per_link := fun x T => s.helmholtz_free_energy_per_link (val x) (val T)
    relative := fun x T => s.relative_helmholtz_free_energy (val x) (val T)
    relative_per_link := fun x T => s.relative_helmholtz_free_energy_per_link (val x) (val T)
    nd_energy := fun x T => s.nondimensional_helmholtz_free_energy (val x) (val T)
    nd_energy_per_link := fun x T => s.nondimensional_helmholtz_free_energy_per_link (val x) (val T)
    nd_relative := fun x _ => s.nondimensional_relative_helmholtz_free_energy (val x)
    nd_relative_per_link := fun x _ => s.nondimensional_relative_helmholtz_free_energy_per_link (val x) }

/-- `src/physics/single_chain/fjc/thermodynamics/isometric/legendre/mod.rs`: the forces methods of `FJC`. -/
noncomputable def fjc_isometric_legendre_forces (N : ℕ) (ℓ : ℝ) (m : ℝ) : ForceMethodsS :=
  let s := (Polymers.fjc.FJC.init N (val ℓ) (val m)).thermodynamics.isometric.legendre
  { force := fun x T => s.force (val x) (val T)
    nd_force := fun x _ => s.nondimensional_force (val x) }

/-- `src/physics/single_chain/fjc/thermodynamics/isometric/legendre/mod.rs`: the distribution methods of `FJC`. -/
noncomputable def fjc_isometric_legendre_distribution (N : ℕ) (ℓ : ℝ) (m : ℝ) : DistributionMethodsS :=
  let s := (Polymers.fjc.FJC.init N (val ℓ) (val m)).thermodynamics.isometric.legendre
  { density := fun x => s.equilibrium_distribution (val x)
    nd_density := fun x => s.nondimensional_equilibrium_distribution (val x)
    radial := fun x => s.equilibrium_radial_distribution (val x)
    nd_radial := fun x => s.nondimensional_equilibrium_radial_distribution (val x) }

/-- `src/physics/single_chain/fjc/thermodynamics/isotensional/legendre/mod.rs`: the helmholtz methods of `FJC`. -/
noncomputable def fjc_isotensional_legendre_helmholtz (N : ℕ) (ℓ : ℝ) (m : ℝ) : EnergyMethodsS :=
  let s := (Polymers.fjc.FJC.init N (val ℓ) (val m)).thermodynamics.isotensional.legendre
  { energy := fun x T => s.helmholtz_free_energy (val x) (val T)
    energy_per_link := fun x T => s.helmholtz_free_energy_per_link (val x) (val T)
    relative := fun x T => s.relative_helmholtz_free_energy (val x) (val T)
    relative_per_link := fun x T => s.relative_helmholtz_free_energy_per_link (val x) (val T)
    nd_energy := fun x T => s.nondimensional_helmholtz_free_energy (val x) (val T)
    nd_energy_per_link := fun x T => s.nondimensional_helmholtz_free_energy_per_link (val x) (val T)
    nd_relative := fun x _ => s.nondimensional_relative_helmholtz_free_energy (val x)
    nd_relative_per_link := fun x _ => s.nondimensional_relative_helmholtz_free_energy_per_link (val x) }

/-- `src/physics/single_chain/fjc/thermodynamics/isometric/mod.rs`: the helmholtz methods of `FJC`. -/
noncomputable def fjc_isometric_helmholtz (N : ℕ) (ℓ : ℝ) (m : ℝ) : EnergyMethodsS :=
  let s := (Polymers.fjc.FJC.init N (val ℓ) (val m)).thermodynamics.isometric
  { energy := fun x T => s.helmholtz_free_energy (val x) (val T)
    energy_per_link := fun x T => s.helmholtz_free_energy_per_link (val x) (val T)
    relative := fun x T => s.relative_helmholtz_free_energy (val x) (val T)
    relative_per_link := fun x T => s.relative_helmholtz_free_energy_per_link (val x) (val T)
    nd_energy := fun x T => s.nondimensional_helmholtz_free_energy (val x) (val T)
    nd_energy_per_link := fun x T => s.nondimensional_helmholtz_free_energy_per_link (val x) (val T)
    nd_relative := fun x _ => s.nondimensional_relative_helmholtz_free_energy (val x)
    nd_relative_per_link := fun x _ => s.nondimensional_relative_helmholtz_free_energy_per_link (val x) }

/-- `src/physics/single_chain/fjc/thermodynamics/isometric/mod.rs`: the forces methods of `FJC`. -/
noncomputable def fjc_isometric_forces (N : ℕ) (ℓ : ℝ) (m : ℝ) : ForceMethodsS :=
  let s := (Polymers.fjc.FJC.init N (val ℓ) (val m)).thermodynamics.isometric
  { force := fun x T => s.force (val x) (val T)
    nd_force := fun x _ => s.nondimensional_force (val x) }

/-- `src/physics/single_chain/fjc/thermodynamics/isometric/mod.rs`: the distribution methods of `FJC`. -/
noncomputable def fjc_isometric_distribution (N : ℕ) (ℓ : ℝ) (m : ℝ) : DistributionMethodsS :=
  let s := (Polymers.fjc.FJC.init N (val ℓ) (val m)).thermodynamics.isometric
  { density := fun x => s.equilibrium_distribution (val x)
    nd_density := fun x => s.nondimensional_equilibrium_distribution (val x)
    radial := fun x => s.equilibrium_radial_distribution (val x)
    nd_radial := fun x => s.nondimensional_equilibrium_radial_distribution (val x) }

/-- `src/physics/single_chain/fjc/thermodynamics/isotensional/mod.rs`: the gibbs methods of `FJC`. -/
noncomputable def fjc_isotensional_gibbs (N : ℕ) (ℓ : ℝ) (m : ℝ) : EnergyMethodsS :=
  let s := (Polymers.fjc.FJC.init N (val ℓ) (val m)).thermodynamics.isotensional
  { energy := fun x T => s.gibbs_free_energy (val x) (val T)
    energy_per_link := fun x T => s.gibbs_free_energy_per_link (val x) (val T)
    relative := fun x T => s.relative_gibbs_free_energy (val x) (val T)
    relative_per_link := fun x T => s.relative_gibbs_free_energy_per_link (val x) (val T)
    nd_energy := fun x T => s.nondimensional_gibbs_free_energy (val x) (val T)
    nd_energy_per_link := fun x T => s.nondimensional_gibbs_free_energy_per_link (val x) (val T)
    nd_relative := fun x _ => s.nondimensional_relative_gibbs_free_energy (val x)
    nd_relative_per_link := fun x _ => s.nondimensional_relative_gibbs_free_energy_per_link (val x) }

/-- `src/physics/single_chain/fjc/thermodynamics/isotensional/mod.rs`: the lengths methods of `FJC`. -/
noncomputable def fjc_isotensional_lengths (N : ℕ) (ℓ : ℝ) (m : ℝ) : LengthMethodsS :=
  let s := (Polymers.fjc.FJC.init N (val ℓ) (val m)).thermodynamics.isotensional
  { length := fun x T => s.end_to_end_length (val x) (val T)
    length_per_link := fun x T => s.end_to_end_length_per_link (val x) (val T)
    nd_length := fun x _ => s.nondimensional_end_to_end_length (val x)
    nd_length_per_link := fun x _ => s.nondimensional_end_to_end_length_per_link (val x) }

/-- `src/physics/single_chain/efjc/thermodynamics/isometric/asymptotic/alternative/legendre/mod.rs`: the helmholtz methods of `EFJC`. -/
noncomputable def efjc_isometric_asymptotic_alternative_legendre_helmholtz (N : ℕ) (ℓ : ℝ) (m : ℝ) (k : ℝ) : EnergyMethodsS :=
  let s := (Polymers.efjc.EFJC.init N (val ℓ) (val m) (val k)).thermodynamics.isometric.asymptotic.alternative.legendre
  { energy := fun x T => s.helmholtz_free_energy (val x) (val T)
    energy_per_link := fun x T => s.helmholtz_free_energy_per_link (val x) (val T)
    relative := fun x T => s.relative_helmholtz_free_energy (val x) (val T)
    relative_per_link := fun x T => s.relative_helmholtz_free_energy_per_link (val x) (val T)
    nd_energy := fun x T => s.nondimensional_helmholtz_free_energy (val x) (val T)
    nd_energy_per_link := fun x T => s.nondimensional_helmholtz_free_energy_per_link (val x) (val T)
    nd_relative := fun x T => s.nondimensional_relative_helmholtz_free_energy (val x) (val T)
    nd_relative_per_link := fun x T => s.nondimensional_relative_helmholtz_free_energy_per_link (val x) (val T) }

/-- `src/physics/single_chain/efjc/thermodynamics/isometric/asymptotic/alternative/legendre/mod.rs`: the forces methods of `EFJC`. -/
noncomputable def efjc_isometric_asymptotic_alternative_legendre_forces (N : ℕ) (ℓ : ℝ) (m : ℝ) (k : ℝ) : ForceMethodsS :=
  let s := (Polymers.efjc.EFJC.init N (val ℓ) (val m) (val k)).thermodynamics.isometric.asymptotic.alternative.legendre
  { force := fun x T => s.force (val x) (val T)
    nd_force := fun x T => s.nondimensional_force (val x) (val T) }

/-- `src/physics/single_chain/efjc/thermodynamics/isometric/asymptotic/reduced/legendre/mod.rs`: the helmholtz methods of `EFJC`. -/
noncomputable def efjc_isometric_asymptotic_reduced_legendre_helmholtz (N : ℕ) (ℓ : ℝ) (m : ℝ) (k : ℝ) : EnergyMethodsS :=
  let s := (Polymers.efjc.EFJC.init N (val ℓ) (val m) (val k)).thermodynamics.isometric.asymptotic.reduced.legendre
  { energy := fun x T => s.helmholtz_free_energy (val x) (val T)
    energy_per_link := fun x T => s.helmholtz_free_energy_per_link (val x) (val T)
    relative := fun x T => s.relative_helmholtz_free_energy (val x) (val T)
    relative_per_link := fun x T => s.relative_helmholtz_free_energy_per_link (val x) (val T)
    nd_energy := fun x T => s.nondimensional_helmholtz_free_energy (val x) (val T)
    nd_energy_per_link := fun x T => s.nondimensional_helmholtz_free_energy_per_link (val x) (val T)
    nd_relative := fun x T => s.nondimensional_relative_helmholtz_free_energy (val x) (val T)
    nd_relative_per_link := fun x T => s.nondimensional_relative_helmholtz_free_energy_per_link (val x) (val T) }

/-- `src/physics/single_chain/efjc/thermodynamics/isometric/asymptotic/reduced/legendre/mod.rs`: the forces methods of `EFJC`. -/
noncomputable def efjc_isometric_asymptotic_reduced_legendre_forces (N : ℕ) (ℓ : ℝ) (m : ℝ) (k : ℝ) : ForceMethodsS :=
  let s := (Polymers.efjc.EFJC.init N (val ℓ) (val m) (val k)).thermodynamics.isometric.asymptotic.reduced.legendre
  { force := fun x T => s.force (val x) (val T)
    nd_force := fun x T => s.nondimensional_force (val x) (val T) }

/-- `src/physics/single_chain/efjc/thermodynamics/isotensional/asymptotic/alternative/legendre/mod.rs`: the helmholtz methods of `EFJC`. -/
noncomputable def efjc_isotensional_asymptotic_alternative_legendre_helmholtz (N : ℕ) (ℓ : ℝ) (m : ℝ) (k : ℝ) : EnergyMethodsS :=
  let s := (Polymers.efjc.EFJC.init N (val ℓ) (val m) (val k)).thermodynamics.isotensional.asymptotic.alternative.legendre
  { energy := fun x T => s.helmholtz_free_energy (val x) (val T)
    energy_per_link := fun x T => s.helmholtz_free_energy_per_link (val x) (val T)
    relative := fun x T => s.relative_helmholtz_free_energy (val x) (val T)
    relative_per_link := fun x T => s.relative_helmholtz_free_energy_per_link (val x) (val T)
    nd_energy := fun x T => s.nondimensional_helmholtz_free_energy (val x) (val T)
    nd_energy_per_link := fun x T => s.nondimensional_helmholtz_free_energy_per_link (val x) (val T)
    nd_relative := fun x T => s.nondimensional_relative_helmholtz_free_energy (val x) (val T)
    nd_relative_per_link := fun x T => s.nondimensional_relative_helmholtz_free_energy_per_link (val x) (val T) }

/-- `src/physics/single_chain/efjc/thermodynamics/isotensional/asymptotic/reduced/legendre/mod.rs`: the helmholtz methods of `EFJC`. -/
noncomputable def efjc_isotensional_asymptotic_reduced_legendre_helmholtz (N : ℕ) (ℓ : ℝ) (m : ℝ) (k : ℝ) : EnergyMethodsS :=
  let s := (Polymers.efjc.EFJC.init N (val ℓ) (val m) (val k)).thermodynamics.isotensional.asymptotic.reduced.legendre
  { energy := fun x T => s.helmholtz_free_energy (val x) (val T)
    energy_per_link := fun x T => s.helmholtz_free_energy_per_link (val x) (val T)
    relative := fun x T => s.relative_helmholtz_free_energy (val x) (val T)
    relative_per_link := fun x T => s.relative_helmholtz_free_energy_per_link (val x) (val T)
    nd_energy := fun x T => s.nondimensional_helmholtz_free_energy (val x) (val T)
    nd_energy_per_link := fun x T => s.nondimensional_helmholtz_free_energy_per_link (val x) (val T)
    nd_relative := fun x T => s.nondimensional_relative_helmholtz_free_energy (val x) (val T)
    nd_relative_per_link := fun x T => s.nondimensional_relative_helmholtz_free_energy_per_link (val x) (val T) }

/-- `src/physics/single_chain/efjc/thermodynamics/isometric/asymptotic/legendre/mod.rs`: the helmholtz methods of `EFJC`. -/
noncomputable def efjc_isometric_asymptotic_legendre_helmholtz (N : ℕ) (ℓ : ℝ) (m : ℝ) (k : ℝ) : EnergyMethodsS :=
  let s := (Polymers.efjc.EFJC.init N (val ℓ) (val m) (val k)).thermodynamics.isometric.asymptotic.legendre
  { energy := fun x T => s.helmholtz_free_energy (val x) (val T)
    energy_per_link := fun x T => s.helmholtz_free_energy_per_link (val x) (val T)
    relative := fun x T => s.relative_helmholtz_free_energy (val x) (val T)
    relative_per_link := fun x T => s.relative_helmholtz_free_energy_per_link (val x) (val T)
    nd_energy := fun x T => s.nondimensional_helmholtz_free_energy (val x) (val T)
    nd_energy_per_link := fun x T => s.nondimensional_helmholtz_free_energy_per_link (val x) (val T)
    nd_relative := fun x T => s.nondimensional_relative_helmholtz_free_energy (val x) (val T)
    nd_relative_per_link := fun x T => s.nondimensional_relative_helmholtz_free_energy_per_link (val x) (val T) }

/-- `src/physics/single_chain/efjc/thermodynamics/isometric/asymptotic/legendre/mod.rs`: the forces methods of `EFJC`. -/
noncomputable def efjc_isometric_asymptotic_legendre_forces (N : ℕ) (ℓ : ℝ) (m : ℝ) (k : ℝ) : ForceMethodsS :=
  let s := (Polymers.efjc.EFJC.init N (val ℓ) (val m) (val k)).thermodynamics.isometric.asymptotic.legendre
  { force := fun x T => s.force (val x) (val T)
    nd_force := fun x T => s.nondimensional_force (val x) (val T) }

/-- `src/physics/single_chain/efjc/thermodynamics/isotensional/asymptotic/alternative/mod.rs`: the gibbs methods of `EFJC`. -/
noncomputable def efjc_isotensional_asymptotic_alternative_gibbs (N : ℕ) (ℓ : ℝ) (m : ℝ) (k : ℝ) : EnergyMethodsS :=
  let s := (Polymers.efjc.EFJC.init N (val ℓ) (val m) (val k)).thermodynamics.isotensional.asymptotic.alternative
  { energy := fun x T => s.gibbs_free_energy (val x) (val T)
    energy_per_link := fun x T => s.gibbs_free_energy_per_link (val x) (val T)
    relative := fun x T => s.relative_gibbs_free_energy (val x) (val T)
    relative_per_link := fun x T => s.relative_gibbs_free_energy_per_link (val x) (val T)
    nd_energy := fun x T => s.nondimensional_gibbs_free_energy (val x) (val T)
    nd_energy_per_link := fun x T => s.nondimensional_gibbs_free_energy_per_link (val x) (val T)
    nd_relative := fun x T => s.nondimensional_relative_gibbs_free_energy (val x) (val T)
    nd_relative_per_link := fun x T => s.nondimensional_relative_gibbs_free_energy_per_link (val x) (val T) }

/-- `src/physics/single_chain/efjc/thermodynamics/isotensional/asymptotic/alternative/mod.rs`: the lengths methods of `EFJC`. -/
noncomputable def efjc_isotensional_asymptotic_alternative_lengths (N : ℕ) (ℓ : ℝ) (m : ℝ) (k : ℝ) : LengthMethodsS :=
  let s := (Polymers.efjc.EFJC.init N (val ℓ) (val m) (val k)).thermodynamics.isotensional.asymptotic.alternative
  { length := fun x T => s.end_to_end_length (val x) (val T)
    length_per_link := fun x T => s.end_to_end_length_per_link (val x) (val T)
    nd_length := fun x T => s.nondimensional_end_to_end_length (val x) (val T)
    nd_length_per_link := fun x T => s.nondimensional_end_to_end_length_per_link (val x) (val T) }

/-- `src/physics/single_chain/efjc/thermodynamics/isotensional/asymptotic/legendre/mod.rs`: the helmholtz methods of `EFJC`. -/
noncomputable def efjc_isotensional_asymptotic_legendre_helmholtz (N : ℕ) (ℓ : ℝ) (m : ℝ) (k : ℝ) : EnergyMethodsS :=
  let s := (Polymers.efjc.EFJC.init N (val ℓ) (val m) (val k)).thermodynamics.isotensional.asymptotic.legendre
  { energy := fun x T => s.helmholtz_free_energy (val x) (val T)
    energy_per_link := fun x T => s.helmholtz_free_energy_per_link (val x) (val T)
    relative := fun x T => s.relative_helmholtz_free_energy (val x) (val T)
    relative_per_link := fun x T => s.relative_helmholtz_free_energy_per_link (val x) (val T)
    nd_energy := fun x T => s.nondimensional_helmholtz_free_energy (val x) (val T)
    nd_energy_per_link := fun x T => s.nondimensional_helmholtz_free_energy_per_link (val x) (val T)
    nd_relative := fun x T => s.nondimensional_relative_helmholtz_free_energy (val x) (val T)
    nd_relative_per_link := fun x T => s.nondimensional_relative_helmholtz_free_energy_per_link (val x) (val T) }

/-- `src/physics/single_chain/efjc/thermodynamics/isotensional/asymptotic/reduced/mod.rs`: the gibbs methods of `EFJC`. -/
noncomputable def efjc_isotensional_asymptotic_reduced_gibbs (N : ℕ) (ℓ : ℝ) (m : ℝ) (k : ℝ) : EnergyMethodsS :=
  let s := (Polymers.efjc.EFJC.init N (val ℓ) (val m) (val k)).thermodynamics.isotensional.asymptotic.reduced
  { energy := fun x T => s.gibbs_free_energy (val x) (val T)
    energy_per_link := fun x T => s.gibbs_free_energy_per_link (val x) (val T)
    relative := fun x T => s.relative_gibbs_free_energy (val x) (val T)
    relative_per_link := fun x T => s.relative_gibbs_free_energy_per_link (val x) (val T)
    nd_energy := fun x T => s.nondimensional_gibbs_free_energy (val x) (val T)
    nd_energy_per_link := fun x T => s.nondimensional_gibbs_free_energy_per_link (val x) (val T)
    nd_relative := fun x T => s.nondimensional_relative_gibbs_free_energy (val x) (val T)
    nd_relative_per_link := fun x T => s.nondimensional_relative_gibbs_free_energy_per_link (val x) (val T) }

/-- `src/physics/single_chain/efjc/thermodynamics/isotensional/asymptotic/reduced/mod.rs`: the lengths methods of `EFJC`. -/
noncomputable def efjc_isotensional_asymptotic_reduced_lengths (N : ℕ) (ℓ : ℝ) (m : ℝ) (k : ℝ) : LengthMethodsS :=
  let s := (Polymers.efjc.EFJC.init N (val ℓ) (val m) (val k)).thermodynamics.isotensional.asymptotic.reduced
  { length := fun x T => s.end_to_end_length (val x) (val T)
    length_per_link := fun x T => s.end_to_end_length_per_link (val x) (val T)
    nd_length := fun x T => s.nondimensional_end_to_end_length (val x) (val T)
    nd_length_per_link := fun x T => s.nondimensional_end_to_end_length_per_link (val x) (val T) }

/-- `src/physics/single_chain/efjc/thermodynamics/isotensional/asymptotic/mod.rs`: the gibbs methods of `EFJC`. -/
noncomputable def efjc_isotensional_asymptotic_gibbs (N : ℕ) (ℓ : ℝ) (m : ℝ) (k : ℝ) : EnergyMethodsS :=
  let s := (Polymers.efjc.EFJC.init N (val ℓ) (val m) (val k)).thermodynamics.isotensional.asymptotic
  { energy := fun x T => s.gibbs_free_energy (val x) (val T)
    energy_per_link := fun x T => s.gibbs_free_energy_per_link (val x) (val T)
    relative := fun x T => s.relative_gibbs_free_energy (val x) (val T)
    relative_per_link := fun x T => s.relative_gibbs_free_energy_per_link (val x) (val T)
    nd_energy := fun x T => s.nondimensional_gibbs_free_energy (val x) (val T)
    nd_energy_per_link := fun x T => s.nondimensional_gibbs_free_energy_per_link (val x) (val T)
    nd_relative := fun x T => s.nondimensional_relative_gibbs_free_energy (val x) (val T)
    nd_relative_per_link := fun x T => s.nondimensional_relative_gibbs_free_energy_per_link (val x) (val T) }

/-- `src/physics/single_chain/efjc/thermodynamics/isotensional/asymptotic/mod.rs`: the lengths methods of `EFJC`. -/
noncomputable def efjc_isotensional_asymptotic_lengths (N : ℕ) (ℓ : ℝ) (m : ℝ) (k : ℝ) : LengthMethodsS :=
  let s := (Polymers.efjc.EFJC.init N (val ℓ) (val m) (val k)).thermodynamics.isotensional.asymptotic
  { length := fun x T => s.end_to_end_length (val x) (val T)
    length_per_link := fun x T => s.end_to_end_length_per_link (val x) (val T)
    nd_length := fun x T => s.nondimensional_end_to_end_length (val x) (val T)
    nd_length_per_link := fun x T => s.nondimensional_end_to_end_length_per_link (val x) (val T) }

/-- `src/physics/single_chain/efjc/thermodynamics/isotensional/legendre/mod.rs`: the helmholtz methods of `EFJC`. -/
noncomputable def efjc_isotensional_legendre_helmholtz (N : ℕ) (ℓ : ℝ) (m : ℝ) (k : ℝ) : EnergyMethodsS :=
  let s := (Polymers.efjc.EFJC.init N (val ℓ) (val m) (val k)).thermodynamics.isotensional.legendre
  { energy := fun x T => s.helmholtz_free_energy (val x) (val T)
    energy_per_link := fun x T => s.helmholtz_free_energy_per_link (val x) (val T)
    relative := fun x T => s.relative_helmholtz_free_energy (val x) (val T)
    relative_per_link := fun x T => s.relative_helmholtz_free_energy_per_link (val x) (val T)
    nd_energy := fun x T => s.nondimensional_helmholtz_free_energy (val x) (val T)
    nd_energy_per_link := fun x T => s.nondimensional_helmholtz_free_energy_per_link (val x) (val T)
    nd_relative := fun x T => s.nondimensional_relative_helmholtz_free_energy (val x) (val T)
    nd_relative_per_link := fun x T => s.nondimensional_relative_helmholtz_free_energy_per_link (val x) (val T) }

/-- `src/physics/single_chain/efjc/thermodynamics/isotensional/mod.rs`: the gibbs methods of `EFJC`. -/
noncomputable def efjc_isotensional_gibbs (N : ℕ) (ℓ : ℝ) (m : ℝ) (k : ℝ) : EnergyMethodsS :=
  let s := (Polymers.efjc.EFJC.init N (val ℓ) (val m) (val k)).thermodynamics.isotensional
  { energy := fun x T => s.gibbs_free_energy (val x) (val T)
    energy_per_link := fun x T => s.gibbs_free_energy_per_link (val x) (val T)
    relative := fun x T => s.relative_gibbs_free_energy (val x) (val T)
    relative_per_link := fun x T => s.relative_gibbs_free_energy_per_link (val x) (val T)
    nd_energy := fun x T => s.nondimensional_gibbs_free_energy (val x) (val T)
    nd_energy_per_link := fun x T => s.nondimensional_gibbs_free_energy_per_link (val x) (val T)
    nd_relative := fun x T => s.nondimensional_relative_gibbs_free_energy (val x) (val T)
    nd_relative_per_link := fun x T => s.nondimensional_relative_gibbs_free_energy_per_link (val x) (val T) }

/-- `src/physics/single_chain/efjc/thermodynamics/isotensional/mod.rs`: the lengths methods of `EFJC`. -/
noncomputable def efjc_isotensional_lengths (N : ℕ) (ℓ : ℝ) (m : ℝ) (k : ℝ) : LengthMethodsS :=
  let s := (Polymers.efjc.EFJC.init N (val ℓ) (val m) (val k)).thermodynamics.isotensional
  { length := fun x T => s.end_to_end_length (val x) (val T)
    length_per_link := fun x T => s.end_to_end_length_per_link (val x) (val T)
    nd_length := fun x T => s.nondimensional_end_to_end_length (val x) (val T)
    nd_length_per_link := fun x T => s.nondimensional_end_to_end_length_per_link (val x) (val T) }

/-- `src/physics/single_chain/swfjc/thermodynamics/isometric/legendre/mod.rs`: the helmholtz methods of `SWFJC`. -/
noncomputable def swfjc_isometric_legendre_helmholtz (N : ℕ) (ℓ : ℝ) (m : ℝ) (w : ℝ) : EnergyMethodsS :=
  let s := (Polymers.swfjc.SWFJC.init N (val ℓ) (val m) (val w)).thermodynamics.isometric.legendre
  { energy := fun x T => s.helmholtz_free_energy (val x) (val T)
    energy_per_link := fun x T => s.helmholtz_free_energy_per_link (val x) (val T)
    relative := fun x T => s.relative_helmholtz_free_energy (val x) (val T)
    relative_per_link := fun x T => s.relative_helmholtz_free_energy_per_link (val x) (val T)
    nd_energy := fun x T => s.nondimensional_helmholtz_free_energy (val x) (val T)
    nd_energy_per_link := fun x T => s.nondimensional_helmholtz_free_energy_per_link (val x) (val T)
    nd_relative := fun x _ => s.nondimensional_relative_helmholtz_free_energy (val x)
    nd_relative_per_link := fun x _ => s.nondimensional_relative_helmholtz_free_energy_per_link (val x) }

/-- `src/physics/single_chain/swfjc/thermodynamics/isometric/legendre/mod.rs`: the forces methods of `SWFJC`. -/
noncomputable def swfjc_isometric_legendre_forces (N : ℕ) (ℓ : ℝ) (m : ℝ) (w : ℝ) : ForceMethodsS :=
  let s := (Polymers.swfjc.SWFJC.init N (val ℓ) (val m) (val w)).thermodynamics.isometric.legendre
  { force := fun x T => s.force (val x) (val T)
    nd_force := fun x _ => s.nondimensional_force (val x) }

/-- `src/physics/single_chain/swfjc/thermodynamics/isometric/legendre/mod.rs`: the distribution methods of `SWFJC`. -/
noncomputable def swfjc_isometric_legendre_distribution (N : ℕ) (ℓ : ℝ) (m : ℝ) (w : ℝ) : DistributionMethodsS :=
  let s := (Polymers.swfjc.SWFJC.init N (val ℓ) (val m) (val w)).thermodynamics.isometric.legendre
  { density := fun x => s.equilibrium_distribution (val x)
    nd_density := fun x => s.nondimensional_equilibrium_distribution (val x)
    radial := fun x => s.equilibrium_radial_distribution (val x)
    nd_radial := fun x => s.nondimensional_equilibrium_radial_distribution (val x) }

/-- `src/physics/single_chain/swfjc/thermodynamics/isotensional/legendre/mod.rs`: the helmholtz methods of `SWFJC`. -/
noncomputable def swfjc_isotensional_legendre_helmholtz (N : ℕ) (ℓ : ℝ) (m : ℝ) (w : ℝ) : EnergyMethodsS :=
  let s := (Polymers.swfjc.SWFJC.init N (val ℓ) (val m) (val w)).thermodynamics.isotensional.legendre
  { energy := fun x T => s.helmholtz_free_energy (val x) (val T)
    energy_per_link := fun x T => s.helmholtz_free_energy_per_link (val x) (val T)
    relative := fun x T => s.relative_helmholtz_free_energy (val x) (val T)
    relative_per_link := fun x T => s.relative_helmholtz_free_energy_per_link (val x) (val T)
    nd_energy := fun x T => s.nondimensional_helmholtz_free_energy (val x) (val T)
    nd_energy_per_link := fun x T => s.nondimensional_helmholtz_free_energy_per_link (val x) (val T)
    nd_relative := fun x _ => s.nondimensional_relative_helmholtz_free_energy (val x)
    nd_relative_per_link := fun x _ => s.nondimensional_relative_helmholtz_free_energy_per_link (val x) }

/-- `src/physics/single_chain/swfjc/thermodynamics/isotensional/mod.rs`: the gibbs methods of `SWFJC`. -/
noncomputable def swfjc_isotensional_gibbs (N : ℕ) (ℓ : ℝ) (m : ℝ) (w : ℝ) : EnergyMethodsS :=
  let s := (Polymers.swfjc.SWFJC.init N (val ℓ) (val m) (val w)).thermodynamics.isotensional
  { energy := fun x T => s.gibbs_free_energy (val x) (val T)
    energy_per_link := fun x T => s.gibbs_free_energy_per_link (val x) (val T)
    relative := fun x T => s.relative_gibbs_free_energy (val x) (val T)
    relative_per_link := fun x T => s.relative_gibbs_free_energy_per_link (val x) (val T)
    nd_energy := fun x T => s.nondimensional_gibbs_free_energy (val x) (val T)
    nd_energy_per_link := fun x T => s.nondimensional_gibbs_free_energy_per_link (val x) (val T)
    nd_relative := fun x _ => s.nondimensional_relative_gibbs_free_energy (val x)
    nd_relative_per_link := fun x _ => s.nondimensional_relative_gibbs_free_energy_per_link (val x) }

/-- `src/physics/single_chain/swfjc/thermodynamics/isotensional/mod.rs`: the lengths methods of `SWFJC`. -/
noncomputable def swfjc_isotensional_lengths (N : ℕ) (ℓ : ℝ) (m : ℝ) (w : ℝ) : LengthMethodsS :=
  let s := (Polymers.swfjc.SWFJC.init N (val ℓ) (val m) (val w)).thermodynamics.isotensional
  { length := fun x T => s.end_to_end_length (val x) (val T)
    length_per_link := fun x T => s.end_to_end_length_per_link (val x) (val T)
    nd_length := fun x _ => s.nondimensional_end_to_end_length (val x)
    nd_length_per_link := fun x _ => s.nondimensional_end_to_end_length_per_link (val x) }

/-- `src/physics/single_chain/ufjc/lennard_jones/thermodynamics/isometric/asymptotic/reduced/legendre/mod.rs`: the helmholtz methods of `LENNARDJONESFJC`. -/
noncomputable def lennard_jones_isometric_asymptotic_reduced_legendre_helmholtz (N : ℕ) (ℓ : ℝ) (m : ℝ) (k : ℝ) : EnergyMethodsS :=
  let s := (Polymers.ufjc.lennard_jones.LENNARDJONESFJC.init N (val ℓ) (val m) (val k)).thermodynamics.isometric.asymptotic.reduced.legendre
  { energy := fun x T => s.helmholtz_free_energy (val x) (val T)
    energy_per_link := fun x T => s.helmholtz_free_energy_per_link (val x) (val T)
    relative := fun x T => s.relative_helmholtz_free_energy (val x) (val T)
    relative_per_link := fun x T => s.relative_helmholtz_free_energy_per_link (val x) (val T)
    nd_energy := fun x T => s.nondimensional_helmholtz_free_energy (val x) (val T)
    nd_energy_per_link := fun x T => s.nondimensional_helmholtz_free_energy_per_link (val x) (val T)
    nd_relative := fun x T => s.nondimensional_relative_helmholtz_free_energy (val x) (val T)
    nd_relative_per_link := fun x T => s.nondimensional_relative_helmholtz_free_energy_per_link (val x) (val T) }

/-- `src/physics/single_chain/ufjc/lennard_jones/thermodynamics/isometric/asymptotic/reduced/legendre/mod.rs`: the forces methods of `LENNARDJONESFJC`. -/
noncomputable def lennard_jones_isometric_asymptotic_reduced_legendre_forces (N : ℕ) (ℓ : ℝ) (m : ℝ) (k : ℝ) : ForceMethodsS :=
  let s := (Polymers.ufjc.lennard_jones.LENNARDJONESFJC.init N (val ℓ) (val m) (val k)).thermodynamics.isometric.asymptotic.reduced.legendre
  { force := fun x T => s.force (val x) (val T)
    nd_force := fun x T => s.nondimensional_force (val x) (val T) }

/-- `src/physics/single_chain/ufjc/lennard_jones/thermodynamics/isotensional/asymptotic/reduced/legendre/mod.rs`: the helmholtz methods of `LENNARDJONESFJC`. -/
noncomputable def lennard_jones_isotensional_asymptotic_reduced_legendre_helmholtz (N : ℕ) (ℓ : ℝ) (m : ℝ) (k : ℝ) : EnergyMethodsS :=
  let s := (Polymers.ufjc.lennard_jones.LENNARDJONESFJC.init N (val ℓ) (val m) (val k)).thermodynamics.isotensional.asymptotic.reduced.legendre
  { energy := fun x T => s.helmholtz_free_energy (val x) (val T)
    energy_per_link := fun x T => s.helmholtz_free_energy_per_link (val x) (val T)
    relative := fun x T => s.relative_helmholtz_free_energy (val x) (val T)
    relative_per_link := fun x T => s.relative_helmholtz_free_energy_per_link (val x) (val T)
    nd_energy := fun x T => s.nondimensional_helmholtz_free_energy (val x) (val T)
    nd_energy_per_link := fun x T => s.nondimensional_helmholtz_free_energy_per_link (val x) (val T)
    nd_relative := fun x T => s.nondimensional_relative_helmholtz_free_energy (val x) (val T)
    nd_relative_per_link := fun x T => s.nondimensional_relative_helmholtz_free_energy_per_link (val x) (val T) }

/-- `src/physics/single_chain/ufjc/lennard_jones/thermodynamics/isometric/asymptotic/legendre/mod.rs`: the helmholtz methods of `LENNARDJONESFJC`. -/
noncomputable def lennard_jones_isometric_asymptotic_legendre_helmholtz (N : ℕ) (ℓ : ℝ) (m : ℝ) (k : ℝ) : EnergyMethodsS :=
  let s := (Polymers.ufjc.lennard_jones.LENNARDJONESFJC.init N (val ℓ) (val m) (val k)).thermodynamics.isometric.asymptotic.legendre
  { energy := fun x T => s.helmholtz_free_energy (val x) (val T)
    energy_per_link := fun x T => s.helmholtz_free_energy_per_link (val x) (val T)
    relative := fun x T => s.relative_helmholtz_free_energy (val x) (val T)
    relative_per_link := fun x T => s.relative_helmholtz_free_energy_per_link (val x) (val T)
    nd_energy := fun x T => s.nondimensional_helmholtz_free_energy (val x) (val T)
    nd_energy_per_link := fun x T => s.nondimensional_helmholtz_free_energy_per_link (val x) (val T)
    nd_relative := fun x T => s.nondimensional_relative_helmholtz_free_energy (val x) (val T)
    nd_relative_per_link := fun x T => s.nondimensional_relative_helmholtz_free_energy_per_link (val x) (val T) }

/-- `src/physics/single_chain/ufjc/lennard_jones/thermodynamics/isometric/asymptotic/legendre/mod.rs`: the forces methods of `LENNARDJONESFJC`. -/
noncomputable def lennard_jones_isometric_asymptotic_legendre_forces (N : ℕ) (ℓ : ℝ) (m : ℝ) (k : ℝ) : ForceMethodsS :=
  let s := (Polymers.ufjc.lennard_jones.LENNARDJONESFJC.init N (val ℓ) (val m) (val k)).thermodynamics.isometric.asymptotic.legendre
  { force := fun x T => s.force (val x) (val T)
    nd_force := fun x T => s.nondimensional_force (val x) (val T) }

/-- `src/physics/single_chain/ufjc/lennard_jones/thermodynamics/isotensional/asymptotic/legendre/mod.rs`: the helmholtz methods of `LENNARDJONESFJC`. -/
noncomputable def lennard_jones_isotensional_asymptotic_legendre_helmholtz (N : ℕ) (ℓ : ℝ) (m : ℝ) (k : ℝ) : EnergyMethodsS :=
  let s := (Polymers.ufjc.lennard_jones.LENNARDJONESFJC.init N (val ℓ) (val m) (val k)).thermodynamics.isotensional.asymptotic.legendre
  { energy := fun x T => s.helmholtz_free_energy (val x) (val T)
    energy_per_link := fun x T => s.helmholtz_free_energy_per_link (val x) (val T)
    relative := fun x T => s.relative_helmholtz_free_energy (val x) (val T)
    relative_per_link := fun x T => s.relative_helmholtz_free_energy_per_link (val x) (val T)
    nd_energy := fun x T => s.nondimensional_helmholtz_free_energy (val x) (val T)
    nd_energy_per_link := fun x T => s.nondimensional_helmholtz_free_energy_per_link (val x) (val T)
    nd_relative := fun x T => s.nondimensional_relative_helmholtz_free_energy (val x) (val T)
    nd_relative_per_link := fun x T => s.nondimensional_relative_helmholtz_free_energy_per_link (val x) (val T) }

/-- `src/physics/single_chain/ufjc/lennard_jones/thermodynamics/isotensional/asymptotic/reduced/mod.rs`: the gibbs methods of `LENNARDJONESFJC`. -/
noncomputable def lennard_jones_isotensional_asymptotic_reduced_gibbs (N : ℕ) (ℓ : ℝ) (m : ℝ) (k : ℝ) : EnergyMethodsS :=
  let s := (Polymers.ufjc.lennard_jones.LENNARDJONESFJC.init N (val ℓ) (val m) (val k)).thermodynamics.isotensional.asymptotic.reduced
  { energy := fun x T => s.gibbs_free_energy (val x) (val T)
    energy_per_link := fun x T => s.gibbs_free_energy_per_link (val x) (val T)
    relative := fun x T => s.relative_gibbs_free_energy (val x) (val T)
    relative_per_link := fun x T => s.relative_gibbs_free_energy_per_link (val x) (val T)
    nd_energy := fun x T => s.nondimensional_gibbs_free_energy (val x) (val T)
    nd_energy_per_link := fun x T => s.nondimensional_gibbs_free_energy_per_link (val x) (val T)
    nd_relative := fun x T => s.nondimensional_relative_gibbs_free_energy (val x) (val T)
    nd_relative_per_link := fun x T => s.nondimensional_relative_gibbs_free_energy_per_link (val x) (val T) }

/-- `src/physics/single_chain/ufjc/lennard_jones/thermodynamics/isotensional/asymptotic/reduced/mod.rs`: the lengths methods of `LENNARDJONESFJC`. -/
noncomputable def lennard_jones_isotensional_asymptotic_reduced_lengths (N : ℕ) (ℓ : ℝ) (m : ℝ) (k : ℝ) : LengthMethodsS :=
  let s := (Polymers.ufjc.lennard_jones.LENNARDJONESFJC.init N (val ℓ) (val m) (val k)).thermodynamics.isotensional.asymptotic.reduced
  { length := fun x T => s.end_to_end_length (val x) (val T)
    length_per_link := fun x T => s.end_to_end_length_per_link (val x) (val T)
    nd_length := fun x T => s.nondimensional_end_to_end_length (val x) (val T)
    nd_length_per_link := fun x T => s.nondimensional_end_to_end_length_per_link (val x) (val T) }

/-- `src/physics/single_chain/ufjc/lennard_jones/thermodynamics/isotensional/asymptotic/mod.rs`: the gibbs methods of `LENNARDJONESFJC`. -/
noncomputable def lennard_jones_isotensional_asymptotic_gibbs (N : ℕ) (ℓ : ℝ) (m : ℝ) (k : ℝ) : EnergyMethodsS :=
  let s := (Polymers.ufjc.lennard_jones.LENNARDJONESFJC.init N (val ℓ) (val m) (val k)).thermodynamics.isotensional.asymptotic
  { energy := fun x T => s.gibbs_free_energy (val x) (val T)
    energy_per_link := fun x T => s.gibbs_free_energy_per_link (val x) (val T)
    relative := fun x T => s.relative_gibbs_free_energy (val x) (val T)
    relative_per_link := fun x T => s.relative_gibbs_free_energy_per_link (val x) (val T)
    nd_energy := fun x T => s.nondimensional_gibbs_free_energy (val x) (val T)
    nd_energy_per_link := fun x T => s.nondimensional_gibbs_free_energy_per_link (val x) (val T)
    nd_relative := fun x T => s.nondimensional_relative_gibbs_free_energy (val x) (val T)
    nd_relative_per_link := fun x T => s.nondimensional_relative_gibbs_free_energy_per_link (val x) (val T) }

/-- `src/physics/single_chain/ufjc/lennard_jones/thermodynamics/isotensional/asymptotic/mod.rs`: the lengths methods of `LENNARDJONESFJC`. -/
noncomputable def lennard_jones_isotensional_asymptotic_lengths (N : ℕ) (ℓ : ℝ) (m : ℝ) (k : ℝ) : LengthMethodsS :=
  let s := (Polymers.ufjc.lennard_jones.LENNARDJONESFJC.init N (val ℓ) (val m) (val k)).thermodynamics.isotensional.asymptotic
  { length := fun x T => s.end_to_end_length (val x) (val T)
    length_per_link := fun x T => s.end_to_end_length_per_link (val x) (val T)
    nd_length := fun x T => s.nondimensional_end_to_end_length (val x) (val T)
    nd_length_per_link := fun x T => s.nondimensional_end_to_end_length_per_link (val x) (val T) }

/-- `src/physics/single_chain/ufjc/lennard_jones/thermodynamics/isotensional/legendre/mod.rs`: the helmholtz methods of `LENNARDJONESFJC`. -/
noncomputable def lennard_jones_isotensional_legendre_helmholtz (N : ℕ) (ℓ : ℝ) (m : ℝ) (k : ℝ) : EnergyMethodsS :=
  let s := (Polymers.ufjc.lennard_jones.LENNARDJONESFJC.init N (val ℓ) (val m) (val k)).thermodynamics.isotensional.legendre
  { energy := fun x T => s.helmholtz_free_energy (val x) (val T)
    energy_per_link := fun x T => s.helmholtz_free_energy_per_link (val x) (val T)
    relative := fun x T => s.relative_helmholtz_free_energy (val x) (val T)
    relative_per_link := fun x T => s.relative_helmholtz_free_energy_per_link (val x) (val T)
    nd_energy := fun x T => s.nondimensional_helmholtz_free_energy (val x) (val T)
    nd_energy_per_link := fun x T => s.nondimensional_helmholtz_free_energy_per_link (val x) (val T)
    nd_relative := fun x T => s.nondimensional_relative_helmholtz_free_energy (val x) (val T)
    nd_relative_per_link := fun x T => s.nondimensional_relative_helmholtz_free_energy_per_link (val x) (val T) }

/-- `src/physics/single_chain/ufjc/lennard_jones/thermodynamics/isotensional/mod.rs`: the gibbs methods of `LENNARDJONESFJC`. -/
noncomputable def lennard_jones_isotensional_gibbs (N : ℕ) (ℓ : ℝ) (m : ℝ) (k : ℝ) : EnergyMethodsS :=
  let s := (Polymers.ufjc.lennard_jones.LENNARDJONESFJC.init N (val ℓ) (val m) (val k)).thermodynamics.isotensional
  { energy := fun x T => s.gibbs_free_energy (val x) (val T)
    energy_per_link := fun x T => s.gibbs_free_energy_per_link (val x) (val T)
    relative := fun x T => s.relative_gibbs_free_energy (val x) (val T)
    relative_per_link := fun x T => s.relative_gibbs_free_energy_per_link (val x) (val T)
    nd_energy := fun x T => s.nondimensional_gibbs_free_energy (val x) (val T)
    nd_energy_per_link := fun x T => s.nondimensional_gibbs_free_energy_per_link (val x) (val T)
    nd_relative := fun x T => s.nondimensional_relative_gibbs_free_energy (val x) (val T)
    nd_relative_per_link := fun x T => s.nondimensional_relative_gibbs_free_energy_per_link (val x) (val T) }

/-- `src/physics/single_chain/ufjc/lennard_jones/thermodynamics/isotensional/mod.rs`: the lengths methods of `LENNARDJONESFJC`. -/
noncomputable def lennard_jones_isotensional_lengths (N : ℕ) (ℓ : ℝ) (m : ℝ) (k : ℝ) : LengthMethodsS :=
  let s := (Polymers.ufjc.lennard_jones.LENNARDJONESFJC.init N (val ℓ) (val m) (val k)).thermodynamics.isotensional
  { length := fun x T => s.end_to_end_length (val x) (val T)
    length_per_link := fun x T => s.end_to_end_length_per_link (val x) (val T)
    nd_length := fun x T => s.nondimensional_end_to_end_length (val x) (val T)
    nd_length_per_link := fun x T => s.nondimensional_end_to_end_length_per_link (val x) (val T) }

/-- `src/physics/single_chain/ufjc/log_squared/thermodynamics/isometric/asymptotic/reduced/legendre/mod.rs`: the helmholtz methods of `LOGSQUAREDFJC`. -/
noncomputable def log_squared_isometric_asymptotic_reduced_legendre_helmholtz (N : ℕ) (ℓ : ℝ) (m : ℝ) (k : ℝ) : EnergyMethodsS :=
  let s := (Polymers.ufjc.log_squared.LOGSQUAREDFJC.init N (val ℓ) (val m) (val k)).thermodynamics.isometric.asymptotic.reduced.legendre
  { energy := fun x T => s.helmholtz_free_energy (val x) (val T)
    energy_per_link := fun x T => s.helmholtz_free_energy_per_link (val x) (val T)
    relative := fun x T => s.relative_helmholtz_free_energy (val x) (val T)
    relative_per_link := fun x T => s.relative_helmholtz_free_energy_per_link (val x) (val T)
    nd_energy := fun x T => s.nondimensional_helmholtz_free_energy (val x) (val T)
    nd_energy_per_link := fun x T => s.nondimensional_helmholtz_free_energy_per_link (val x) (val T)
    nd_relative := fun x T => s.nondimensional_relative_helmholtz_free_energy (val x) (val T)
    nd_relative_per_link := fun x T => s.nondimensional_relative_helmholtz_free_energy_per_link (val x) (val T) }

/-- `src/physics/single_chain/ufjc/log_squared/thermodynamics/isometric/asymptotic/reduced/legendre/mod.rs`: the forces methods of `LOGSQUAREDFJC`. -/
noncomputable def log_squared_isometric_asymptotic_reduced_legendre_forces (N : ℕ) (ℓ : ℝ) (m : ℝ) (k : ℝ) : ForceMethodsS :=
  let s := (Polymers.ufjc.log_squared.LOGSQUAREDFJC.init N (val ℓ) (val m) (val k)).thermodynamics.isometric.asymptotic.reduced.legendre
  { force := fun x T => s.force (val x) (val T)
    nd_force := fun x T => s.nondimensional_force (val x) (val T) }

/-- `src/physics/single_chain/ufjc/log_squared/thermodynamics/isotensional/asymptotic/reduced/legendre/mod.rs`: the helmholtz methods of `LOGSQUAREDFJC`. -/
noncomputable def log_squared_isotensional_asymptotic_reduced_legendre_helmholtz (N : ℕ) (ℓ : ℝ) (m : ℝ) (k : ℝ) : EnergyMethodsS :=
  let s := (Polymers.ufjc.log_squared.LOGSQUAREDFJC.init N (val ℓ) (val m) (val k)).thermodynamics.isotensional.asymptotic.reduced.legendre
  { energy := fun x T => s.helmholtz_free_energy (val x) (val T)
    energy_per_link := fun x T => s.helmholtz_free_energy_per_link (val x) (val T)
    relative := fun x T => s.relative_helmholtz_free_energy (val x) (val T)
    relative_per_link := fun x T => s.relative_helmholtz_free_energy_per_link (val x) (val T)
    nd_energy := fun x T => s.nondimensional_helmholtz_free_energy (val x) (val T)
    nd_energy_per_link := fun x T => s.nondimensional_helmholtz_free_energy_per_link (val x) (val T)
    nd_relative := fun x T => s.nondimensional_relative_helmholtz_free_energy (val x) (val T)
    nd_relative_per_link := fun x T => s.nondimensional_relative_helmholtz_free_energy_per_link (val x) (val T) }

/-- `src/physics/single_chain/ufjc/log_squared/thermodynamics/isometric/asymptotic/legendre/mod.rs`: the helmholtz methods of `LOGSQUAREDFJC`. -/
noncomputable def log_squared_isometric_asymptotic_legendre_helmholtz (N : ℕ) (ℓ : ℝ) (m : ℝ) (k : ℝ) : EnergyMethodsS :=
  let s := (Polymers.ufjc.log_squared.LOGSQUAREDFJC.init N (val ℓ) (val m) (val k)).thermodynamics.isometric.asymptotic.legendre
  { energy := fun x T => s.helmholtz_free_energy (val x) (val T)
    energy_per_link := fun x T => s.helmholtz_free_energy_per_link (val x) (val T)
    relative := fun x T => s.relative_helmholtz_free_energy (val x) (val T)
    relative_per_link := fun x T => s.relative_helmholtz_free_energy_per_link (val x) (val T)
    nd_energy := fun x T => s.nondimensional_helmholtz_free_energy (val x) (val T)
    nd_energy_per_link := fun x T => s.nondimensional_helmholtz_free_energy_per_link (val x) (val T)
    nd_relative := fun x T => s.nondimensional_relative_helmholtz_free_energy (val x) (val T)
    nd_relative_per_link := fun x T => s.nondimensional_relative_helmholtz_free_energy_per_link (val x) (val T) }

/-- `src/physics/single_chain/ufjc/log_squared/thermodynamics/isometric/asymptotic/legendre/mod.rs`: the forces methods of `LOGSQUAREDFJC`. -/
noncomputable def log_squared_isometric_asymptotic_legendre_forces (N : ℕ) (ℓ : ℝ) (m : ℝ) (k : ℝ) : ForceMethodsS :=
  let s := (Polymers.ufjc.log_squared.LOGSQUAREDFJC.init N (val ℓ) (val m) (val k)).thermodynamics.isometric.asymptotic.legendre
  { force := fun x T => s.force (val x) (val T)
    nd_force := fun x T => s.nondimensional_force (val x) (val T) }

/-- `src/physics/single_chain/ufjc/log_squared/thermodynamics/isotensional/asymptotic/legendre/mod.rs`: the helmholtz methods of `LOGSQUAREDFJC`. -/
noncomputable def log_squared_isotensional_asymptotic_legendre_helmholtz (N : ℕ) (ℓ : ℝ) (m : ℝ) (k : ℝ) : EnergyMethodsS :=
  let s := (Polymers.ufjc.log_squared.LOGSQUAREDFJC.init N (val ℓ) (val m) (val k)).thermodynamics.isotensional.asymptotic.legendre
  { energy := fun x T => s.helmholtz_free_energy (val x) (val T)
    energy_per_link := fun x T => s.helmholtz_free_energy_per_link (val x) (val T)
    relative := fun x T => s.relative_helmholtz_free_energy (val x) (val T)
    relative_per_link := fun x T => s.relative_helmholtz_free_energy_per_link (val x) (val T)
    nd_energy := fun x T => s.nondimensional_helmholtz_free_energy (val x) (val T)
    nd_energy_per_link := fun x T => s.nondimensional_helmholtz_free_energy_per_link (val x) (val T)
    nd_relative := fun x T => s.nondimensional_relative_helmholtz_free_energy (val x) (val T)
    nd_relative_per_link := fun x T => s.nondimensional_relative_helmholtz_free_energy_per_link (val x) (val T) }

/-- `src/physics/single_chain/ufjc/log_squared/thermodynamics/isotensional/asymptotic/reduced/mod.rs`: the gibbs methods of `LOGSQUAREDFJC`. -/
noncomputable def log_squared_isotensional_asymptotic_reduced_gibbs (N : ℕ) (ℓ : ℝ) (m : ℝ) (k : ℝ) : EnergyMethodsS :=
  let s := (Polymers.ufjc.log_squared.LOGSQUAREDFJC.init N (val ℓ) (val m) (val k)).thermodynamics.isotensional.asymptotic.reduced
  { energy := fun x T => s.gibbs_free_energy (val x) (val T)
    energy_per_link := fun x T => s.gibbs_free_energy_per_link (val x) (val T)
    relative := fun x T => s.relative_gibbs_free_energy (val x) (val T)
    relative_per_link := fun x T => s.relative_gibbs_free_energy_per_link (val x) (val T)
    nd_energy := fun x T => s.nondimensional_gibbs_free_energy (val x) (val T)
    nd_energy_per_link := fun x T => s.nondimensional_gibbs_free_energy_per_link (val x) (val T)
    nd_relative := fun x T => s.nondimensional_relative_gibbs_free_energy (val x) (val T)
    nd_relative_per_link := fun x T => s.nondimensional_relative_gibbs_free_energy_per_link (val x) (val T) }

/-- `src/physics/single_chain/ufjc/log_squared/thermodynamics/isotensional/asymptotic/reduced/mod.rs`: the lengths methods of `LOGSQUAREDFJC`. -/
noncomputable def log_squared_isotensional_asymptotic_reduced_lengths (N : ℕ) (ℓ : ℝ) (m : ℝ) (k : ℝ) : LengthMethodsS :=
  let s := (Polymers.ufjc.log_squared.LOGSQUAREDFJC.init N (val ℓ) (val m) (val k)).thermodynamics.isotensional.asymptotic.reduced
  { length := fun x T => s.end_to_end_length (val x) (val T)
    length_per_link := fun x T => s.end_to_end_length_per_link (val x) (val T)
    nd_length := fun x T => s.nondimensional_end_to_end_length (val x) (val T)
    nd_length_per_link := fun x T => s.nondimensional_end_to_end_length_per_link (val x) (val T) }

/-- `src/physics/single_chain/ufjc/log_squared/thermodynamics/isotensional/asymptotic/mod.rs`: the gibbs methods of `LOGSQUAREDFJC`. -/
noncomputable def log_squared_isotensional_asymptotic_gibbs (N : ℕ) (ℓ : ℝ) (m : ℝ) (k : ℝ) : EnergyMethodsS :=
  let s := (Polymers.ufjc.log_squared.LOGSQUAREDFJC.init N (val ℓ) (val m) (val k)).thermodynamics.isotensional.asymptotic
  { energy := fun x T => s.gibbs_free_energy (val x) (val T)
    energy_per_link := fun x T => s.gibbs_free_energy_per_link (val x) (val T)
    relative := fun x T => s.relative_gibbs_free_energy (val x) (val T)
    relative_per_link := fun x T => s.relative_gibbs_free_energy_per_link (val x) (val T)
    nd_energy := fun x T => s.nondimensional_gibbs_free_energy (val x) (val T)
    nd_energy_per_link := fun x T => s.nondimensional_gibbs_free_energy_per_link (val x) (val T)
    nd_relative := fun x T => s.nondimensional_relative_gibbs_free_energy (val x) (val T)
    nd_relative_per_link := fun x T => s.nondimensional_relative_gibbs_free_energy_per_link (val x) (val T) }

/-- `src/physics/single_chain/ufjc/log_squared/thermodynamics/isotensional/asymptotic/mod.rs`: the lengths methods of `LOGSQUAREDFJC`. -/
noncomputable def log_squared_isotensional_asymptotic_lengths (N : ℕ) (ℓ : ℝ) (m : ℝ) (k : ℝ) : LengthMethodsS :=
  let s := (Polymers.ufjc.log_squared.LOGSQUAREDFJC.init N (val ℓ) (val m) (val k)).thermodynamics.isotensional.asymptotic
  { length := fun x T => s.end_to_end_length (val x) (val T)
    length_per_link := fun x T => s.end_to_end_length_per_link (val x) (val T)
    nd_length := fun x T => s.nondimensional_end_to_end_length (val x) (val T)
    nd_length_per_link := fun x T => s.nondimensional_end_to_end_length_per_link (val x) (val T) }

/-- `src/physics/single_chain/ufjc/log_squared/thermodynamics/isotensional/legendre/mod.rs`: the helmholtz methods of `LOGSQUAREDFJC`. -/
noncomputable def log_squared_isotensional_legendre_helmholtz (N : ℕ) (ℓ : ℝ) (m : ℝ) (k : ℝ) : EnergyMethodsS :=
  let s := (Polymers.ufjc.log_squared.LOGSQUAREDFJC.init N (val ℓ) (val m) (val k)).thermodynamics.isotensional.legendre
  { energy := fun x T => s.helmholtz_free_energy (val x) (val T)
    energy_per_link := fun x T => s.helmholtz_free_energy_per_link (val x) (val T)
    relative := fun x T => s.relative_helmholtz_free_energy (val x) (val T)
    relative_per_link := fun x T => s.relative_helmholtz_free_energy_per_link (val x) (val T)
    nd_energy := fun x T => s.nondimensional_helmholtz_free_energy (val x) (val T)
    nd_energy_per_link := fun x T => s.nondimensional_helmholtz_free_energy_per_link (val x) (val T)
    nd_relative := fun x T => s.nondimensional_relative_helmholtz_free_energy (val x) (val T)
    nd_relative_per_link := fun x T => s.nondimensional_relative_helmholtz_free_energy_per_link (val x) (val T) }

/-- `src/physics/single_chain/ufjc/log_squared/thermodynamics/isotensional/mod.rs`: the gibbs methods of `LOGSQUAREDFJC`. -/
noncomputable def log_squared_isotensional_gibbs (N : ℕ) (ℓ : ℝ) (m : ℝ) (k : ℝ) : EnergyMethodsS :=
  let s := (Polymers.ufjc.log_squared.LOGSQUAREDFJC.init N (val ℓ) (val m) (val k)).thermodynamics.isotensional
  { energy := fun x T => s.gibbs_free_energy (val x) (val T)
    energy_per_link := fun x T => s.gibbs_free_energy_per_link (val x) (val T)
    relative := fun x T => s.relative_gibbs_free_energy (val x) (val T)
    relative_per_link := fun x T => s.relative_gibbs_free_energy_per_link (val x) (val T)
    nd_energy := fun x T => s.nondimensional_gibbs_free_energy (val x) (val T)
    nd_energy_per_link := fun x T => s.nondimensional_gibbs_free_energy_per_link (val x) (val T)
    nd_relative := fun x T => s.nondimensional_relative_gibbs_free_energy (val x) (val T)
    nd_relative_per_link := fun x T => s.nondimensional_relative_gibbs_free_energy_per_link (val x) (val T) }

/-- `src/physics/single_chain/ufjc/log_squared/thermodynamics/isotensional/mod.rs`: the lengths methods of `LOGSQUAREDFJC`. -/
noncomputable def log_squared_isotensional_lengths (N : ℕ) (ℓ : ℝ) (m : ℝ) (k : ℝ) : LengthMethodsS :=
  let s := (Polymers.ufjc.log_squared.LOGSQUAREDFJC.init N (val ℓ) (val m) (val k)).thermodynamics.isotensional
  { length := fun x T => s.end_to_end_length (val x) (val T)
    length_per_link := fun x T => s.end_to_end_length_per_link (val x) (val T)
    nd_length := fun x T => s.nondimensional_end_to_end_length (val x) (val T)
    nd_length_per_link := fun x T => s.nondimensional_end_to_end_length_per_link (val x) (val T) }

/-- `src/physics/single_chain/ufjc/morse/thermodynamics/isometric/asymptotic/reduced/legendre/mod.rs`: the helmholtz methods of `MORSEFJC`. -/
noncomputable def morse_isometric_asymptotic_reduced_legendre_helmholtz (N : ℕ) (ℓ : ℝ) (m : ℝ) (k : ℝ) (ε : ℝ) : EnergyMethodsS :=
  let s := (Polymers.ufjc.morse.MORSEFJC.init N (val ℓ) (val m) (val k) (val ε)).thermodynamics.isometric.asymptotic.reduced.legendre
  { energy := fun x T => s.helmholtz_free_energy (val x) (val T)
    energy_per_link := fun x T => s.helmholtz_free_energy_per_link (val x) (val T)
    relative := fun x T => s.relative_helmholtz_free_energy (val x) (val T)
    relative_per_link := fun x T => s.relative_helmholtz_free_energy_per_link (val x) (val T)
    nd_energy := fun x T => s.nondimensional_helmholtz_free_energy (val x) (val T)
    nd_energy_per_link := fun x T => s.nondimensional_helmholtz_free_energy_per_link (val x) (val T)
    nd_relative := fun x T => s.nondimensional_relative_helmholtz_free_energy (val x) (val T)
    nd_relative_per_link := fun x T => s.nondimensional_relative_helmholtz_free_energy_per_link (val x) (val T) }

/-- `src/physics/single_chain/ufjc/morse/thermodynamics/isometric/asymptotic/reduced/legendre/mod.rs`: the forces methods of `MORSEFJC`. -/
noncomputable def morse_isometric_asymptotic_reduced_legendre_forces (N : ℕ) (ℓ : ℝ) (m : ℝ) (k : ℝ) (ε : ℝ) : ForceMethodsS :=
  let s := (Polymers.ufjc.morse.MORSEFJC.init N (val ℓ) (val m) (val k) (val ε)).thermodynamics.isometric.asymptotic.reduced.legendre
  { force := fun x T => s.force (val x) (val T)
    nd_force := fun x T => s.nondimensional_force (val x) (val T) }

/-- `src/physics/single_chain/ufjc/morse/thermodynamics/isotensional/asymptotic/reduced/legendre/mod.rs`: the helmholtz methods of `MORSEFJC`. -/
noncomputable def morse_isotensional_asymptotic_reduced_legendre_helmholtz (N : ℕ) (ℓ : ℝ) (m : ℝ) (k : ℝ) (ε : ℝ) : EnergyMethodsS :=
  let s := (Polymers.ufjc.morse.MORSEFJC.init N (val ℓ) (val m) (val k) (val ε)).thermodynamics.isotensional.asymptotic.reduced.legendre
  { energy := fun x T => s.helmholtz_free_energy (val x) (val T)
    energy_per_link := fun x T => s.helmholtz_free_energy_per_link (val x) (val T)
    relative := fun x T => s.relative_helmholtz_free_energy (val x) (val T)
    relative_per_link := fun x T => s.relative_helmholtz_free_energy_per_link (val x) (val T)
    nd_energy := fun x T => s.nondimensional_helmholtz_free_energy (val x) (val T)
    nd_energy_per_link := fun x T => s.nondimensional_helmholtz_free_energy_per_link (val x) (val T)
    nd_relative := fun x T => s.nondimensional_relative_helmholtz_free_energy (val x) (val T)
    nd_relative_per_link := fun x T => s.nondimensional_relative_helmholtz_free_energy_per_link (val x) (val T) }

/-- `src/physics/single_chain/ufjc/morse/thermodynamics/isometric/asymptotic/legendre/mod.rs`: the helmholtz methods of `MORSEFJC`. -/
noncomputable def morse_isometric_asymptotic_legendre_helmholtz (N : ℕ) (ℓ : ℝ) (m : ℝ) (k : ℝ) (ε : ℝ) : EnergyMethodsS :=
  let s := (Polymers.ufjc.morse.MORSEFJC.init N (val ℓ) (val m) (val k) (val ε)).thermodynamics.isometric.asymptotic.legendre
  { energy := fun x T => s.helmholtz_free_energy (val x) (val T)
    energy_per_link := fun x T => s.helmholtz_free_energy_per_link (val x) (val T)
    relative := fun x T => s.relative_helmholtz_free_energy (val x) (val T)
    relative_per_link := fun x T => s.relative_helmholtz_free_energy_per_link (val x) (val T)
    nd_energy := fun x T => s.nondimensional_helmholtz_free_energy (val x) (val T)
    nd_energy_per_link := fun x T => s.nondimensional_helmholtz_free_energy_per_link (val x) (val T)
    nd_relative := fun x T => s.nondimensional_relative_helmholtz_free_energy (val x) (val T)
    nd_relative_per_link := fun x T => s.nondimensional_relative_helmholtz_free_energy_per_link (val x) (val T) }

/-- `src/physics/single_chain/ufjc/morse/thermodynamics/isometric/asymptotic/legendre/mod.rs`: the forces methods of `MORSEFJC`. -/
noncomputable def morse_isometric_asymptotic_legendre_forces (N : ℕ) (ℓ : ℝ) (m : ℝ) (k : ℝ) (ε : ℝ) : ForceMethodsS :=
  let s := (Polymers.ufjc.morse.MORSEFJC.init N (val ℓ) (val m) (val k) (val ε)).thermodynamics.isometric.asymptotic.legendre
  { force := fun x T => s.force (val x) (val T)
    nd_force := fun x T => s.nondimensional_force (val x) (val T) }

/-- `src/physics/single_chain/ufjc/morse/thermodynamics/isotensional/asymptotic/legendre/mod.rs`: the helmholtz methods of `MORSEFJC`. -/
noncomputable def morse_isotensional_asymptotic_legendre_helmholtz (N : ℕ) (ℓ : ℝ) (m : ℝ) (k : ℝ) (ε : ℝ) : EnergyMethodsS :=
  let s := (Polymers.ufjc.morse.MORSEFJC.init N (val ℓ) (val m) (val k) (val ε)).thermodynamics.isotensional.asymptotic.legendre
  { energy := fun x T => s.helmholtz_free_energy (val x) (val T)
    energy_per_link := fun x T => s.helmholtz_free_energy_per_link (val x) (val T)
    relative := fun x T => s.relative_helmholtz_free_energy (val x) (val T)
    relative_per_link := fun x T => s.relative_helmholtz_free_energy_per_link (val x) (val T)
    nd_energy := fun x T => s.nondimensional_helmholtz_free_energy (val x) (val T)
    nd_energy_per_link := fun x T => s.nondimensional_helmholtz_free_energy_per_link (val x) (val T)
    nd_relative := fun x T => s.nondimensional_relative_helmholtz_free_energy (val x) (val T)
    nd_relative_per_link := fun x T => s.nondimensional_relative_helmholtz_free_energy_per_link (val x) (val T) }

/-- `src/physics/single_chain/ufjc/morse/thermodynamics/isotensional/asymptotic/reduced/mod.rs`: the gibbs methods of `MORSEFJC`. -/
noncomputable def morse_isotensional_asymptotic_reduced_gibbs (N : ℕ) (ℓ : ℝ) (m : ℝ) (k : ℝ) (ε : ℝ) : EnergyMethodsS :=
  let s := (Polymers.ufjc.morse.MORSEFJC.init N (val ℓ) (val m) (val k) (val ε)).thermodynamics.isotensional.asymptotic.reduced
  { energy := fun x T => s.gibbs_free_energy (val x) (val T)
    energy_per_link := fun x T => s.gibbs_free_energy_per_link (val x) (val T)
    relative := fun x T => s.relative_gibbs_free_energy (val x) (val T)
    relative_per_link := fun x T => s.relative_gibbs_free_energy_per_link (val x) (val T)
    nd_energy := fun x T => s.nondimensional_gibbs_free_energy (val x) (val T)
    nd_energy_per_link := fun x T => s.nondimensional_gibbs_free_energy_per_link (val x) (val T)
    nd_relative := fun x T => s.nondimensional_relative_gibbs_free_energy (val x) (val T)
    nd_relative_per_link := fun x T => s.nondimensional_relative_gibbs_free_energy_per_link (val x) (val T) }

/-- `src/physics/single_chain/ufjc/morse/thermodynamics/isotensional/asymptotic/reduced/mod.rs`: the lengths methods of `MORSEFJC`. -/
noncomputable def morse_isotensional_asymptotic_reduced_lengths (N : ℕ) (ℓ : ℝ) (m : ℝ) (k : ℝ) (ε : ℝ) : LengthMethodsS :=
  let s := (Polymers.ufjc.morse.MORSEFJC.init N (val ℓ) (val m) (val k) (val ε)).thermodynamics.isotensional.asymptotic.reduced
  { length := fun x T => s.end_to_end_length (val x) (val T)
    length_per_link := fun x T => s.end_to_end_length_per_link (val x) (val T)
    nd_length := fun x T => s.nondimensional_end_to_end_length (val x) (val T)
    nd_length_per_link := fun x T => s.nondimensional_end_to_end_length_per_link (val x) (val T) }

/-- `src/physics/single_chain/ufjc/morse/thermodynamics/isotensional/asymptotic/mod.rs`: the gibbs methods of `MORSEFJC`. -/
noncomputable def morse_isotensional_asymptotic_gibbs (N : ℕ) (ℓ : ℝ) (m : ℝ) (k : ℝ) (ε : ℝ) : EnergyMethodsS :=
  let s := (Polymers.ufjc.morse.MORSEFJC.init N (val ℓ) (val m) (val k) (val ε)).thermodynamics.isotensional.asymptotic
  { energy := fun x T => s.gibbs_free_energy (val x) (val T)
    energy_per_link := fun x T => s.gibbs_free_energy_per_link (val x) (val T)
    relative := fun x T => s.relative_gibbs_free_energy (val x) (val T)
    relative_per_link := fun x T => s.relative_gibbs_free_energy_per_link (val x) (val T)
    nd_energy := fun x T => s.nondimensional_gibbs_free_energy (val x) (val T)
    nd_energy_per_link := fun x T => s.nondimensional_gibbs_free_energy_per_link (val x) (val T)
    nd_relative := fun x T => s.nondimensional_relative_gibbs_free_energy (val x) (val T)
    nd_relative_per_link := fun x T => s.nondimensional_relative_gibbs_free_energy_per_link (val x) (val T) }

/-- `src/physics/single_chain/ufjc/morse/thermodynamics/isotensional/asymptotic/mod.rs`: the lengths methods of `MORSEFJC`. -/
noncomputable def morse_isotensional_asymptotic_lengths (N : ℕ) (ℓ : ℝ) (m : ℝ) (k : ℝ) (ε : ℝ) : LengthMethodsS :=
  let s := (Polymers.ufjc.morse.MORSEFJC.init N (val ℓ) (val m) (val k) (val ε)).thermodynamics.isotensional.asymptotic
  { length := fun x T => s.end_to_end_length (val x) (val T)
    length_per_link := fun x T => s.end_to_end_length_per_link (val x) (val T)
    nd_length := fun x T => s.nondimensional_end_to_end_length (val x) (val T)
    nd_length_per_link := fun x T => s.nondimensional_end_to_end_length_per_link (val x) (val T) }

/-- `src/physics/single_chain/ufjc/morse/thermodynamics/isotensional/legendre/mod.rs`: the helmholtz methods of `MORSEFJC`. -/
noncomputable def morse_isotensional_legendre_helmholtz (N : ℕ) (ℓ : ℝ) (m : ℝ) (k : ℝ) (ε : ℝ) : EnergyMethodsS :=
  let s := (Polymers.ufjc.morse.MORSEFJC.init N (val ℓ) (val m) (val k) (val ε)).thermodynamics.isotensional.legendre
  { energy := fun x T => s.helmholtz_free_energy (val x) (val T)
    energy_per_link := fun x T => s.helmholtz_free_energy_per_link (val x) (val T)
    relative := fun x T => s.relative_helmholtz_free_energy (val x) (val T)
    relative_per_link := fun x T => s.relative_helmholtz_free_energy_per_link (val x) (val T)
    nd_energy := fun x T => s.nondimensional_helmholtz_free_energy (val x) (val T)
    nd_energy_per_link := fun x T => s.nondimensional_helmholtz_free_energy_per_link (val x) (val T)
    nd_relative := fun x T => s.nondimensional_relative_helmholtz_free_energy (val x) (val T)
    nd_relative_per_link := fun x T => s.nondimensional_relative_helmholtz_free_energy_per_link (val x) (val T) }

/-- `src/physics/single_chain/ufjc/morse/thermodynamics/isotensional/mod.rs`: the gibbs methods of `MORSEFJC`. -/
noncomputable def morse_isotensional_gibbs (N : ℕ) (ℓ : ℝ) (m : ℝ) (k : ℝ) (ε : ℝ) : EnergyMethodsS :=
  let s := (Polymers.ufjc.morse.MORSEFJC.init N (val ℓ) (val m) (val k) (val ε)).thermodynamics.isotensional
  { energy := fun x T => s.gibbs_free_energy (val x) (val T)
    energy_per_link := fun x T => s.gibbs_free_energy_per_link (val x) (val T)
    relative := fun x T => s.relative_gibbs_free_energy (val x) (val T)
    relative_per_link := fun x T => s.relative_gibbs_free_energy_per_link (val x) (val T)
    nd_energy := fun x T => s.nondimensional_gibbs_free_energy (val x) (val T)
    nd_energy_per_link := fun x T => s.nondimensional_gibbs_free_energy_per_link (val x) (val T)
    nd_relative := fun x T => s.nondimensional_relative_gibbs_free_energy (val x) (val T)
    nd_relative_per_link := fun x T => s.nondimensional_relative_gibbs_free_energy_per_link (val x) (val T) }

/-- `src/physics/single_chain/ufjc/morse/thermodynamics/isotensional/mod.rs`: the lengths methods of `MORSEFJC`. -/
noncomputable def morse_isotensional_lengths (N : ℕ) (ℓ : ℝ) (m : ℝ) (k : ℝ) (ε : ℝ) : LengthMethodsS :=
  let s := (Polymers.ufjc.morse.MORSEFJC.init N (val ℓ) (val m) (val k) (val ε)).thermodynamics.isotensional
  { length := fun x T => s.end_to_end_length (val x) (val T)
    length_per_link := fun x T => s.end_to_end_length_per_link (val x) (val T)
    nd_length := fun x T => s.nondimensional_end_to_end_length (val x) (val T)
    nd_length_per_link := fun x T => s.nondimensional_end_to_end_length_per_link (val x) (val T) }

/-- `src/physics/single_chain/wlc/thermodynamics/isometric/legendre/mod.rs`: the gibbs methods of `WLC`. -/
noncomputable def wlc_isometric_legendre_gibbs (N : ℕ) (ℓ : ℝ) (m : ℝ) (p : ℝ) : EnergyMethodsS :=
  let s := (Polymers.wlc.WLC.init N (val ℓ) (val m) (val p)).thermodynamics.isometric.legendre
  { energy := fun x T => s.gibbs_free_energy (val x) (val T)
    energy_per_link := fun x T => s.gibbs_free_energy_per_link (val x) (val T)
    relative := fun x T => s.relative_gibbs_free_energy (val x) (val T)
    relative_per_link := fun x T => s.relative_gibbs_free_energy_per_link (val x) (val T)
    nd_energy := fun x T => s.nondimensional_gibbs_free_energy (val x) (val T)
    nd_energy_per_link := fun x T => s.nondimensional_gibbs_free_energy_per_link (val x) (val T)
    nd_relative := fun x _ => s.nondimensional_relative_gibbs_free_energy (val x)
    nd_relative_per_link := fun x _ => s.nondimensional_relative_gibbs_free_energy_per_link (val x) }

/-- `src/physics/single_chain/wlc/thermodynamics/isotensional/legendre/mod.rs`: the helmholtz methods of `WLC`. -/
noncomputable def wlc_isotensional_legendre_helmholtz (N : ℕ) (ℓ : ℝ) (m : ℝ) (p : ℝ) : EnergyMethodsS :=
  let s := (Polymers.wlc.WLC.init N (val ℓ) (val m) (val p)).thermodynamics.isotensional.legendre
  { energy := fun x T => s.helmholtz_free_energy (val x) (val T)
    energy_per_link := fun x T => s.helmholtz_free_energy_per_link (val x) (val T)
    relative := fun x T => s.relative_helmholtz_free_energy (val x) (val T)
    relative_per_link := fun x T => s.relative_helmholtz_free_energy_per_link (val x) (val T)
    nd_energy := fun x T => s.nondimensional_helmholtz_free_energy (val x) (val T)
    nd_energy_per_link := fun x T => s.nondimensional_helmholtz_free_energy_per_link (val x) (val T)
    nd_relative := fun x _ => s.nondimensional_relative_helmholtz_free_energy (val x)
    nd_relative_per_link := fun x _ => s.nondimensional_relative_helmholtz_free_energy_per_link (val x) }

/-- `src/physics/single_chain/wlc/thermodynamics/isometric/mod.rs`: the helmholtz methods of `WLC`. -/
noncomputable def wlc_isometric_helmholtz (N : ℕ) (ℓ : ℝ) (m : ℝ) (p : ℝ) : EnergyMethodsS :=
  let s := (Polymers.wlc.WLC.init N (val ℓ) (val m) (val p)).thermodynamics.isometric
  { energy := fun x T => s.helmholtz_free_energy (val x) (val T)
    energy_per_link := fun x T => s.helmholtz_free_energy_per_link (val x) (val T)
    relative := fun x T => s.relative_helmholtz_free_energy (val x) (val T)
    relative_per_link := fun x T => s.relative_helmholtz_free_energy_per_link (val x) (val T)
    nd_energy := fun x T => s.nondimensional_helmholtz_free_energy (val x) (val T)
    nd_energy_per_link := fun x T => s.nondimensional_helmholtz_free_energy_per_link (val x) (val T)
    nd_relative := fun x _ => s.nondimensional_relative_helmholtz_free_energy (val x)
    nd_relative_per_link := fun x _ => s.nondimensional_relative_helmholtz_free_energy_per_link (val x) }

/-- `src/physics/single_chain/wlc/thermodynamics/isometric/mod.rs`: the forces methods of `WLC`. -/
noncomputable def wlc_isometric_forces (N : ℕ) (ℓ : ℝ) (m : ℝ) (p : ℝ) : ForceMethodsS :=
  let s := (Polymers.wlc.WLC.init N (val ℓ) (val m) (val p)).thermodynamics.isometric
  { force := fun x T => s.force (val x) (val T)
    nd_force := fun x _ => s.nondimensional_force (val x) }

/-- `src/physics/single_chain/wlc/thermodynamics/isometric/mod.rs`: the distribution methods of `WLC`. -/
noncomputable def wlc_isometric_distribution (N : ℕ) (ℓ : ℝ) (m : ℝ) (p : ℝ) : DistributionMethodsS :=
  let s := (Polymers.wlc.WLC.init N (val ℓ) (val m) (val p)).thermodynamics.isometric
  { density := fun x => s.equilibrium_distribution (val x)
    nd_density := fun x => s.nondimensional_equilibrium_distribution (val x)
    radial := fun x => s.equilibrium_radial_distribution (val x)
    nd_radial := fun x => s.nondimensional_equilibrium_radial_distribution (val x) }

/-- `src/physics/single_chain/wlc/thermodynamics/isotensional/mod.rs`: the gibbs methods of `WLC`. -/
noncomputable def wlc_isotensional_gibbs (N : ℕ) (ℓ : ℝ) (m : ℝ) (p : ℝ) : EnergyMethodsS :=
  let s := (Polymers.wlc.WLC.init N (val ℓ) (val m) (val p)).thermodynamics.isotensional
  { energy := fun x T => s.gibbs_free_energy (val x) (val T)
    energy_per_link := fun x T => s.gibbs_free_energy_per_link (val x) (val T)
    relative := fun x T => s.relative_gibbs_free_energy (val x) (val T)
    relative_per_link := fun x T => s.relative_gibbs_free_energy_per_link (val x) (val T)
    nd_energy := fun x T => s.nondimensional_gibbs_free_energy (val x) (val T)
    nd_energy_per_link := fun x T => s.nondimensional_gibbs_free_energy_per_link (val x) (val T)
    nd_relative := fun x _ => s.nondimensional_relative_gibbs_free_energy (val x)
    nd_relative_per_link := fun x _ => s.nondimensional_relative_gibbs_free_energy_per_link (val x) }

/-- `src/physics/single_chain/wlc/thermodynamics/isotensional/mod.rs`: the lengths methods of `WLC`. -/
noncomputable def wlc_isotensional_lengths (N : ℕ) (ℓ : ℝ) (m : ℝ) (p : ℝ) : LengthMethodsS :=
  let s := (Polymers.wlc.WLC.init N (val ℓ) (val m) (val p)).thermodynamics.isotensional
  { length := fun x T => s.end_to_end_length (val x) (val T)
    length_per_link := fun x T => s.end_to_end_length_per_link (val x) (val T)
    nd_length := fun x _ => s.nondimensional_end_to_end_length (val x)
    nd_length_per_link := fun x _ => s.nondimensional_end_to_end_length_per_link (val x) }

/-- `src/physics/single_chain/fjc/thermodynamics/modified_canonical/mod.rs`: the helmholtz methods of `FJC` at potential stiffness `K`. -/
noncomputable def fjc_modified_canonical_helmholtz (N : ℕ) (ℓ : ℝ) (m : ℝ) (K : ℝ) : EnergyMethodsS :=
  let s := (Polymers.fjc.FJC.init N (val ℓ) (val m)).thermodynamics.modified_canonical
  { energy := fun x T => s.helmholtz_free_energy (val x) (val K) (val T)
    energy_per_link := fun x T => s.helmholtz_free_energy_per_link (val x) (val K) (val T)
    relative := fun x T => s.relative_helmholtz_free_energy (val x) (val K) (val T)
    relative_per_link := fun x T => s.relative_helmholtz_free_energy_per_link (val x) (val K) (val T)
    nd_energy := fun x T => s.nondimensional_helmholtz_free_energy (val x) (val (ndStiffness K ℓ T)) (val T)
    nd_energy_per_link := fun x T => s.nondimensional_helmholtz_free_energy_per_link (val x) (val (ndStiffness K ℓ T)) (val T)
    nd_relative := fun x T => s.nondimensional_relative_helmholtz_free_energy (val x) (val (ndStiffness K ℓ T))
    nd_relative_per_link := fun x T => s.nondimensional_relative_helmholtz_free_energy_per_link (val x) (val (ndStiffness K ℓ T)) }

/-- `src/physics/single_chain/fjc/thermodynamics/modified_canonical/mod.rs`: the gibbs methods of `FJC` at potential stiffness `K`. -/
noncomputable def fjc_modified_canonical_gibbs (N : ℕ) (ℓ : ℝ) (m : ℝ) (K : ℝ) : EnergyMethodsS :=
  let s := (Polymers.fjc.FJC.init N (val ℓ) (val m)).thermodynamics.modified_canonical
  { energy := fun x T => s.gibbs_free_energy (val x) (val K) (val T)
    energy_per_link := fun x T => s.gibbs_free_energy_per_link (val x) (val K) (val T)
    relative := fun x T => s.relative_gibbs_free_energy (val x) (val K) (val T)
    relative_per_link := fun x T => s.relative_gibbs_free_energy_per_link (val x) (val K) (val T)
    nd_energy := fun x T => s.nondimensional_gibbs_free_energy (val x) (val (ndStiffness K ℓ T)) (val T)
    nd_energy_per_link := fun x T => s.nondimensional_gibbs_free_energy_per_link (val x) (val (ndStiffness K ℓ T)) (val T)
    nd_relative := fun x T => s.nondimensional_relative_gibbs_free_energy (val x) (val (ndStiffness K ℓ T))
    nd_relative_per_link := fun x T => s.nondimensional_relative_gibbs_free_energy_per_link (val x) (val (ndStiffness K ℓ T)) }

/-- `src/physics/single_chain/fjc/thermodynamics/modified_canonical/mod.rs`: the length methods of `FJC` at potential stiffness `K`. -/
noncomputable def fjc_modified_canonical_lengths (N : ℕ) (ℓ : ℝ) (m : ℝ) (K : ℝ) : LengthMethodsS :=
  let s := (Polymers.fjc.FJC.init N (val ℓ) (val m)).thermodynamics.modified_canonical
  { length := fun x T => s.end_to_end_length (val x) (val K) (val T)
    length_per_link := fun x T => s.end_to_end_length_per_link (val x) (val K) (val T)
    nd_length := fun x T => s.nondimensional_end_to_end_length (val x) (val (ndStiffness K ℓ T))
    nd_length_per_link := fun x T => s.nondimensional_end_to_end_length_per_link (val x) (val (ndStiffness K ℓ T)) }

/-- `src/physics/single_chain/fjc/thermodynamics/modified_canonical/mod.rs`: the force methods of `FJC` at potential stiffness `K`. -/
noncomputable def fjc_modified_canonical_forces (N : ℕ) (ℓ : ℝ) (m : ℝ) (K : ℝ) : ForceMethodsS :=
  let s := (Polymers.fjc.FJC.init N (val ℓ) (val m)).thermodynamics.modified_canonical
  { force := fun x T => s.force (val x) (val K) (val T)
    nd_force := fun x T => s.nondimensional_force (val x) (val (ndStiffness K ℓ T)) }

/-- `src/physics/single_chain/fjc/thermodynamics/modified_canonical/asymptotic/strong_potential/mod.rs`: the helmholtz methods of `FJC` at potential stiffness `K`. -/
noncomputable def fjc_strong_potential_helmholtz (N : ℕ) (ℓ : ℝ) (m : ℝ) (K : ℝ) : EnergyMethodsS :=
  let s := (Polymers.fjc.FJC.init N (val ℓ) (val m)).thermodynamics.modified_canonical.asymptotic.strong_potential
  { energy := fun x T => s.helmholtz_free_energy (val x) (val K) (val T)
    energy_per_link := fun x T => s.helmholtz_free_energy_per_link (val x) (val K) (val T)
    relative := fun x T => s.relative_helmholtz_free_energy (val x) (val K) (val T)
    relative_per_link := fun x T => s.relative_helmholtz_free_energy_per_link (val x) (val K) (val T)
    nd_energy := fun x T => s.nondimensional_helmholtz_free_energy (val x) (val (ndStiffness K ℓ T)) (val T)
    nd_energy_per_link := fun x T => s.nondimensional_helmholtz_free_energy_per_link (val x) (val (ndStiffness K ℓ T)) (val T)
    nd_relative := fun x T => s.nondimensional_relative_helmholtz_free_energy (val x) (val (ndStiffness K ℓ T))
    nd_relative_per_link := fun x T => s.nondimensional_relative_helmholtz_free_energy_per_link (val x) (val (ndStiffness K ℓ T)) }

/-- `src/physics/single_chain/fjc/thermodynamics/modified_canonical/asymptotic/strong_potential/mod.rs`: the force methods of `FJC` at potential stiffness `K`. -/
noncomputable def fjc_strong_potential_forces (N : ℕ) (ℓ : ℝ) (m : ℝ) (K : ℝ) : ForceMethodsS :=
  let s := (Polymers.fjc.FJC.init N (val ℓ) (val m)).thermodynamics.modified_canonical.asymptotic.strong_potential
  { force := fun x T => s.force (val x) (val K) (val T)
    nd_force := fun x T => s.nondimensional_force (val x) (val (ndStiffness K ℓ T)) }

/-- `src/physics/single_chain/fjc/thermodynamics/modified_canonical/asymptotic/weak_potential/mod.rs`: the gibbs methods of `FJC` at potential stiffness `K`. -/
noncomputable def fjc_weak_potential_gibbs (N : ℕ) (ℓ : ℝ) (m : ℝ) (K : ℝ) : EnergyMethodsS :=
  let s := (Polymers.fjc.FJC.init N (val ℓ) (val m)).thermodynamics.modified_canonical.asymptotic.weak_potential
  { energy := fun x T => s.gibbs_free_energy (val x) (val K) (val T)
    energy_per_link := fun x T => s.gibbs_free_energy_per_link (val x) (val K) (val T)
    relative := fun x T => s.relative_gibbs_free_energy (val x) (val K) (val T)
    relative_per_link := fun x T => s.relative_gibbs_free_energy_per_link (val x) (val K) (val T)
    nd_energy := fun x T => s.nondimensional_gibbs_free_energy (val x) (val (ndStiffness K ℓ T)) (val T)
    nd_energy_per_link := fun x T => s.nondimensional_gibbs_free_energy_per_link (val x) (val (ndStiffness K ℓ T)) (val T)
    nd_relative := fun x T => s.nondimensional_relative_gibbs_free_energy (val x) (val (ndStiffness K ℓ T))
    nd_relative_per_link := fun x T => s.nondimensional_relative_gibbs_free_energy_per_link (val x) (val (ndStiffness K ℓ T)) }

/-- `src/physics/single_chain/fjc/thermodynamics/modified_canonical/asymptotic/weak_potential/mod.rs`: the length methods of `FJC` at potential stiffness `K`. -/
noncomputable def fjc_weak_potential_lengths (N : ℕ) (ℓ : ℝ) (m : ℝ) (K : ℝ) : LengthMethodsS :=
  let s := (Polymers.fjc.FJC.init N (val ℓ) (val m)).thermodynamics.modified_canonical.asymptotic.weak_potential
  { length := fun x T => s.end_to_end_length (val x) (val K) (val T)
    length_per_link := fun x T => s.end_to_end_length_per_link (val x) (val K) (val T)
    nd_length := fun x T => s.nondimensional_end_to_end_length (val x) (val (ndStiffness K ℓ T))
    nd_length_per_link := fun x T => s.nondimensional_end_to_end_length_per_link (val x) (val (ndStiffness K ℓ T)) }

/-- `src/physics/single_chain/fjc/thermodynamics/modified_canonical/asymptotic/weak_potential/mod.rs`: the force methods of `FJC` at potential stiffness `K`. -/
noncomputable def fjc_weak_potential_forces (N : ℕ) (ℓ : ℝ) (m : ℝ) (K : ℝ) : ForceMethodsS :=
  let s := (Polymers.fjc.FJC.init N (val ℓ) (val m)).thermodynamics.modified_canonical.asymptotic.weak_potential
  { force := fun x _ => s.force (val x) (val K)
    nd_force := fun x T => s.nondimensional_force (val x) (val (ndStiffness K ℓ T)) }

end Polymers.ApiS
