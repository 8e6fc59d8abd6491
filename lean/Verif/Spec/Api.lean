/- Generated by tools/gen_api.py ; do not edit by hand. -/
import Verif.Spec.Ensembles
import Verif.Model.RealInst
import Verif.Model.Ideal
import Verif.Model.Fjc
import Verif.Model.Efjc
import Verif.Model.Swfjc
import Verif.Model.LennardJones
import Verif.Model.LogSquared
import Verif.Model.Morse
import Verif.Model.Wlc

/-!
The method families of every public single-chain struct, as records of `Verif/Spec/Ensembles.lean`.
Each is reached from the top-level constructor of its model, e.g. `fjc_isotensional_gibbs N ℓ m` collects the Gibbs
free energy methods of `FJC::init(N, ℓ, m).thermodynamics.isotensional`.  The constructor arguments are `N` number of
links, `ℓ` link length, `m` hinge mass, and `k` link stiffness, `ε` link energy, `w` well width, `p` persistence length
where the model has them. -/

namespace Polymers.Api

open Polymers.Spec

/-- `src/physics/single_chain/ideal/thermodynamics/isometric/mod.rs`: the helmholtz methods of `Ideal`. -/
noncomputable def ideal_isometric_helmholtz (N : ℕ) (ℓ : ℝ) (m : ℝ) : EnergyMethods :=
  let s := (Polymers.ideal.Ideal.init N ℓ m).thermodynamics.isometric
  { energy := fun x T => s.helmholtz_free_energy x T
    energy_per_link := fun x T => s.helmholtz_free_energy_per_link x T
    relative := fun x T => s.relative_helmholtz_free_energy x T
    relative_per_link := fun x T => s.relative_helmholtz_free_energy_per_link x T
    nd_energy := fun x T => s.nondimensional_helmholtz_free_energy x T
    nd_energy_per_link := fun x T => s.nondimensional_helmholtz_free_energy_per_link x T
    nd_relative := fun x _ => s.nondimensional_relative_helmholtz_free_energy x
    nd_relative_per_link := fun x _ => s.nondimensional_relative_helmholtz_free_energy_per_link x }

/-- `src/physics/single_chain/ideal/thermodynamics/isometric/mod.rs`: the forces methods of `Ideal`. -/
noncomputable def ideal_isometric_forces (N : ℕ) (ℓ : ℝ) (m : ℝ) : ForceMethods :=
  let s := (Polymers.ideal.Ideal.init N ℓ m).thermodynamics.isometric
  { force := fun x T => s.force x T
    nd_force := fun x _ => s.nondimensional_force x }

/-- `src/physics/single_chain/ideal/thermodynamics/isometric/mod.rs`: the distribution methods of `Ideal`. -/
noncomputable def ideal_isometric_distribution (N : ℕ) (ℓ : ℝ) (m : ℝ) : DistributionMethods :=
  let s := (Polymers.ideal.Ideal.init N ℓ m).thermodynamics.isometric
  { density := fun x => s.equilibrium_distribution x
    nd_density := fun x => s.nondimensional_equilibrium_distribution x
    radial := fun x => s.equilibrium_radial_distribution x
    nd_radial := fun x => s.nondimensional_equilibrium_radial_distribution x }

/-- `src/physics/single_chain/ideal/thermodynamics/isotensional/mod.rs`: the gibbs methods of `Ideal`. -/
noncomputable def ideal_isotensional_gibbs (N : ℕ) (ℓ : ℝ) (m : ℝ) : EnergyMethods :=
  let s := (Polymers.ideal.Ideal.init N ℓ m).thermodynamics.isotensional
  { energy := fun x T => s.gibbs_free_energy x T
    energy_per_link := fun x T => s.gibbs_free_energy_per_link x T
    relative := fun x T => s.relative_gibbs_free_energy x T
    relative_per_link := fun x T => s.relative_gibbs_free_energy_per_link x T
    nd_energy := fun x T => s.nondimensional_gibbs_free_energy x T
    nd_energy_per_link := fun x T => s.nondimensional_gibbs_free_energy_per_link x T
    nd_relative := fun x _ => s.nondimensional_relative_gibbs_free_energy x
    nd_relative_per_link := fun x _ => s.nondimensional_relative_gibbs_free_energy_per_link x }

/-- `src/physics/single_chain/ideal/thermodynamics/isotensional/mod.rs`: the lengths methods of `Ideal`. -/
noncomputable def ideal_isotensional_lengths (N : ℕ) (ℓ : ℝ) (m : ℝ) : LengthMethods :=
  let s := (Polymers.ideal.Ideal.init N ℓ m).thermodynamics.isotensional
  { length := fun x T => s.end_to_end_length x T
    length_per_link := fun x T => s.end_to_end_length_per_link x T
    nd_length := fun x _ => s.nondimensional_end_to_end_length x
    nd_length_per_link := fun x _ => s.nondimensional_end_to_end_length_per_link x }

/-- `src/physics/single_chain/fjc/thermodynamics/isometric/legendre/mod.rs`: the gibbs methods of `FJC`. -/
noncomputable def fjc_isometric_legendre_gibbs (N : ℕ) (ℓ : ℝ) (m : ℝ) : EnergyMethods :=
  let s := (Polymers.fjc.FJC.init N ℓ m).thermodynamics.isometric.legendre
  { energy := fun x T => s.gibbs_free_energy x T
    energy_per_link := fun x T => s.gibbs_free_energy_per_link x T
    relative := fun x T => s.relative_gibbs_free_energy x T
    relative_per_link := fun x T => s.relative_gibbs_free_energy_per_link x T
    nd_energy := fun x T => s.nondimensional_gibbs_free_energy x T
    nd_energy_per_link := fun x T => s.nondimensional_gibbs_free_energy_per_link x T
    nd_relative := fun x _ => s.nondimensional_relative_gibbs_free_energy x
    nd_relative_per_link := fun x _ => s.nondimensional_relative_gibbs_free_energy_per_link x }

/-- `src/physics/single_chain/fjc/thermodynamics/isometric/legendre/mod.rs`: the helmholtz methods of `FJC`. -/
noncomputable def fjc_isometric_legendre_helmholtz (N : ℕ) (ℓ : ℝ) (m : ℝ) : EnergyMethods :=
  let s := (Polymers.fjc.FJC.init N ℓ m).thermodynamics.isometric.legendre
  { energy := fun x T => s.helmholtz_free_energy x T
    energy_per_link := fun x T => s.helmholtz_free_energy_per_link x T
    relative := fun x T => s.relative_helmholtz_free_energy x T
    relative_per_link := fun x T => s.relative_helmholtz_free_energy_per_link x T
    nd_energy := fun x T => s.nondimensional_helmholtz_free_energy x T
    nd_energy_per_link := fun x T => s.nondimensional_helmholtz_free_energy_per_link x T
    nd_relative := fun x _ => s.nondimensional_relative_helmholtz_free_energy x
    nd_relative_per_link := fun x _ => s.nondimensional_relative_helmholtz_free_energy_per_link x }

/-- `src/physics/single_chain/fjc/thermodynamics/isometric/legendre/mod.rs`: the forces methods of `FJC`. -/
noncomputable def fjc_isometric_legendre_forces (N : ℕ) (ℓ : ℝ) (m : ℝ) : ForceMethods :=
  let s := (Polymers.fjc.FJC.init N ℓ m).thermodynamics.isometric.legendre
  { force := fun x T => s.force x T
    nd_force := fun x _ => s.nondimensional_force x }

/-- `src/physics/single_chain/fjc/thermodynamics/isometric/legendre/mod.rs`: the distribution methods of `FJC`. -/
noncomputable def fjc_isometric_legendre_distribution (N : ℕ) (ℓ : ℝ) (m : ℝ) : DistributionMethods :=
  let s := (Polymers.fjc.FJC.init N ℓ m).thermodynamics.isometric.legendre
  { density := fun x => s.equilibrium_distribution x
    nd_density := fun x => s.nondimensional_equilibrium_distribution x
    radial := fun x => s.equilibrium_radial_distribution x
    nd_radial := fun x => s.nondimensional_equilibrium_radial_distribution x }

/-- `src/physics/single_chain/fjc/thermodynamics/isotensional/legendre/mod.rs`: the helmholtz methods of `FJC`. -/
noncomputable def fjc_isotensional_legendre_helmholtz (N : ℕ) (ℓ : ℝ) (m : ℝ) : EnergyMethods :=
  let s := (Polymers.fjc.FJC.init N ℓ m).thermodynamics.isotensional.legendre
  { energy := fun x T => s.helmholtz_free_energy x T
    energy_per_link := fun x T => s.helmholtz_free_energy_per_link x T
    relative := fun x T => s.relative_helmholtz_free_energy x T
    relative_per_link := fun x T => s.relative_helmholtz_free_energy_per_link x T
    nd_energy := fun x T => s.nondimensional_helmholtz_free_energy x T
    nd_energy_per_link := fun x T => s.nondimensional_helmholtz_free_energy_per_link x T
    nd_relative := fun x _ => s.nondimensional_relative_helmholtz_free_energy x
    nd_relative_per_link := fun x _ => s.nondimensional_relative_helmholtz_free_energy_per_link x }

/-- `src/physics/single_chain/fjc/thermodynamics/isometric/mod.rs`: the helmholtz methods of `FJC`. -/
noncomputable def fjc_isometric_helmholtz (N : ℕ) (ℓ : ℝ) (m : ℝ) : EnergyMethods :=
  let s := (Polymers.fjc.FJC.init N ℓ m).thermodynamics.isometric
  { energy := fun x T => s.helmholtz_free_energy x T
    energy_per_link := fun x T => s.helmholtz_free_energy_per_link x T
    relative := fun x T => s.relative_helmholtz_free_energy x T
    relative_per_link := fun x T => s.relative_helmholtz_free_energy_per_link x T
    nd_energy := fun x T => s.nondimensional_helmholtz_free_energy x T
    nd_energy_per_link := fun x T => s.nondimensional_helmholtz_free_energy_per_link x T
    nd_relative := fun x _ => s.nondimensional_relative_helmholtz_free_energy x
    nd_relative_per_link := fun x _ => s.nondimensional_relative_helmholtz_free_energy_per_link x }

/-- `src/physics/single_chain/fjc/thermodynamics/isometric/mod.rs`: the forces methods of `FJC`. -/
noncomputable def fjc_isometric_forces (N : ℕ) (ℓ : ℝ) (m : ℝ) : ForceMethods :=
  let s := (Polymers.fjc.FJC.init N ℓ m).thermodynamics.isometric
  { force := fun x T => s.force x T
    nd_force := fun x _ => s.nondimensional_force x }

/-- `src/physics/single_chain/fjc/thermodynamics/isometric/mod.rs`: the distribution methods of `FJC`. -/
noncomputable def fjc_isometric_distribution (N : ℕ) (ℓ : ℝ) (m : ℝ) : DistributionMethods :=
  let s := (Polymers.fjc.FJC.init N ℓ m).thermodynamics.isometric
  { density := fun x => s.equilibrium_distribution x
    nd_density := fun x => s.nondimensional_equilibrium_distribution x
    radial := fun x => s.equilibrium_radial_distribution x
    nd_radial := fun x => s.nondimensional_equilibrium_radial_distribution x }

/-- `src/physics/single_chain/fjc/thermodynamics/isotensional/mod.rs`: the gibbs methods of `FJC`. -/
noncomputable def fjc_isotensional_gibbs (N : ℕ) (ℓ : ℝ) (m : ℝ) : EnergyMethods :=
  let s := (Polymers.fjc.FJC.init N ℓ m).thermodynamics.isotensional
  { energy := fun x T => s.gibbs_free_energy x T
    energy_per_link := fun x T => s.gibbs_free_energy_per_link x T
    relative := fun x T => s.relative_gibbs_free_energy x T
    relative_per_link := fun x T => s.relative_gibbs_free_energy_per_link x T
    nd_energy := fun x T => s.nondimensional_gibbs_free_energy x T
    nd_energy_per_link := fun x T => s.nondimensional_gibbs_free_energy_per_link x T
    nd_relative := fun x _ => s.nondimensional_relative_gibbs_free_energy x
    nd_relative_per_link := fun x _ => s.nondimensional_relative_gibbs_free_energy_per_link x }

/-- `src/physics/single_chain/fjc/thermodynamics/isotensional/mod.rs`: the lengths methods of `FJC`. -/
noncomputable def fjc_isotensional_lengths (N : ℕ) (ℓ : ℝ) (m : ℝ) : LengthMethods :=
  let s := (Polymers.fjc.FJC.init N ℓ m).thermodynamics.isotensional
  { length := fun x T => s.end_to_end_length x T
    length_per_link := fun x T => s.end_to_end_length_per_link x T
    nd_length := fun x _ => s.nondimensional_end_to_end_length x
    nd_length_per_link := fun x _ => s.nondimensional_end_to_end_length_per_link x }

/-- `src/physics/single_chain/efjc/thermodynamics/isometric/asymptotic/alternative/legendre/mod.rs`: the helmholtz methods of `EFJC`. -/
noncomputable def efjc_isometric_asymptotic_alternative_legendre_helmholtz (N : ℕ) (ℓ : ℝ) (m : ℝ) (k : ℝ) : EnergyMethods :=
  let s := (Polymers.efjc.EFJC.init N ℓ m k).thermodynamics.isometric.asymptotic.alternative.legendre
  { energy := fun x T => s.helmholtz_free_energy x T
    energy_per_link := fun x T => s.helmholtz_free_energy_per_link x T
    relative := fun x T => s.relative_helmholtz_free_energy x T
    relative_per_link := fun x T => s.relative_helmholtz_free_energy_per_link x T
    nd_energy := fun x T => s.nondimensional_helmholtz_free_energy x T
    nd_energy_per_link := fun x T => s.nondimensional_helmholtz_free_energy_per_link x T
    nd_relative := fun x T => s.nondimensional_relative_helmholtz_free_energy x T
    nd_relative_per_link := fun x T => s.nondimensional_relative_helmholtz_free_energy_per_link x T }

/-- `src/physics/single_chain/efjc/thermodynamics/isometric/asymptotic/alternative/legendre/mod.rs`: the forces methods of `EFJC`. -/
noncomputable def efjc_isometric_asymptotic_alternative_legendre_forces (N : ℕ) (ℓ : ℝ) (m : ℝ) (k : ℝ) : ForceMethods :=
  let s := (Polymers.efjc.EFJC.init N ℓ m k).thermodynamics.isometric.asymptotic.alternative.legendre
  { force := fun x T => s.force x T
    nd_force := fun x T => s.nondimensional_force x T }

/-- `src/physics/single_chain/efjc/thermodynamics/isometric/asymptotic/reduced/legendre/mod.rs`: the helmholtz methods of `EFJC`. -/
noncomputable def efjc_isometric_asymptotic_reduced_legendre_helmholtz (N : ℕ) (ℓ : ℝ) (m : ℝ) (k : ℝ) : EnergyMethods :=
  let s := (Polymers.efjc.EFJC.init N ℓ m k).thermodynamics.isometric.asymptotic.reduced.legendre
  { energy := fun x T => s.helmholtz_free_energy x T
    energy_per_link := fun x T => s.helmholtz_free_energy_per_link x T
    relative := fun x T => s.relative_helmholtz_free_energy x T
    relative_per_link := fun x T => s.relative_helmholtz_free_energy_per_link x T
    nd_energy := fun x T => s.nondimensional_helmholtz_free_energy x T
    nd_energy_per_link := fun x T => s.nondimensional_helmholtz_free_energy_per_link x T
    nd_relative := fun x T => s.nondimensional_relative_helmholtz_free_energy x T
    nd_relative_per_link := fun x T => s.nondimensional_relative_helmholtz_free_energy_per_link x T }

/-- `src/physics/single_chain/efjc/thermodynamics/isometric/asymptotic/reduced/legendre/mod.rs`: the forces methods of `EFJC`. -/
noncomputable def efjc_isometric_asymptotic_reduced_legendre_forces (N : ℕ) (ℓ : ℝ) (m : ℝ) (k : ℝ) : ForceMethods :=
  let s := (Polymers.efjc.EFJC.init N ℓ m k).thermodynamics.isometric.asymptotic.reduced.legendre
  { force := fun x T => s.force x T
    nd_force := fun x T => s.nondimensional_force x T }

/-- `src/physics/single_chain/efjc/thermodynamics/isotensional/asymptotic/alternative/legendre/mod.rs`: the helmholtz methods of `EFJC`. -/
noncomputable def efjc_isotensional_asymptotic_alternative_legendre_helmholtz (N : ℕ) (ℓ : ℝ) (m : ℝ) (k : ℝ) : EnergyMethods :=
  let s := (Polymers.efjc.EFJC.init N ℓ m k).thermodynamics.isotensional.asymptotic.alternative.legendre
  { energy := fun x T => s.helmholtz_free_energy x T
    energy_per_link := fun x T => s.helmholtz_free_energy_per_link x T
    relative := fun x T => s.relative_helmholtz_free_energy x T
    relative_per_link := fun x T => s.relative_helmholtz_free_energy_per_link x T
    nd_energy := fun x T => s.nondimensional_helmholtz_free_energy x T
    nd_energy_per_link := fun x T => s.nondimensional_helmholtz_free_energy_per_link x T
    nd_relative := fun x T => s.nondimensional_relative_helmholtz_free_energy x T
    nd_relative_per_link := fun x T => s.nondimensional_relative_helmholtz_free_energy_per_link x T }

/-- `src/physics/single_chain/efjc/thermodynamics/isotensional/asymptotic/reduced/legendre/mod.rs`: the helmholtz methods of `EFJC`. -/
noncomputable def efjc_isotensional_asymptotic_reduced_legendre_helmholtz (N : ℕ) (ℓ : ℝ) (m : ℝ) (k : ℝ) : EnergyMethods :=
  let s := (Polymers.efjc.EFJC.init N ℓ m k).thermodynamics.isotensional.asymptotic.reduced.legendre
  { energy := fun x T => s.helmholtz_free_energy x T
    energy_per_link := fun x T => s.helmholtz_free_energy_per_link x T
    relative := fun x T => s.relative_helmholtz_free_energy x T
    relative_per_link := fun x T => s.relative_helmholtz_free_energy_per_link x T
    nd_energy := fun x T => s.nondimensional_helmholtz_free_energy x T
    nd_energy_per_link := fun x T => s.nondimensional_helmholtz_free_energy_per_link x T
    nd_relative := fun x T => s.nondimensional_relative_helmholtz_free_energy x T
    nd_relative_per_link := fun x T => s.nondimensional_relative_helmholtz_free_energy_per_link x T }

/-- `src/physics/single_chain/efjc/thermodynamics/isometric/asymptotic/legendre/mod.rs`: the helmholtz methods of `EFJC`. -/
noncomputable def efjc_isometric_asymptotic_legendre_helmholtz (N : ℕ) (ℓ : ℝ) (m : ℝ) (k : ℝ) : EnergyMethods :=
  let s := (Polymers.efjc.EFJC.init N ℓ m k).thermodynamics.isometric.asymptotic.legendre
  { energy := fun x T => s.helmholtz_free_energy x T
    energy_per_link := fun x T => s.helmholtz_free_energy_per_link x T
    relative := fun x T => s.relative_helmholtz_free_energy x T
    relative_per_link := fun x T => s.relative_helmholtz_free_energy_per_link x T
    nd_energy := fun x T => s.nondimensional_helmholtz_free_energy x T
    nd_energy_per_link := fun x T => s.nondimensional_helmholtz_free_energy_per_link x T
    nd_relative := fun x T => s.nondimensional_relative_helmholtz_free_energy x T
    nd_relative_per_link := fun x T => s.nondimensional_relative_helmholtz_free_energy_per_link x T }

/-- `src/physics/single_chain/efjc/thermodynamics/isometric/asymptotic/legendre/mod.rs`: the forces methods of `EFJC`. -/
noncomputable def efjc_isometric_asymptotic_legendre_forces (N : ℕ) (ℓ : ℝ) (m : ℝ) (k : ℝ) : ForceMethods :=
  let s := (Polymers.efjc.EFJC.init N ℓ m k).thermodynamics.isometric.asymptotic.legendre
  { force := fun x T => s.force x T
    nd_force := fun x T => s.nondimensional_force x T }

/-- `src/physics/single_chain/efjc/thermodynamics/isotensional/asymptotic/alternative/mod.rs`: the gibbs methods of `EFJC`. -/
noncomputable def efjc_isotensional_asymptotic_alternative_gibbs (N : ℕ) (ℓ : ℝ) (m : ℝ) (k : ℝ) : EnergyMethods :=
  let s := (Polymers.efjc.EFJC.init N ℓ m k).thermodynamics.isotensional.asymptotic.alternative
  { energy := fun x T => s.gibbs_free_energy x T
    energy_per_link := fun x T => s.gibbs_free_energy_per_link x T
    relative := fun x T => s.relative_gibbs_free_energy x T
    relative_per_link := fun x T => s.relative_gibbs_free_energy_per_link x T
    nd_energy := fun x T => s.nondimensional_gibbs_free_energy x T
    nd_energy_per_link := fun x T => s.nondimensional_gibbs_free_energy_per_link x T
    nd_relative := fun x T => s.nondimensional_relative_gibbs_free_energy x T
    nd_relative_per_link := fun x T => s.nondimensional_relative_gibbs_free_energy_per_link x T }

/-- `src/physics/single_chain/efjc/thermodynamics/isotensional/asymptotic/alternative/mod.rs`: the lengths methods of `EFJC`. -/
noncomputable def efjc_isotensional_asymptotic_alternative_lengths (N : ℕ) (ℓ : ℝ) (m : ℝ) (k : ℝ) : LengthMethods :=
  let s := (Polymers.efjc.EFJC.init N ℓ m k).thermodynamics.isotensional.asymptotic.alternative
  { length := fun x T => s.end_to_end_length x T
    length_per_link := fun x T => s.end_to_end_length_per_link x T
    nd_length := fun x T => s.nondimensional_end_to_end_length x T
    nd_length_per_link := fun x T => s.nondimensional_end_to_end_length_per_link x T }

/-- `src/physics/single_chain/efjc/thermodynamics/isotensional/asymptotic/legendre/mod.rs`: the helmholtz methods of `EFJC`. -/
noncomputable def efjc_isotensional_asymptotic_legendre_helmholtz (N : ℕ) (ℓ : ℝ) (m : ℝ) (k : ℝ) : EnergyMethods :=
  let s := (Polymers.efjc.EFJC.init N ℓ m k).thermodynamics.isotensional.asymptotic.legendre
  { energy := fun x T => s.helmholtz_free_energy x T
    energy_per_link := fun x T => s.helmholtz_free_energy_per_link x T
    relative := fun x T => s.relative_helmholtz_free_energy x T
    relative_per_link := fun x T => s.relative_helmholtz_free_energy_per_link x T
    nd_energy := fun x T => s.nondimensional_helmholtz_free_energy x T
    nd_energy_per_link := fun x T => s.nondimensional_helmholtz_free_energy_per_link x T
    nd_relative := fun x T => s.nondimensional_relative_helmholtz_free_energy x T
    nd_relative_per_link := fun x T => s.nondimensional_relative_helmholtz_free_energy_per_link x T }

/-- `src/physics/single_chain/efjc/thermodynamics/isotensional/asymptotic/reduced/mod.rs`: the gibbs methods of `EFJC`. -/
noncomputable def efjc_isotensional_asymptotic_reduced_gibbs (N : ℕ) (ℓ : ℝ) (m : ℝ) (k : ℝ) : EnergyMethods :=
  let s := (Polymers.efjc.EFJC.init N ℓ m k).thermodynamics.isotensional.asymptotic.reduced
  { energy := fun x T => s.gibbs_free_energy x T
    energy_per_link := fun x T => s.gibbs_free_energy_per_link x T
    relative := fun x T => s.relative_gibbs_free_energy x T
    relative_per_link := fun x T => s.relative_gibbs_free_energy_per_link x T
    nd_energy := fun x T => s.nondimensional_gibbs_free_energy x T
    nd_energy_per_link := fun x T => s.nondimensional_gibbs_free_energy_per_link x T
    nd_relative := fun x T => s.nondimensional_relative_gibbs_free_energy x T
    nd_relative_per_link := fun x T => s.nondimensional_relative_gibbs_free_energy_per_link x T }

/-- `src/physics/single_chain/efjc/thermodynamics/isotensional/asymptotic/reduced/mod.rs`: the lengths methods of `EFJC`. -/
noncomputable def efjc_isotensional_asymptotic_reduced_lengths (N : ℕ) (ℓ : ℝ) (m : ℝ) (k : ℝ) : LengthMethods :=
  let s := (Polymers.efjc.EFJC.init N ℓ m k).thermodynamics.isotensional.asymptotic.reduced
  { length := fun x T => s.end_to_end_length x T
    length_per_link := fun x T => s.end_to_end_length_per_link x T
    nd_length := fun x T => s.nondimensional_end_to_end_length x T
    nd_length_per_link := fun x T => s.nondimensional_end_to_end_length_per_link x T }

/-- `src/physics/single_chain/efjc/thermodynamics/isotensional/asymptotic/mod.rs`: the gibbs methods of `EFJC`. -/
noncomputable def efjc_isotensional_asymptotic_gibbs (N : ℕ) (ℓ : ℝ) (m : ℝ) (k : ℝ) : EnergyMethods :=
  let s := (Polymers.efjc.EFJC.init N ℓ m k).thermodynamics.isotensional.asymptotic
  { energy := fun x T => s.gibbs_free_energy x T
    energy_per_link := fun x T => s.gibbs_free_energy_per_link x T
    relative := fun x T => s.relative_gibbs_free_energy x T
    relative_per_link := fun x T => s.relative_gibbs_free_energy_per_link x T
    nd_energy := fun x T => s.nondimensional_gibbs_free_energy x T
    nd_energy_per_link := fun x T => s.nondimensional_gibbs_free_energy_per_link x T
    nd_relative := fun x T => s.nondimensional_relative_gibbs_free_energy x T
    nd_relative_per_link := fun x T => s.nondimensional_relative_gibbs_free_energy_per_link x T }

/-- `src/physics/single_chain/efjc/thermodynamics/isotensional/asymptotic/mod.rs`: the lengths methods of `EFJC`. -/
noncomputable def efjc_isotensional_asymptotic_lengths (N : ℕ) (ℓ : ℝ) (m : ℝ) (k : ℝ) : LengthMethods :=
  let s := (Polymers.efjc.EFJC.init N ℓ m k).thermodynamics.isotensional.asymptotic
  { length := fun x T => s.end_to_end_length x T
    length_per_link := fun x T => s.end_to_end_length_per_link x T
    nd_length := fun x T => s.nondimensional_end_to_end_length x T
    nd_length_per_link := fun x T => s.nondimensional_end_to_end_length_per_link x T }

/-- `src/physics/single_chain/efjc/thermodynamics/isotensional/legendre/mod.rs`: the helmholtz methods of `EFJC`. -/
noncomputable def efjc_isotensional_legendre_helmholtz (N : ℕ) (ℓ : ℝ) (m : ℝ) (k : ℝ) : EnergyMethods :=
  let s := (Polymers.efjc.EFJC.init N ℓ m k).thermodynamics.isotensional.legendre
  { energy := fun x T => s.helmholtz_free_energy x T
    energy_per_link := fun x T => s.helmholtz_free_energy_per_link x T
    relative := fun x T => s.relative_helmholtz_free_energy x T
    relative_per_link := fun x T => s.relative_helmholtz_free_energy_per_link x T
    nd_energy := fun x T => s.nondimensional_helmholtz_free_energy x T
    nd_energy_per_link := fun x T => s.nondimensional_helmholtz_free_energy_per_link x T
    nd_relative := fun x T => s.nondimensional_relative_helmholtz_free_energy x T
    nd_relative_per_link := fun x T => s.nondimensional_relative_helmholtz_free_energy_per_link x T }

/-- `src/physics/single_chain/efjc/thermodynamics/isotensional/mod.rs`: the gibbs methods of `EFJC`. -/
noncomputable def efjc_isotensional_gibbs (N : ℕ) (ℓ : ℝ) (m : ℝ) (k : ℝ) : EnergyMethods :=
  let s := (Polymers.efjc.EFJC.init N ℓ m k).thermodynamics.isotensional
  { energy := fun x T => s.gibbs_free_energy x T
    energy_per_link := fun x T => s.gibbs_free_energy_per_link x T
    relative := fun x T => s.relative_gibbs_free_energy x T
    relative_per_link := fun x T => s.relative_gibbs_free_energy_per_link x T
    nd_energy := fun x T => s.nondimensional_gibbs_free_energy x T
    nd_energy_per_link := fun x T => s.nondimensional_gibbs_free_energy_per_link x T
    nd_relative := fun x T => s.nondimensional_relative_gibbs_free_energy x T
    nd_relative_per_link := fun x T => s.nondimensional_relative_gibbs_free_energy_per_link x T }

/-- `src/physics/single_chain/efjc/thermodynamics/isotensional/mod.rs`: the lengths methods of `EFJC`. -/
noncomputable def efjc_isotensional_lengths (N : ℕ) (ℓ : ℝ) (m : ℝ) (k : ℝ) : LengthMethods :=
  let s := (Polymers.efjc.EFJC.init N ℓ m k).thermodynamics.isotensional
  { length := fun x T => s.end_to_end_length x T
    length_per_link := fun x T => s.end_to_end_length_per_link x T
    nd_length := fun x T => s.nondimensional_end_to_end_length x T
    nd_length_per_link := fun x T => s.nondimensional_end_to_end_length_per_link x T }

/-- `src/physics/single_chain/swfjc/thermodynamics/isometric/legendre/mod.rs`: the helmholtz methods of `SWFJC`. -/
noncomputable def swfjc_isometric_legendre_helmholtz (N : ℕ) (ℓ : ℝ) (m : ℝ) (w : ℝ) : EnergyMethods :=
  let s := (Polymers.swfjc.SWFJC.init N ℓ m w).thermodynamics.isometric.legendre
  { energy := fun x T => s.helmholtz_free_energy x T
    energy_per_link := fun x T => s.helmholtz_free_energy_per_link x T
    relative := fun x T => s.relative_helmholtz_free_energy x T
    relative_per_link := fun x T => s.relative_helmholtz_free_energy_per_link x T
    nd_energy := fun x T => s.nondimensional_helmholtz_free_energy x T
    nd_energy_per_link := fun x T => s.nondimensional_helmholtz_free_energy_per_link x T
    nd_relative := fun x _ => s.nondimensional_relative_helmholtz_free_energy x
    nd_relative_per_link := fun x _ => s.nondimensional_relative_helmholtz_free_energy_per_link x }

/-- `src/physics/single_chain/swfjc/thermodynamics/isometric/legendre/mod.rs`: the forces methods of `SWFJC`. -/
noncomputable def swfjc_isometric_legendre_forces (N : ℕ) (ℓ : ℝ) (m : ℝ) (w : ℝ) : ForceMethods :=
  let s := (Polymers.swfjc.SWFJC.init N ℓ m w).thermodynamics.isometric.legendre
  { force := fun x T => s.force x T
    nd_force := fun x _ => s.nondimensional_force x }

/-- `src/physics/single_chain/swfjc/thermodynamics/isometric/legendre/mod.rs`: the distribution methods of `SWFJC`. -/
noncomputable def swfjc_isometric_legendre_distribution (N : ℕ) (ℓ : ℝ) (m : ℝ) (w : ℝ) : DistributionMethods :=
  let s := (Polymers.swfjc.SWFJC.init N ℓ m w).thermodynamics.isometric.legendre
  { density := fun x => s.equilibrium_distribution x
    nd_density := fun x => s.nondimensional_equilibrium_distribution x
    radial := fun x => s.equilibrium_radial_distribution x
    nd_radial := fun x => s.nondimensional_equilibrium_radial_distribution x }

/-- `src/physics/single_chain/swfjc/thermodynamics/isotensional/legendre/mod.rs`: the helmholtz methods of `SWFJC`. -/
noncomputable def swfjc_isotensional_legendre_helmholtz (N : ℕ) (ℓ : ℝ) (m : ℝ) (w : ℝ) : EnergyMethods :=
  let s := (Polymers.swfjc.SWFJC.init N ℓ m w).thermodynamics.isotensional.legendre
  { energy := fun x T => s.helmholtz_free_energy x T
    energy_per_link := fun x T => s.helmholtz_free_energy_per_link x T
    relative := fun x T => s.relative_helmholtz_free_energy x T
    relative_per_link := fun x T => s.relative_helmholtz_free_energy_per_link x T
    nd_energy := fun x T => s.nondimensional_helmholtz_free_energy x T
    nd_energy_per_link := fun x T => s.nondimensional_helmholtz_free_energy_per_link x T
    nd_relative := fun x _ => s.nondimensional_relative_helmholtz_free_energy x
    nd_relative_per_link := fun x _ => s.nondimensional_relative_helmholtz_free_energy_per_link x }

/-- `src/physics/single_chain/swfjc/thermodynamics/isotensional/mod.rs`: the gibbs methods of `SWFJC`. -/
noncomputable def swfjc_isotensional_gibbs (N : ℕ) (ℓ : ℝ) (m : ℝ) (w : ℝ) : EnergyMethods :=
  let s := (Polymers.swfjc.SWFJC.init N ℓ m w).thermodynamics.isotensional
  { energy := fun x T => s.gibbs_free_energy x T
    energy_per_link := fun x T => s.gibbs_free_energy_per_link x T
    relative := fun x T => s.relative_gibbs_free_energy x T
    relative_per_link := fun x T => s.relative_gibbs_free_energy_per_link x T
    nd_energy := fun x T => s.nondimensional_gibbs_free_energy x T
    nd_energy_per_link := fun x T => s.nondimensional_gibbs_free_energy_per_link x T
    nd_relative := fun x _ => s.nondimensional_relative_gibbs_free_energy x
    nd_relative_per_link := fun x _ => s.nondimensional_relative_gibbs_free_energy_per_link x }

/-- `src/physics/single_chain/swfjc/thermodynamics/isotensional/mod.rs`: the lengths methods of `SWFJC`. -/
noncomputable def swfjc_isotensional_lengths (N : ℕ) (ℓ : ℝ) (m : ℝ) (w : ℝ) : LengthMethods :=
  let s := (Polymers.swfjc.SWFJC.init N ℓ m w).thermodynamics.isotensional
  { length := fun x T => s.end_to_end_length x T
    length_per_link := fun x T => s.end_to_end_length_per_link x T
    nd_length := fun x _ => s.nondimensional_end_to_end_length x
    nd_length_per_link := fun x _ => s.nondimensional_end_to_end_length_per_link x }

/-- `src/physics/single_chain/ufjc/lennard_jones/thermodynamics/isometric/asymptotic/reduced/legendre/mod.rs`: the helmholtz methods of `LENNARDJONESFJC`. -/
noncomputable def lennard_jones_isometric_asymptotic_reduced_legendre_helmholtz (N : ℕ) (ℓ : ℝ) (m : ℝ) (k : ℝ) : EnergyMethods :=
  let s := (Polymers.ufjc.lennard_jones.LENNARDJONESFJC.init N ℓ m k).thermodynamics.isometric.asymptotic.reduced.legendre
  { energy := fun x T => s.helmholtz_free_energy x T
    energy_per_link := fun x T => s.helmholtz_free_energy_per_link x T
    relative := fun x T => s.relative_helmholtz_free_energy x T
    relative_per_link := fun x T => s.relative_helmholtz_free_energy_per_link x T
    nd_energy := fun x T => s.nondimensional_helmholtz_free_energy x T
    nd_energy_per_link := fun x T => s.nondimensional_helmholtz_free_energy_per_link x T
    nd_relative := fun x T => s.nondimensional_relative_helmholtz_free_energy x T
    nd_relative_per_link := fun x T => s.nondimensional_relative_helmholtz_free_energy_per_link x T }

/-- `src/physics/single_chain/ufjc/lennard_jones/thermodynamics/isometric/asymptotic/reduced/legendre/mod.rs`: the forces methods of `LENNARDJONESFJC`. -/
noncomputable def lennard_jones_isometric_asymptotic_reduced_legendre_forces (N : ℕ) (ℓ : ℝ) (m : ℝ) (k : ℝ) : ForceMethods :=
  let s := (Polymers.ufjc.lennard_jones.LENNARDJONESFJC.init N ℓ m k).thermodynamics.isometric.asymptotic.reduced.legendre
  { force := fun x T => s.force x T
    nd_force := fun x T => s.nondimensional_force x T }

/-- `src/physics/single_chain/ufjc/lennard_jones/thermodynamics/isotensional/asymptotic/reduced/legendre/mod.rs`: the helmholtz methods of `LENNARDJONESFJC`. -/
noncomputable def lennard_jones_isotensional_asymptotic_reduced_legendre_helmholtz (N : ℕ) (ℓ : ℝ) (m : ℝ) (k : ℝ) : EnergyMethods :=
  let s := (Polymers.ufjc.lennard_jones.LENNARDJONESFJC.init N ℓ m k).thermodynamics.isotensional.asymptotic.reduced.legendre
  { energy := fun x T => s.helmholtz_free_energy x T
    energy_per_link := fun x T => s.helmholtz_free_energy_per_link x T
    relative := fun x T => s.relative_helmholtz_free_energy x T
    relative_per_link := fun x T => s.relative_helmholtz_free_energy_per_link x T
    nd_energy := fun x T => s.nondimensional_helmholtz_free_energy x T
    nd_energy_per_link := fun x T => s.nondimensional_helmholtz_free_energy_per_link x T
    nd_relative := fun x T => s.nondimensional_relative_helmholtz_free_energy x T
    nd_relative_per_link := fun x T => s.nondimensional_relative_helmholtz_free_energy_per_link x T }

/-- `src/physics/single_chain/ufjc/lennard_jones/thermodynamics/isometric/asymptotic/legendre/mod.rs`: the helmholtz methods of `LENNARDJONESFJC`. -/
noncomputable def lennard_jones_isometric_asymptotic_legendre_helmholtz (N : ℕ) (ℓ : ℝ) (m : ℝ) (k : ℝ) : EnergyMethods :=
  let s := (Polymers.ufjc.lennard_jones.LENNARDJONESFJC.init N ℓ m k).thermodynamics.isometric.asymptotic.legendre
  { energy := fun x T => s.helmholtz_free_energy x T
    energy_per_link := fun x T => s.helmholtz_free_energy_per_link x T
    relative := fun x T => s.relative_helmholtz_free_energy x T
    relative_per_link := fun x T => s.relative_helmholtz_free_energy_per_link x T
    nd_energy := fun x T => s.nondimensional_helmholtz_free_energy x T
    nd_energy_per_link := fun x T => s.nondimensional_helmholtz_free_energy_per_link x T
    nd_relative := fun x T => s.nondimensional_relative_helmholtz_free_energy x T
    nd_relative_per_link := fun x T => s.nondimensional_relative_helmholtz_free_energy_per_link x T }

/-- `src/physics/single_chain/ufjc/lennard_jones/thermodynamics/isometric/asymptotic/legendre/mod.rs`: the forces methods of `LENNARDJONESFJC`. -/
noncomputable def lennard_jones_isometric_asymptotic_legendre_forces (N : ℕ) (ℓ : ℝ) (m : ℝ) (k : ℝ) : ForceMethods :=
  let s := (Polymers.ufjc.lennard_jones.LENNARDJONESFJC.init N ℓ m k).thermodynamics.isometric.asymptotic.legendre
  { force := fun x T => s.force x T
    nd_force := fun x T => s.nondimensional_force x T }

/-- `src/physics/single_chain/ufjc/lennard_jones/thermodynamics/isotensional/asymptotic/legendre/mod.rs`: the helmholtz methods of `LENNARDJONESFJC`. -/
noncomputable def lennard_jones_isotensional_asymptotic_legendre_helmholtz (N : ℕ) (ℓ : ℝ) (m : ℝ) (k : ℝ) : EnergyMethods :=
  let s := (Polymers.ufjc.lennard_jones.LENNARDJONESFJC.init N ℓ m k).thermodynamics.isotensional.asymptotic.legendre
  { energy := fun x T => s.helmholtz_free_energy x T
    energy_per_link := fun x T => s.helmholtz_free_energy_per_link x T
    relative := fun x T => s.relative_helmholtz_free_energy x T
    relative_per_link := fun x T => s.relative_helmholtz_free_energy_per_link x T
    nd_energy := fun x T => s.nondimensional_helmholtz_free_energy x T
    nd_energy_per_link := fun x T => s.nondimensional_helmholtz_free_energy_per_link x T
    nd_relative := fun x T => s.nondimensional_relative_helmholtz_free_energy x T
    nd_relative_per_link := fun x T => s.nondimensional_relative_helmholtz_free_energy_per_link x T }

/-- `src/physics/single_chain/ufjc/lennard_jones/thermodynamics/isotensional/asymptotic/reduced/mod.rs`: the gibbs methods of `LENNARDJONESFJC`. -/
noncomputable def lennard_jones_isotensional_asymptotic_reduced_gibbs (N : ℕ) (ℓ : ℝ) (m : ℝ) (k : ℝ) : EnergyMethods :=
  let s := (Polymers.ufjc.lennard_jones.LENNARDJONESFJC.init N ℓ m k).thermodynamics.isotensional.asymptotic.reduced
  { energy := fun x T => s.gibbs_free_energy x T
    energy_per_link := fun x T => s.gibbs_free_energy_per_link x T
    relative := fun x T => s.relative_gibbs_free_energy x T
    relative_per_link := fun x T => s.relative_gibbs_free_energy_per_link x T
    nd_energy := fun x T => s.nondimensional_gibbs_free_energy x T
    nd_energy_per_link := fun x T => s.nondimensional_gibbs_free_energy_per_link x T
    nd_relative := fun x T => s.nondimensional_relative_gibbs_free_energy x T
    nd_relative_per_link := fun x T => s.nondimensional_relative_gibbs_free_energy_per_link x T }

/-- `src/physics/single_chain/ufjc/lennard_jones/thermodynamics/isotensional/asymptotic/reduced/mod.rs`: the lengths methods of `LENNARDJONESFJC`. -/
noncomputable def lennard_jones_isotensional_asymptotic_reduced_lengths (N : ℕ) (ℓ : ℝ) (m : ℝ) (k : ℝ) : LengthMethods :=
  let s := (Polymers.ufjc.lennard_jones.LENNARDJONESFJC.init N ℓ m k).thermodynamics.isotensional.asymptotic.reduced
  { length := fun x T => s.end_to_end_length x T
    length_per_link := fun x T => s.end_to_end_length_per_link x T
    nd_length := fun x T => s.nondimensional_end_to_end_length x T
    nd_length_per_link := fun x T => s.nondimensional_end_to_end_length_per_link x T }

/-- `src/physics/single_chain/ufjc/lennard_jones/thermodynamics/isotensional/asymptotic/mod.rs`: the gibbs methods of `LENNARDJONESFJC`. -/
noncomputable def lennard_jones_isotensional_asymptotic_gibbs (N : ℕ) (ℓ : ℝ) (m : ℝ) (k : ℝ) : EnergyMethods :=
  let s := (Polymers.ufjc.lennard_jones.LENNARDJONESFJC.init N ℓ m k).thermodynamics.isotensional.asymptotic
  { energy := fun x T => s.gibbs_free_energy x T
    energy_per_link := fun x T => s.gibbs_free_energy_per_link x T
    relative := fun x T => s.relative_gibbs_free_energy x T
    relative_per_link := fun x T => s.relative_gibbs_free_energy_per_link x T
    nd_energy := fun x T => s.nondimensional_gibbs_free_energy x T
    nd_energy_per_link := fun x T => s.nondimensional_gibbs_free_energy_per_link x T
    nd_relative := fun x T => s.nondimensional_relative_gibbs_free_energy x T
    nd_relative_per_link := fun x T => s.nondimensional_relative_gibbs_free_energy_per_link x T }

/-- `src/physics/single_chain/ufjc/lennard_jones/thermodynamics/isotensional/asymptotic/mod.rs`: the lengths methods of `LENNARDJONESFJC`. -/
noncomputable def lennard_jones_isotensional_asymptotic_lengths (N : ℕ) (ℓ : ℝ) (m : ℝ) (k : ℝ) : LengthMethods :=
  let s := (Polymers.ufjc.lennard_jones.LENNARDJONESFJC.init N ℓ m k).thermodynamics.isotensional.asymptotic
  { length := fun x T => s.end_to_end_length x T
    length_per_link := fun x T => s.end_to_end_length_per_link x T
    nd_length := fun x T => s.nondimensional_end_to_end_length x T
    nd_length_per_link := fun x T => s.nondimensional_end_to_end_length_per_link x T }

/-- `src/physics/single_chain/ufjc/lennard_jones/thermodynamics/isotensional/legendre/mod.rs`: the helmholtz methods of `LENNARDJONESFJC`. -/
noncomputable def lennard_jones_isotensional_legendre_helmholtz (N : ℕ) (ℓ : ℝ) (m : ℝ) (k : ℝ) : EnergyMethods :=
  let s := (Polymers.ufjc.lennard_jones.LENNARDJONESFJC.init N ℓ m k).thermodynamics.isotensional.legendre
  { energy := fun x T => s.helmholtz_free_energy x T
    energy_per_link := fun x T => s.helmholtz_free_energy_per_link x T
    relative := fun x T => s.relative_helmholtz_free_energy x T
    relative_per_link := fun x T => s.relative_helmholtz_free_energy_per_link x T
    nd_energy := fun x T => s.nondimensional_helmholtz_free_energy x T
    nd_energy_per_link := fun x T => s.nondimensional_helmholtz_free_energy_per_link x T
    nd_relative := fun x T => s.nondimensional_relative_helmholtz_free_energy x T
    nd_relative_per_link := fun x T => s.nondimensional_relative_helmholtz_free_energy_per_link x T }

/-- `src/physics/single_chain/ufjc/lennard_jones/thermodynamics/isotensional/mod.rs`: the gibbs methods of `LENNARDJONESFJC`. -/
noncomputable def lennard_jones_isotensional_gibbs (N : ℕ) (ℓ : ℝ) (m : ℝ) (k : ℝ) : EnergyMethods :=
  let s := (Polymers.ufjc.lennard_jones.LENNARDJONESFJC.init N ℓ m k).thermodynamics.isotensional
  { energy := fun x T => s.gibbs_free_energy x T
    energy_per_link := fun x T => s.gibbs_free_energy_per_link x T
    relative := fun x T => s.relative_gibbs_free_energy x T
    relative_per_link := fun x T => s.relative_gibbs_free_energy_per_link x T
    nd_energy := fun x T => s.nondimensional_gibbs_free_energy x T
    nd_energy_per_link := fun x T => s.nondimensional_gibbs_free_energy_per_link x T
    nd_relative := fun x T => s.nondimensional_relative_gibbs_free_energy x T
    nd_relative_per_link := fun x T => s.nondimensional_relative_gibbs_free_energy_per_link x T }

/-- `src/physics/single_chain/ufjc/lennard_jones/thermodynamics/isotensional/mod.rs`: the lengths methods of `LENNARDJONESFJC`. -/
noncomputable def lennard_jones_isotensional_lengths (N : ℕ) (ℓ : ℝ) (m : ℝ) (k : ℝ) : LengthMethods :=
  let s := (Polymers.ufjc.lennard_jones.LENNARDJONESFJC.init N ℓ m k).thermodynamics.isotensional
  { length := fun x T => s.end_to_end_length x T
    length_per_link := fun x T => s.end_to_end_length_per_link x T
    nd_length := fun x T => s.nondimensional_end_to_end_length x T
    nd_length_per_link := fun x T => s.nondimensional_end_to_end_length_per_link x T }

/-- `src/physics/single_chain/ufjc/log_squared/thermodynamics/isometric/asymptotic/reduced/legendre/mod.rs`: the helmholtz methods of `LOGSQUAREDFJC`. -/
noncomputable def log_squared_isometric_asymptotic_reduced_legendre_helmholtz (N : ℕ) (ℓ : ℝ) (m : ℝ) (k : ℝ) : EnergyMethods :=
  let s := (Polymers.ufjc.log_squared.LOGSQUAREDFJC.init N ℓ m k).thermodynamics.isometric.asymptotic.reduced.legendre
  { energy := fun x T => s.helmholtz_free_energy x T
    energy_per_link := fun x T => s.helmholtz_free_energy_per_link x T
    relative := fun x T => s.relative_helmholtz_free_energy x T
    relative_per_link := fun x T => s.relative_helmholtz_free_energy_per_link x T
    nd_energy := fun x T => s.nondimensional_helmholtz_free_energy x T
    nd_energy_per_link := fun x T => s.nondimensional_helmholtz_free_energy_per_link x T
    nd_relative := fun x T => s.nondimensional_relative_helmholtz_free_energy x T
    nd_relative_per_link := fun x T => s.nondimensional_relative_helmholtz_free_energy_per_link x T }

/-- `src/physics/single_chain/ufjc/log_squared/thermodynamics/isometric/asymptotic/reduced/legendre/mod.rs`: the forces methods of `LOGSQUAREDFJC`. -/
noncomputable def log_squared_isometric_asymptotic_reduced_legendre_forces (N : ℕ) (ℓ : ℝ) (m : ℝ) (k : ℝ) : ForceMethods :=
  let s := (Polymers.ufjc.log_squared.LOGSQUAREDFJC.init N ℓ m k).thermodynamics.isometric.asymptotic.reduced.legendre
  { force := fun x T => s.force x T
    nd_force := fun x T => s.nondimensional_force x T }

/-- `src/physics/single_chain/ufjc/log_squared/thermodynamics/isotensional/asymptotic/reduced/legendre/mod.rs`: the helmholtz methods of `LOGSQUAREDFJC`. -/
noncomputable def log_squared_isotensional_asymptotic_reduced_legendre_helmholtz (N : ℕ) (ℓ : ℝ) (m : ℝ) (k : ℝ) : EnergyMethods :=
  let s := (Polymers.ufjc.log_squared.LOGSQUAREDFJC.init N ℓ m k).thermodynamics.isotensional.asymptotic.reduced.legendre
  { energy := fun x T => s.helmholtz_free_energy x T
    energy_per_link := fun x T => s.helmholtz_free_energy_per_link x T
    relative := fun x T => s.relative_helmholtz_free_energy x T
    relative_per_link := fun x T => s.relative_helmholtz_free_energy_per_link x T
    nd_energy := fun x T => s.nondimensional_helmholtz_free_energy x T
    nd_energy_per_link := fun x T => s.nondimensional_helmholtz_free_energy_per_link x T
    nd_relative := fun x T => s.nondimensional_relative_helmholtz_free_energy x T
    nd_relative_per_link := fun x T => s.nondimensional_relative_helmholtz_free_energy_per_link x T }

/-- `src/physics/single_chain/ufjc/log_squared/thermodynamics/isometric/asymptotic/legendre/mod.rs`: the helmholtz methods of `LOGSQUAREDFJC`. -/
noncomputable def log_squared_isometric_asymptotic_legendre_helmholtz (N : ℕ) (ℓ : ℝ) (m : ℝ) (k : ℝ) : EnergyMethods :=
  let s := (Polymers.ufjc.log_squared.LOGSQUAREDFJC.init N ℓ m k).thermodynamics.isometric.asymptotic.legendre
  { energy := fun x T => s.helmholtz_free_energy x T
    energy_per_link := fun x T => s.helmholtz_free_energy_per_link x T
    relative := fun x T => s.relative_helmholtz_free_energy x T
    relative_per_link := fun x T => s.relative_helmholtz_free_energy_per_link x T
    nd_energy := fun x T => s.nondimensional_helmholtz_free_energy x T
    nd_energy_per_link := fun x T => s.nondimensional_helmholtz_free_energy_per_link x T
    nd_relative := fun x T => s.nondimensional_relative_helmholtz_free_energy x T
    nd_relative_per_link := fun x T => s.nondimensional_relative_helmholtz_free_energy_per_link x T }

/-- `src/physics/single_chain/ufjc/log_squared/thermodynamics/isometric/asymptotic/legendre/mod.rs`: the forces methods of `LOGSQUAREDFJC`. -/
noncomputable def log_squared_isometric_asymptotic_legendre_forces (N : ℕ) (ℓ : ℝ) (m : ℝ) (k : ℝ) : ForceMethods :=
  let s := (Polymers.ufjc.log_squared.LOGSQUAREDFJC.init N ℓ m k).thermodynamics.isometric.asymptotic.legendre
  { force := fun x T => s.force x T
    nd_force := fun x T => s.nondimensional_force x T }

/-- `src/physics/single_chain/ufjc/log_squared/thermodynamics/isotensional/asymptotic/legendre/mod.rs`: the helmholtz methods of `LOGSQUAREDFJC`. -/
noncomputable def log_squared_isotensional_asymptotic_legendre_helmholtz (N : ℕ) (ℓ : ℝ) (m : ℝ) (k : ℝ) : EnergyMethods :=
  let s := (Polymers.ufjc.log_squared.LOGSQUAREDFJC.init N ℓ m k).thermodynamics.isotensional.asymptotic.legendre
  { energy := fun x T => s.helmholtz_free_energy x T
    energy_per_link := fun x T => s.helmholtz_free_energy_per_link x T
    relative := fun x T => s.relative_helmholtz_free_energy x T
    relative_per_link := fun x T => s.relative_helmholtz_free_energy_per_link x T
    nd_energy := fun x T => s.nondimensional_helmholtz_free_energy x T
    nd_energy_per_link := fun x T => s.nondimensional_helmholtz_free_energy_per_link x T
    nd_relative := fun x T => s.nondimensional_relative_helmholtz_free_energy x T
    nd_relative_per_link := fun x T => s.nondimensional_relative_helmholtz_free_energy_per_link x T }

/-- `src/physics/single_chain/ufjc/log_squared/thermodynamics/isotensional/asymptotic/reduced/mod.rs`: the gibbs methods of `LOGSQUAREDFJC`. -/
noncomputable def log_squared_isotensional_asymptotic_reduced_gibbs (N : ℕ) (ℓ : ℝ) (m : ℝ) (k : ℝ) : EnergyMethods :=
  let s := (Polymers.ufjc.log_squared.LOGSQUAREDFJC.init N ℓ m k).thermodynamics.isotensional.asymptotic.reduced
  { energy := fun x T => s.gibbs_free_energy x T
    energy_per_link := fun x T => s.gibbs_free_energy_per_link x T
    relative := fun x T => s.relative_gibbs_free_energy x T
    relative_per_link := fun x T => s.relative_gibbs_free_energy_per_link x T
    nd_energy := fun x T => s.nondimensional_gibbs_free_energy x T
    nd_energy_per_link := fun x T => s.nondimensional_gibbs_free_energy_per_link x T
    nd_relative := fun x T => s.nondimensional_relative_gibbs_free_energy x T
    nd_relative_per_link := fun x T => s.nondimensional_relative_gibbs_free_energy_per_link x T }

/-- `src/physics/single_chain/ufjc/log_squared/thermodynamics/isotensional/asymptotic/reduced/mod.rs`: the lengths methods of `LOGSQUAREDFJC`. -/
noncomputable def log_squared_isotensional_asymptotic_reduced_lengths (N : ℕ) (ℓ : ℝ) (m : ℝ) (k : ℝ) : LengthMethods :=
  let s := (Polymers.ufjc.log_squared.LOGSQUAREDFJC.init N ℓ m k).thermodynamics.isotensional.asymptotic.reduced
  { length := fun x T => s.end_to_end_length x T
    length_per_link := fun x T => s.end_to_end_length_per_link x T
    nd_length := fun x T => s.nondimensional_end_to_end_length x T
    nd_length_per_link := fun x T => s.nondimensional_end_to_end_length_per_link x T }

/-- `src/physics/single_chain/ufjc/log_squared/thermodynamics/isotensional/asymptotic/mod.rs`: the gibbs methods of `LOGSQUAREDFJC`. -/
noncomputable def log_squared_isotensional_asymptotic_gibbs (N : ℕ) (ℓ : ℝ) (m : ℝ) (k : ℝ) : EnergyMethods :=
  let s := (Polymers.ufjc.log_squared.LOGSQUAREDFJC.init N ℓ m k).thermodynamics.isotensional.asymptotic
  { energy := fun x T => s.gibbs_free_energy x T
    energy_per_link := fun x T => s.gibbs_free_energy_per_link x T
    relative := fun x T => s.relative_gibbs_free_energy x T
    relative_per_link := fun x T => s.relative_gibbs_free_energy_per_link x T
    nd_energy := fun x T => s.nondimensional_gibbs_free_energy x T
    nd_energy_per_link := fun x T => s.nondimensional_gibbs_free_energy_per_link x T
    nd_relative := fun x T => s.nondimensional_relative_gibbs_free_energy x T
    nd_relative_per_link := fun x T => s.nondimensional_relative_gibbs_free_energy_per_link x T }

/-- `src/physics/single_chain/ufjc/log_squared/thermodynamics/isotensional/asymptotic/mod.rs`: the lengths methods of `LOGSQUAREDFJC`. -/
noncomputable def log_squared_isotensional_asymptotic_lengths (N : ℕ) (ℓ : ℝ) (m : ℝ) (k : ℝ) : LengthMethods :=
  let s := (Polymers.ufjc.log_squared.LOGSQUAREDFJC.init N ℓ m k).thermodynamics.isotensional.asymptotic
  { length := fun x T => s.end_to_end_length x T
    length_per_link := fun x T => s.end_to_end_length_per_link x T
    nd_length := fun x T => s.nondimensional_end_to_end_length x T
    nd_length_per_link := fun x T => s.nondimensional_end_to_end_length_per_link x T }

/-- `src/physics/single_chain/ufjc/log_squared/thermodynamics/isotensional/legendre/mod.rs`: the helmholtz methods of `LOGSQUAREDFJC`. -/
noncomputable def log_squared_isotensional_legendre_helmholtz (N : ℕ) (ℓ : ℝ) (m : ℝ) (k : ℝ) : EnergyMethods :=
  let s := (Polymers.ufjc.log_squared.LOGSQUAREDFJC.init N ℓ m k).thermodynamics.isotensional.legendre
  { energy := fun x T => s.helmholtz_free_energy x T
    energy_per_link := fun x T => s.helmholtz_free_energy_per_link x T
    relative := fun x T => s.relative_helmholtz_free_energy x T
    relative_per_link := fun x T => s.relative_helmholtz_free_energy_per_link x T
    nd_energy := fun x T => s.nondimensional_helmholtz_free_energy x T
    nd_energy_per_link := fun x T => s.nondimensional_helmholtz_free_energy_per_link x T
    nd_relative := fun x T => s.nondimensional_relative_helmholtz_free_energy x T
    nd_relative_per_link := fun x T => s.nondimensional_relative_helmholtz_free_energy_per_link x T }

/-- `src/physics/single_chain/ufjc/log_squared/thermodynamics/isotensional/mod.rs`: the gibbs methods of `LOGSQUAREDFJC`. -/
noncomputable def log_squared_isotensional_gibbs (N : ℕ) (ℓ : ℝ) (m : ℝ) (k : ℝ) : EnergyMethods :=
  let s := (Polymers.ufjc.log_squared.LOGSQUAREDFJC.init N ℓ m k).thermodynamics.isotensional
  { energy := fun x T => s.gibbs_free_energy x T
    energy_per_link := fun x T => s.gibbs_free_energy_per_link x T
    relative := fun x T => s.relative_gibbs_free_energy x T
    relative_per_link := fun x T => s.relative_gibbs_free_energy_per_link x T
    nd_energy := fun x T => s.nondimensional_gibbs_free_energy x T
    nd_energy_per_link := fun x T => s.nondimensional_gibbs_free_energy_per_link x T
    nd_relative := fun x T => s.nondimensional_relative_gibbs_free_energy x T
    nd_relative_per_link := fun x T => s.nondimensional_relative_gibbs_free_energy_per_link x T }

/-- `src/physics/single_chain/ufjc/log_squared/thermodynamics/isotensional/mod.rs`: the lengths methods of `LOGSQUAREDFJC`. -/
noncomputable def log_squared_isotensional_lengths (N : ℕ) (ℓ : ℝ) (m : ℝ) (k : ℝ) : LengthMethods :=
  let s := (Polymers.ufjc.log_squared.LOGSQUAREDFJC.init N ℓ m k).thermodynamics.isotensional
  { length := fun x T => s.end_to_end_length x T
    length_per_link := fun x T => s.end_to_end_length_per_link x T
    nd_length := fun x T => s.nondimensional_end_to_end_length x T
    nd_length_per_link := fun x T => s.nondimensional_end_to_end_length_per_link x T }

/-- `src/physics/single_chain/ufjc/morse/thermodynamics/isometric/asymptotic/reduced/legendre/mod.rs`: the helmholtz methods of `MORSEFJC`. -/
noncomputable def morse_isometric_asymptotic_reduced_legendre_helmholtz (N : ℕ) (ℓ : ℝ) (m : ℝ) (k : ℝ) (ε : ℝ) : EnergyMethods :=
  let s := (Polymers.ufjc.morse.MORSEFJC.init N ℓ m k ε).thermodynamics.isometric.asymptotic.reduced.legendre
  { energy := fun x T => s.helmholtz_free_energy x T
    energy_per_link := fun x T => s.helmholtz_free_energy_per_link x T
    relative := fun x T => s.relative_helmholtz_free_energy x T
    relative_per_link := fun x T => s.relative_helmholtz_free_energy_per_link x T
    nd_energy := fun x T => s.nondimensional_helmholtz_free_energy x T
    nd_energy_per_link := fun x T => s.nondimensional_helmholtz_free_energy_per_link x T
    nd_relative := fun x T => s.nondimensional_relative_helmholtz_free_energy x T
    nd_relative_per_link := fun x T => s.nondimensional_relative_helmholtz_free_energy_per_link x T }

/-- `src/physics/single_chain/ufjc/morse/thermodynamics/isometric/asymptotic/reduced/legendre/mod.rs`: the forces methods of `MORSEFJC`. -/
noncomputable def morse_isometric_asymptotic_reduced_legendre_forces (N : ℕ) (ℓ : ℝ) (m : ℝ) (k : ℝ) (ε : ℝ) : ForceMethods :=
  let s := (Polymers.ufjc.morse.MORSEFJC.init N ℓ m k ε).thermodynamics.isometric.asymptotic.reduced.legendre
  { force := fun x T => s.force x T
    nd_force := fun x T => s.nondimensional_force x T }

/-- `src/physics/single_chain/ufjc/morse/thermodynamics/isotensional/asymptotic/reduced/legendre/mod.rs`: the helmholtz methods of `MORSEFJC`. -/
noncomputable def morse_isotensional_asymptotic_reduced_legendre_helmholtz (N : ℕ) (ℓ : ℝ) (m : ℝ) (k : ℝ) (ε : ℝ) : EnergyMethods :=
  let s := (Polymers.ufjc.morse.MORSEFJC.init N ℓ m k ε).thermodynamics.isotensional.asymptotic.reduced.legendre
  { energy := fun x T => s.helmholtz_free_energy x T
    energy_per_link := fun x T => s.helmholtz_free_energy_per_link x T
    relative := fun x T => s.relative_helmholtz_free_energy x T
    relative_per_link := fun x T => s.relative_helmholtz_free_energy_per_link x T
    nd_energy := fun x T => s.nondimensional_helmholtz_free_energy x T
    nd_energy_per_link := fun x T => s.nondimensional_helmholtz_free_energy_per_link x T
    nd_relative := fun x T => s.nondimensional_relative_helmholtz_free_energy x T
    nd_relative_per_link := fun x T => s.nondimensional_relative_helmholtz_free_energy_per_link x T }

/-- `src/physics/single_chain/ufjc/morse/thermodynamics/isometric/asymptotic/legendre/mod.rs`: the helmholtz methods of `MORSEFJC`. -/
noncomputable def morse_isometric_asymptotic_legendre_helmholtz (N : ℕ) (ℓ : ℝ) (m : ℝ) (k : ℝ) (ε : ℝ) : EnergyMethods :=
  let s := (Polymers.ufjc.morse.MORSEFJC.init N ℓ m k ε).thermodynamics.isometric.asymptotic.legendre
  { energy := fun x T => s.helmholtz_free_energy x T
    energy_per_link := fun x T => s.helmholtz_free_energy_per_link x T
    relative := fun x T => s.relative_helmholtz_free_energy x T
    relative_per_link := fun x T => s.relative_helmholtz_free_energy_per_link x T
    nd_energy := fun x T => s.nondimensional_helmholtz_free_energy x T
    nd_energy_per_link := fun x T => s.nondimensional_helmholtz_free_energy_per_link x T
    nd_relative := fun x T => s.nondimensional_relative_helmholtz_free_energy x T
    nd_relative_per_link := fun x T => s.nondimensional_relative_helmholtz_free_energy_per_link x T }

/-- `src/physics/single_chain/ufjc/morse/thermodynamics/isometric/asymptotic/legendre/mod.rs`: the forces methods of `MORSEFJC`. -/
noncomputable def morse_isometric_asymptotic_legendre_forces (N : ℕ) (ℓ : ℝ) (m : ℝ) (k : ℝ) (ε : ℝ) : ForceMethods :=
  let s := (Polymers.ufjc.morse.MORSEFJC.init N ℓ m k ε).thermodynamics.isometric.asymptotic.legendre
  { force := fun x T => s.force x T
    nd_force := fun x T => s.nondimensional_force x T }

/-- `src/physics/single_chain/ufjc/morse/thermodynamics/isotensional/asymptotic/legendre/mod.rs`: the helmholtz methods of `MORSEFJC`. -/
noncomputable def morse_isotensional_asymptotic_legendre_helmholtz (N : ℕ) (ℓ : ℝ) (m : ℝ) (k : ℝ) (ε : ℝ) : EnergyMethods :=
  let s := (Polymers.ufjc.morse.MORSEFJC.init N ℓ m k ε).thermodynamics.isotensional.asymptotic.legendre
  { energy := fun x T => s.helmholtz_free_energy x T
    energy_per_link := fun x T => s.helmholtz_free_energy_per_link x T
    relative := fun x T => s.relative_helmholtz_free_energy x T
    relative_per_link := fun x T => s.relative_helmholtz_free_energy_per_link x T
    nd_energy := fun x T => s.nondimensional_helmholtz_free_energy x T
    nd_energy_per_link := fun x T => s.nondimensional_helmholtz_free_energy_per_link x T
    nd_relative := fun x T => s.nondimensional_relative_helmholtz_free_energy x T
    nd_relative_per_link := fun x T => s.nondimensional_relative_helmholtz_free_energy_per_link x T }

/-- `src/physics/single_chain/ufjc/morse/thermodynamics/isotensional/asymptotic/reduced/mod.rs`: the gibbs methods of `MORSEFJC`. -/
noncomputable def morse_isotensional_asymptotic_reduced_gibbs (N : ℕ) (ℓ : ℝ) (m : ℝ) (k : ℝ) (ε : ℝ) : EnergyMethods :=
  let s := (Polymers.ufjc.morse.MORSEFJC.init N ℓ m k ε).thermodynamics.isotensional.asymptotic.reduced
  { energy := fun x T => s.gibbs_free_energy x T
    energy_per_link := fun x T => s.gibbs_free_energy_per_link x T
    relative := fun x T => s.relative_gibbs_free_energy x T
    relative_per_link := fun x T => s.relative_gibbs_free_energy_per_link x T
    nd_energy := fun x T => s.nondimensional_gibbs_free_energy x T
    nd_energy_per_link := fun x T => s.nondimensional_gibbs_free_energy_per_link x T
    nd_relative := fun x T => s.nondimensional_relative_gibbs_free_energy x T
    nd_relative_per_link := fun x T => s.nondimensional_relative_gibbs_free_energy_per_link x T }

/-- `src/physics/single_chain/ufjc/morse/thermodynamics/isotensional/asymptotic/reduced/mod.rs`: the lengths methods of `MORSEFJC`. -/
noncomputable def morse_isotensional_asymptotic_reduced_lengths (N : ℕ) (ℓ : ℝ) (m : ℝ) (k : ℝ) (ε : ℝ) : LengthMethods :=
  let s := (Polymers.ufjc.morse.MORSEFJC.init N ℓ m k ε).thermodynamics.isotensional.asymptotic.reduced
  { length := fun x T => s.end_to_end_length x T
    length_per_link := fun x T => s.end_to_end_length_per_link x T
    nd_length := fun x T => s.nondimensional_end_to_end_length x T
    nd_length_per_link := fun x T => s.nondimensional_end_to_end_length_per_link x T }

/-- `src/physics/single_chain/ufjc/morse/thermodynamics/isotensional/asymptotic/mod.rs`: the gibbs methods of `MORSEFJC`. -/
noncomputable def morse_isotensional_asymptotic_gibbs (N : ℕ) (ℓ : ℝ) (m : ℝ) (k : ℝ) (ε : ℝ) : EnergyMethods :=
  let s := (Polymers.ufjc.morse.MORSEFJC.init N ℓ m k ε).thermodynamics.isotensional.asymptotic
  { energy := fun x T => s.gibbs_free_energy x T
    energy_per_link := fun x T => s.gibbs_free_energy_per_link x T
    relative := fun x T => s.relative_gibbs_free_energy x T
    relative_per_link := fun x T => s.relative_gibbs_free_energy_per_link x T
    nd_energy := fun x T => s.nondimensional_gibbs_free_energy x T
    nd_energy_per_link := fun x T => s.nondimensional_gibbs_free_energy_per_link x T
    nd_relative := fun x T => s.nondimensional_relative_gibbs_free_energy x T
    nd_relative_per_link := fun x T => s.nondimensional_relative_gibbs_free_energy_per_link x T }

/-- `src/physics/single_chain/ufjc/morse/thermodynamics/isotensional/asymptotic/mod.rs`: the lengths methods of `MORSEFJC`. -/
noncomputable def morse_isotensional_asymptotic_lengths (N : ℕ) (ℓ : ℝ) (m : ℝ) (k : ℝ) (ε : ℝ) : LengthMethods :=
  let s := (Polymers.ufjc.morse.MORSEFJC.init N ℓ m k ε).thermodynamics.isotensional.asymptotic
  { length := fun x T => s.end_to_end_length x T
    length_per_link := fun x T => s.end_to_end_length_per_link x T
    nd_length := fun x T => s.nondimensional_end_to_end_length x T
    nd_length_per_link := fun x T => s.nondimensional_end_to_end_length_per_link x T }

/-- `src/physics/single_chain/ufjc/morse/thermodynamics/isotensional/legendre/mod.rs`: the helmholtz methods of `MORSEFJC`. -/
noncomputable def morse_isotensional_legendre_helmholtz (N : ℕ) (ℓ : ℝ) (m : ℝ) (k : ℝ) (ε : ℝ) : EnergyMethods :=
  let s := (Polymers.ufjc.morse.MORSEFJC.init N ℓ m k ε).thermodynamics.isotensional.legendre
  { energy := fun x T => s.helmholtz_free_energy x T
    energy_per_link := fun x T => s.helmholtz_free_energy_per_link x T
    relative := fun x T => s.relative_helmholtz_free_energy x T
    relative_per_link := fun x T => s.relative_helmholtz_free_energy_per_link x T
    nd_energy := fun x T => s.nondimensional_helmholtz_free_energy x T
    nd_energy_per_link := fun x T => s.nondimensional_helmholtz_free_energy_per_link x T
    nd_relative := fun x T => s.nondimensional_relative_helmholtz_free_energy x T
    nd_relative_per_link := fun x T => s.nondimensional_relative_helmholtz_free_energy_per_link x T }

/-- `src/physics/single_chain/ufjc/morse/thermodynamics/isotensional/mod.rs`: the gibbs methods of `MORSEFJC`. -/
noncomputable def morse_isotensional_gibbs (N : ℕ) (ℓ : ℝ) (m : ℝ) (k : ℝ) (ε : ℝ) : EnergyMethods :=
  let s := (Polymers.ufjc.morse.MORSEFJC.init N ℓ m k ε).thermodynamics.isotensional
  { energy := fun x T => s.gibbs_free_energy x T
    energy_per_link := fun x T => s.gibbs_free_energy_per_link x T
    relative := fun x T => s.relative_gibbs_free_energy x T
    relative_per_link := fun x T => s.relative_gibbs_free_energy_per_link x T
    nd_energy := fun x T => s.nondimensional_gibbs_free_energy x T
    nd_energy_per_link := fun x T => s.nondimensional_gibbs_free_energy_per_link x T
    nd_relative := fun x T => s.nondimensional_relative_gibbs_free_energy x T
    nd_relative_per_link := fun x T => s.nondimensional_relative_gibbs_free_energy_per_link x T }

/-- `src/physics/single_chain/ufjc/morse/thermodynamics/isotensional/mod.rs`: the lengths methods of `MORSEFJC`. -/
noncomputable def morse_isotensional_lengths (N : ℕ) (ℓ : ℝ) (m : ℝ) (k : ℝ) (ε : ℝ) : LengthMethods :=
  let s := (Polymers.ufjc.morse.MORSEFJC.init N ℓ m k ε).thermodynamics.isotensional
  { length := fun x T => s.end_to_end_length x T
    length_per_link := fun x T => s.end_to_end_length_per_link x T
    nd_length := fun x T => s.nondimensional_end_to_end_length x T
    nd_length_per_link := fun x T => s.nondimensional_end_to_end_length_per_link x T }

/-- `src/physics/single_chain/wlc/thermodynamics/isometric/legendre/mod.rs`: the gibbs methods of `WLC`. -/
noncomputable def wlc_isometric_legendre_gibbs (N : ℕ) (ℓ : ℝ) (m : ℝ) (p : ℝ) : EnergyMethods :=
  let s := (Polymers.wlc.WLC.init N ℓ m p).thermodynamics.isometric.legendre
  { energy := fun x T => s.gibbs_free_energy x T
    energy_per_link := fun x T => s.gibbs_free_energy_per_link x T
    relative := fun x T => s.relative_gibbs_free_energy x T
    relative_per_link := fun x T => s.relative_gibbs_free_energy_per_link x T
    nd_energy := fun x T => s.nondimensional_gibbs_free_energy x T
    nd_energy_per_link := fun x T => s.nondimensional_gibbs_free_energy_per_link x T
    nd_relative := fun x _ => s.nondimensional_relative_gibbs_free_energy x
    nd_relative_per_link := fun x _ => s.nondimensional_relative_gibbs_free_energy_per_link x }

/-- `src/physics/single_chain/wlc/thermodynamics/isotensional/legendre/mod.rs`: the helmholtz methods of `WLC`. -/
noncomputable def wlc_isotensional_legendre_helmholtz (N : ℕ) (ℓ : ℝ) (m : ℝ) (p : ℝ) : EnergyMethods :=
  let s := (Polymers.wlc.WLC.init N ℓ m p).thermodynamics.isotensional.legendre
  { energy := fun x T => s.helmholtz_free_energy x T
    energy_per_link := fun x T => s.helmholtz_free_energy_per_link x T
    relative := fun x T => s.relative_helmholtz_free_energy x T
    relative_per_link := fun x T => s.relative_helmholtz_free_energy_per_link x T
    nd_energy := fun x T => s.nondimensional_helmholtz_free_energy x T
    nd_energy_per_link := fun x T => s.nondimensional_helmholtz_free_energy_per_link x T
    nd_relative := fun x _ => s.nondimensional_relative_helmholtz_free_energy x
    nd_relative_per_link := fun x _ => s.nondimensional_relative_helmholtz_free_energy_per_link x }

/-- `src/physics/single_chain/wlc/thermodynamics/isometric/mod.rs`: the helmholtz methods of `WLC`. -/
noncomputable def wlc_isometric_helmholtz (N : ℕ) (ℓ : ℝ) (m : ℝ) (p : ℝ) : EnergyMethods :=
  let s := (Polymers.wlc.WLC.init N ℓ m p).thermodynamics.isometric
  { energy := fun x T => s.helmholtz_free_energy x T
    energy_per_link := fun x T => s.helmholtz_free_energy_per_link x T
    relative := fun x T => s.relative_helmholtz_free_energy x T
    relative_per_link := fun x T => s.relative_helmholtz_free_energy_per_link x T
    nd_energy := fun x T => s.nondimensional_helmholtz_free_energy x T
    nd_energy_per_link := fun x T => s.nondimensional_helmholtz_free_energy_per_link x T
    nd_relative := fun x _ => s.nondimensional_relative_helmholtz_free_energy x
    nd_relative_per_link := fun x _ => s.nondimensional_relative_helmholtz_free_energy_per_link x }

/-- `src/physics/single_chain/wlc/thermodynamics/isometric/mod.rs`: the forces methods of `WLC`. -/
noncomputable def wlc_isometric_forces (N : ℕ) (ℓ : ℝ) (m : ℝ) (p : ℝ) : ForceMethods :=
  let s := (Polymers.wlc.WLC.init N ℓ m p).thermodynamics.isometric
  { force := fun x T => s.force x T
    nd_force := fun x _ => s.nondimensional_force x }

/-- `src/physics/single_chain/wlc/thermodynamics/isometric/mod.rs`: the distribution methods of `WLC`. -/
noncomputable def wlc_isometric_distribution (N : ℕ) (ℓ : ℝ) (m : ℝ) (p : ℝ) : DistributionMethods :=
  let s := (Polymers.wlc.WLC.init N ℓ m p).thermodynamics.isometric
  { density := fun x => s.equilibrium_distribution x
    nd_density := fun x => s.nondimensional_equilibrium_distribution x
    radial := fun x => s.equilibrium_radial_distribution x
    nd_radial := fun x => s.nondimensional_equilibrium_radial_distribution x }

/-- `src/physics/single_chain/wlc/thermodynamics/isotensional/mod.rs`: the gibbs methods of `WLC`. -/
noncomputable def wlc_isotensional_gibbs (N : ℕ) (ℓ : ℝ) (m : ℝ) (p : ℝ) : EnergyMethods :=
  let s := (Polymers.wlc.WLC.init N ℓ m p).thermodynamics.isotensional
  { energy := fun x T => s.gibbs_free_energy x T
    energy_per_link := fun x T => s.gibbs_free_energy_per_link x T
    relative := fun x T => s.relative_gibbs_free_energy x T
    relative_per_link := fun x T => s.relative_gibbs_free_energy_per_link x T
    nd_energy := fun x T => s.nondimensional_gibbs_free_energy x T
    nd_energy_per_link := fun x T => s.nondimensional_gibbs_free_energy_per_link x T
    nd_relative := fun x _ => s.nondimensional_relative_gibbs_free_energy x
    nd_relative_per_link := fun x _ => s.nondimensional_relative_gibbs_free_energy_per_link x }

/-- `src/physics/single_chain/wlc/thermodynamics/isotensional/mod.rs`: the lengths methods of `WLC`. -/
noncomputable def wlc_isotensional_lengths (N : ℕ) (ℓ : ℝ) (m : ℝ) (p : ℝ) : LengthMethods :=
  let s := (Polymers.wlc.WLC.init N ℓ m p).thermodynamics.isotensional
  { length := fun x T => s.end_to_end_length x T
    length_per_link := fun x T => s.end_to_end_length_per_link x T
    nd_length := fun x _ => s.nondimensional_end_to_end_length x
    nd_length_per_link := fun x _ => s.nondimensional_end_to_end_length_per_link x }

end Polymers.Api
