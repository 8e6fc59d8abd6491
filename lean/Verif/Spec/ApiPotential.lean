import Verif.Spec.Ensembles
import Verif.Model.RealInst
import Verif.Model.Fjc

/-! The method families of the modified canonical ensemble of the freely jointed chain: the chain end is held by a
harmonic potential of stiffness `K` whose minimum is at the distance `x` (the potential distance).  The records of
`Verif/Spec/Ensembles.lean` are filled in at a fixed dimensional stiffness `K`; the nondimensional methods then take
the nondimensional stiffness `K ℓ²/kT`. -/

namespace Polymers.Api

open Polymers.Spec

/-- `src/physics/single_chain/fjc/thermodynamics/modified_canonical/mod.rs`: the helmholtz methods of `FJC` at potential stiffness `K`. -/
noncomputable def fjc_modified_canonical_helmholtz (N : ℕ) (ℓ : ℝ) (m : ℝ) (K : ℝ) : EnergyMethods :=
  let s := (Polymers.fjc.FJC.init N ℓ m).thermodynamics.modified_canonical
  { energy := fun x T => s.helmholtz_free_energy x K T
    energy_per_link := fun x T => s.helmholtz_free_energy_per_link x K T
    relative := fun x T => s.relative_helmholtz_free_energy x K T
    relative_per_link := fun x T => s.relative_helmholtz_free_energy_per_link x K T
    nd_energy := fun x T => s.nondimensional_helmholtz_free_energy x (ndStiffness K ℓ T) T
    nd_energy_per_link := fun x T => s.nondimensional_helmholtz_free_energy_per_link x (ndStiffness K ℓ T) T
    nd_relative := fun x T => s.nondimensional_relative_helmholtz_free_energy x (ndStiffness K ℓ T)
    nd_relative_per_link := fun x T => s.nondimensional_relative_helmholtz_free_energy_per_link x (ndStiffness K ℓ T) }

/-- `src/physics/single_chain/fjc/thermodynamics/modified_canonical/mod.rs`: the gibbs methods of `FJC` at potential stiffness `K`. -/
noncomputable def fjc_modified_canonical_gibbs (N : ℕ) (ℓ : ℝ) (m : ℝ) (K : ℝ) : EnergyMethods :=
  let s := (Polymers.fjc.FJC.init N ℓ m).thermodynamics.modified_canonical
  { energy := fun x T => s.gibbs_free_energy x K T
    energy_per_link := fun x T => s.gibbs_free_energy_per_link x K T
    relative := fun x T => s.relative_gibbs_free_energy x K T
    relative_per_link := fun x T => s.relative_gibbs_free_energy_per_link x K T
    nd_energy := fun x T => s.nondimensional_gibbs_free_energy x (ndStiffness K ℓ T) T
    nd_energy_per_link := fun x T => s.nondimensional_gibbs_free_energy_per_link x (ndStiffness K ℓ T) T
    nd_relative := fun x T => s.nondimensional_relative_gibbs_free_energy x (ndStiffness K ℓ T)
    nd_relative_per_link := fun x T => s.nondimensional_relative_gibbs_free_energy_per_link x (ndStiffness K ℓ T) }

/-- `src/physics/single_chain/fjc/thermodynamics/modified_canonical/mod.rs`: the length methods of `FJC` at potential stiffness `K`. -/
noncomputable def fjc_modified_canonical_lengths (N : ℕ) (ℓ : ℝ) (m : ℝ) (K : ℝ) : LengthMethods :=
  let s := (Polymers.fjc.FJC.init N ℓ m).thermodynamics.modified_canonical
  { length := fun x T => s.end_to_end_length x K T
    length_per_link := fun x T => s.end_to_end_length_per_link x K T
    nd_length := fun x T => s.nondimensional_end_to_end_length x (ndStiffness K ℓ T)
    nd_length_per_link := fun x T => s.nondimensional_end_to_end_length_per_link x (ndStiffness K ℓ T) }

/-- `src/physics/single_chain/fjc/thermodynamics/modified_canonical/mod.rs`: the force methods of `FJC` at potential stiffness `K`. -/
noncomputable def fjc_modified_canonical_forces (N : ℕ) (ℓ : ℝ) (m : ℝ) (K : ℝ) : ForceMethods :=
  let s := (Polymers.fjc.FJC.init N ℓ m).thermodynamics.modified_canonical
  { force := fun x T => s.force x K T
    nd_force := fun x T => s.nondimensional_force x (ndStiffness K ℓ T) }

/-- `src/physics/single_chain/fjc/thermodynamics/modified_canonical/asymptotic/strong_potential/mod.rs`: the helmholtz methods of `FJC` at potential stiffness `K`. -/
noncomputable def fjc_strong_potential_helmholtz (N : ℕ) (ℓ : ℝ) (m : ℝ) (K : ℝ) : EnergyMethods :=
  let s := (Polymers.fjc.FJC.init N ℓ m).thermodynamics.modified_canonical.asymptotic.strong_potential
  { energy := fun x T => s.helmholtz_free_energy x K T
    energy_per_link := fun x T => s.helmholtz_free_energy_per_link x K T
    relative := fun x T => s.relative_helmholtz_free_energy x K T
    relative_per_link := fun x T => s.relative_helmholtz_free_energy_per_link x K T
    nd_energy := fun x T => s.nondimensional_helmholtz_free_energy x (ndStiffness K ℓ T) T
    nd_energy_per_link := fun x T => s.nondimensional_helmholtz_free_energy_per_link x (ndStiffness K ℓ T) T
    nd_relative := fun x T => s.nondimensional_relative_helmholtz_free_energy x (ndStiffness K ℓ T)
    nd_relative_per_link := fun x T => s.nondimensional_relative_helmholtz_free_energy_per_link x (ndStiffness K ℓ T) }

/-- `src/physics/single_chain/fjc/thermodynamics/modified_canonical/asymptotic/strong_potential/mod.rs`: the force methods of `FJC` at potential stiffness `K`. -/
noncomputable def fjc_strong_potential_forces (N : ℕ) (ℓ : ℝ) (m : ℝ) (K : ℝ) : ForceMethods :=
  let s := (Polymers.fjc.FJC.init N ℓ m).thermodynamics.modified_canonical.asymptotic.strong_potential
  { force := fun x T => s.force x K T
    nd_force := fun x T => s.nondimensional_force x (ndStiffness K ℓ T) }

/-- `src/physics/single_chain/fjc/thermodynamics/modified_canonical/asymptotic/weak_potential/mod.rs`: the gibbs methods of `FJC` at potential stiffness `K`. -/
noncomputable def fjc_weak_potential_gibbs (N : ℕ) (ℓ : ℝ) (m : ℝ) (K : ℝ) : EnergyMethods :=
  let s := (Polymers.fjc.FJC.init N ℓ m).thermodynamics.modified_canonical.asymptotic.weak_potential
  { energy := fun x T => s.gibbs_free_energy x K T
    energy_per_link := fun x T => s.gibbs_free_energy_per_link x K T
    relative := fun x T => s.relative_gibbs_free_energy x K T
    relative_per_link := fun x T => s.relative_gibbs_free_energy_per_link x K T
    nd_energy := fun x T => s.nondimensional_gibbs_free_energy x (ndStiffness K ℓ T) T
    nd_energy_per_link := fun x T => s.nondimensional_gibbs_free_energy_per_link x (ndStiffness K ℓ T) T
    nd_relative := fun x T => s.nondimensional_relative_gibbs_free_energy x (ndStiffness K ℓ T)
    nd_relative_per_link := fun x T => s.nondimensional_relative_gibbs_free_energy_per_link x (ndStiffness K ℓ T) }

/-- `src/physics/single_chain/fjc/thermodynamics/modified_canonical/asymptotic/weak_potential/mod.rs`: the length methods of `FJC` at potential stiffness `K`. -/
noncomputable def fjc_weak_potential_lengths (N : ℕ) (ℓ : ℝ) (m : ℝ) (K : ℝ) : LengthMethods :=
  let s := (Polymers.fjc.FJC.init N ℓ m).thermodynamics.modified_canonical.asymptotic.weak_potential
  { length := fun x T => s.end_to_end_length x K T
    length_per_link := fun x T => s.end_to_end_length_per_link x K T
    nd_length := fun x T => s.nondimensional_end_to_end_length x (ndStiffness K ℓ T)
    nd_length_per_link := fun x T => s.nondimensional_end_to_end_length_per_link x (ndStiffness K ℓ T) }

/-- `src/physics/single_chain/fjc/thermodynamics/modified_canonical/asymptotic/weak_potential/mod.rs`: the force methods of `FJC` at potential stiffness `K`. -/
noncomputable def fjc_weak_potential_forces (N : ℕ) (ℓ : ℝ) (m : ℝ) (K : ℝ) : ForceMethods :=
  let s := (Polymers.fjc.FJC.init N ℓ m).thermodynamics.modified_canonical.asymptotic.weak_potential
  { force := fun x _ => s.force x K
    nd_force := fun x T => s.nondimensional_force x (ndStiffness K ℓ T) }

end Polymers.Api
