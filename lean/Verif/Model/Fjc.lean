/- Generated by tools/rust2lean.py from /repo/src/physics/single_chain/fjc ; do not edit by hand. -/
import Verif.Model.Math

set_option linter.unusedVariables false

open Polymers

variable {α : Type} [Add α] [Sub α] [Mul α] [Div α] [Neg α] [OfScientific α] [NatCast α] [Elem α]

namespace Polymers.fjc.thermodynamics.modified_canonical.asymptotic.strong_potential

/-- `src/physics/single_chain/fjc/thermodynamics/modified_canonical/asymptotic/strong_potential/mod.rs` lines 23-33: struct `FJC`. -/
structure FJC (α : Type) where
  /-- field `hinge_mass` -/
  hinge_mass : α
  /-- field `link_length` -/
  link_length : α
  /-- field `number_of_links` -/
  number_of_links : Nat

end Polymers.fjc.thermodynamics.modified_canonical.asymptotic.strong_potential

namespace Polymers.fjc.thermodynamics

/-- `(number_of_links_f64*m).ceil() as u128` of `src/physics/single_chain/fjc/thermodynamics/mod.rs`
lines 63 and 73, with `m` of lines 62 and 72. -/
def treloar_k (number_of_links : Nat) (nondimensional_end_to_end_length_per_link : α) : Nat :=
  Elem.toNat (2 ^ 128 - 1)
    (Elem.ceil ((number_of_links : α) * ((-nondimensional_end_to_end_length_per_link) * 0.5 + 0.5)))

/-- Checked `u128` multiplication as in a debug build: `none` on overflow
(used by `.product::<u128>()` in `src/physics/single_chain/fjc/thermodynamics/mod.rs` lines 64 and 74). -/
def checked_mul (a b : Nat) : Option Nat := if a * b < 2 ^ 128 then some (a * b) else none

/-- `(1..=n).product::<u128>()` of `src/physics/single_chain/fjc/thermodynamics/mod.rs` lines 64 and 74;
`none` when the multiplication overflows (a panic in a debug build). -/
def product_u128 : Nat → Option Nat
  | 0 => some 1
  | n + 1 => (product_u128 n).bind fun p => Polymers.fjc.thermodynamics.checked_mul p (n + 1)

/-- `(1..=n).product()/(1..=s).product()/(1..=n-s).product()` of
`src/physics/single_chain/fjc/thermodynamics/mod.rs` lines 64 and 74; `none` when a product overflows or `n - s`
underflows. -/
def treloar_coefficient (n s : Nat) : Option Nat :=
  if n < s then none
  else (Polymers.fjc.thermodynamics.product_u128 n).bind fun a => (Polymers.fjc.thermodynamics.product_u128 s).bind fun b => (Polymers.fjc.thermodynamics.product_u128 (n - s)).map fun c => a / b / c

/-- One sum over `s` of `src/physics/single_chain/fjc/thermodynamics/mod.rs` lines 64 and 74, with `exponent` the
argument of `powi`.  `0..=k-1` panics for `k = 0`; so does a failed coefficient. -/
def treloar_sum (number_of_links : Nat) (nondimensional_end_to_end_length_per_link : α) (exponent : Int) : α :=
  let m : α := (-nondimensional_end_to_end_length_per_link) * 0.5 + 0.5
  let k : Nat := Polymers.fjc.thermodynamics.treloar_k number_of_links nondimensional_end_to_end_length_per_link
  if k == 0 then Elem.panic
  else
    Polymers.fsum ((List.range k).map fun (s : Nat) =>
      match Polymers.fjc.thermodynamics.treloar_coefficient number_of_links s with
      | some c => Elem.powf (-1.0) (s : α) * (c : α) * Elem.powi (m - (s : α) / (number_of_links : α)) exponent
      | none => Elem.panic)

/-- `src/physics/single_chain/fjc/thermodynamics/mod.rs` lines 57-65.  `number_of_links - 2` is a checked `u8` subtraction.  Debug-build semantics: a release build
would wrap around silently instead of panicking. -/
def treloar_sums (number_of_links : Nat) (nondimensional_end_to_end_length_per_link : α) (orders : List Int) : List α :=
  orders.map fun order =>
    if number_of_links < 2 then Elem.panic
    else Polymers.fjc.thermodynamics.treloar_sum number_of_links nondimensional_end_to_end_length_per_link ((number_of_links : Int) - 2 - order)

end Polymers.fjc.thermodynamics

namespace Polymers.fjc.thermodynamics.modified_canonical.asymptotic.strong_potential

/-- `src/physics/single_chain/fjc/thermodynamics/modified_canonical/asymptotic/strong_potential/mod.rs` lines 42-47. -/
def nondimensional_force (number_of_links : Nat) (nondimensional_potential_distance : α) (nondimensional_potential_stiffness : α) : α :=
  let sums : List α := Polymers.fjc.thermodynamics.treloar_sums number_of_links nondimensional_potential_distance [0, 1, 2, 3]
  let number_of_links_f64 : α := (number_of_links : α)
  (1.0 / nondimensional_potential_distance + (0.5 * number_of_links_f64 - 1.0) * (List.getD sums 1 Elem.panic) / (List.getD sums 0 Elem.panic)) / number_of_links_f64 + 0.5 / nondimensional_potential_stiffness / Elem.powi number_of_links_f64 3 * ((0.5 * number_of_links_f64 - 1.0) * ((0.5 * number_of_links_f64 - 1.0) * (List.getD sums 1 Elem.panic) / (List.getD sums 0 Elem.panic) * ((number_of_links_f64 - 2.0) * Elem.powi ((List.getD sums 1 Elem.panic) / (List.getD sums 0 Elem.panic)) 2 - (number_of_links_f64 - 3.0) * (List.getD sums 2 Elem.panic) / (List.getD sums 0 Elem.panic)) - (0.5 * number_of_links_f64 - 1.5) * ((0.5 * number_of_links_f64 - 1.0) * (List.getD sums 1 Elem.panic) * (List.getD sums 2 Elem.panic) / Elem.powi (List.getD sums 0 Elem.panic) 2 - (0.5 * number_of_links_f64 - 2.0) * (List.getD sums 3 Elem.panic) / (List.getD sums 0 Elem.panic))) + 2.0 * Elem.powi nondimensional_potential_distance (-3) - 2.0 * ((0.5 * number_of_links_f64 - 1.0) * (List.getD sums 1 Elem.panic) / (List.getD sums 0 Elem.panic) + Elem.powi nondimensional_potential_distance (-1)) * ((0.5 * number_of_links_f64 - 1.0) * ((0.5 * number_of_links_f64 - 1.0) * Elem.powi ((List.getD sums 1 Elem.panic) / (List.getD sums 0 Elem.panic)) 2 - (0.5 * number_of_links_f64 - 1.5) * (List.getD sums 2 Elem.panic) / (List.getD sums 0 Elem.panic)) - Elem.powi nondimensional_potential_distance (-2)))

/-- `src/physics/single_chain/fjc/thermodynamics/modified_canonical/asymptotic/strong_potential/mod.rs` lines 36-39. -/
def force (number_of_links : Nat) (link_length : α) (potential_distance : α) (potential_stiffness : α) (temperature : α) : α :=
  (Polymers.BOLTZMANN_CONSTANT : α) * temperature / link_length * Polymers.fjc.thermodynamics.modified_canonical.asymptotic.strong_potential.nondimensional_force number_of_links (potential_distance / ((number_of_links : α) * link_length)) (potential_stiffness * Elem.powi link_length 2 / (Polymers.BOLTZMANN_CONSTANT : α) / temperature)

end Polymers.fjc.thermodynamics.modified_canonical.asymptotic.strong_potential

namespace Polymers.fjc.thermodynamics

/-- `n.pow(n as u32)` of `src/physics/single_chain/fjc/thermodynamics/mod.rs` line 74 for `u128`;
`none` when it overflows. -/
def pow_u128 (n e : Nat) : Option Nat := if n ^ e < 2 ^ 128 then some (n ^ e) else none

/-- `src/physics/single_chain/fjc/thermodynamics/mod.rs` lines 67-75.  Debug-build semantics, as for `treloar_sums`. -/
def treloar_sum_0_with_prefactor (number_of_links : Nat) (nondimensional_end_to_end_length_per_link : α) : α :=
  if number_of_links < 2 then Elem.panic
  else
    match Polymers.fjc.thermodynamics.pow_u128 number_of_links number_of_links, Polymers.fjc.thermodynamics.product_u128 (number_of_links - 2) with
    | some q, some r =>
      0.125 / (Elem.pi : α) / nondimensional_end_to_end_length_per_link * (q : α) / (r : α)
        * Polymers.fjc.thermodynamics.treloar_sum number_of_links nondimensional_end_to_end_length_per_link ((number_of_links : Int) - 2)
    | _, _ => Elem.panic

end Polymers.fjc.thermodynamics

namespace Polymers.fjc.thermodynamics.modified_canonical.asymptotic.strong_potential

/-- `src/physics/single_chain/fjc/thermodynamics/modified_canonical/asymptotic/strong_potential/mod.rs` lines 74-81. -/
def nondimensional_helmholtz_free_energy (number_of_links : Nat) (link_length : α) (hinge_mass : α) (nondimensional_potential_distance : α) (nondimensional_potential_stiffness : α) (temperature : α) : α :=
  let sums : List α := Polymers.fjc.thermodynamics.treloar_sums number_of_links nondimensional_potential_distance [0, 1, 2]
  let number_of_links_f64 : α := (number_of_links : α)
  let number_of_links_squared : α := Elem.powi number_of_links_f64 2
  let contour_length : α := number_of_links_f64 * link_length
  (-Elem.ln (Polymers.fjc.thermodynamics.treloar_sum_0_with_prefactor number_of_links nondimensional_potential_distance / Elem.powi contour_length 3)) - (number_of_links_f64 - 1.0) * Elem.ln (8.0 * Elem.powi (Elem.pi : α) 2 * hinge_mass * Elem.powi link_length 2 * (Polymers.BOLTZMANN_CONSTANT : α) * temperature / Elem.powi (Polymers.PLANCK_CONSTANT : α) 2) - 1.5 * Elem.ln (2.0 * (Elem.pi : α) / nondimensional_potential_stiffness / number_of_links_squared) - 3.0 * Elem.ln contour_length + 0.5 / nondimensional_potential_stiffness / number_of_links_squared * ((0.5 * number_of_links_f64 - 1.0) * ((0.5 * number_of_links_f64 - 1.0) * Elem.powi ((List.getD sums 1 Elem.panic) / (List.getD sums 0 Elem.panic)) 2 - (0.5 * number_of_links_f64 - 1.5) * (List.getD sums 2 Elem.panic) / (List.getD sums 0 Elem.panic)) - Elem.powi nondimensional_potential_distance (-2) - Elem.powi ((0.5 * number_of_links_f64 - 1.0) * (List.getD sums 1 Elem.panic) / (List.getD sums 0 Elem.panic) + Elem.powi nondimensional_potential_distance (-1)) 2)

/-- `src/physics/single_chain/fjc/thermodynamics/modified_canonical/asymptotic/strong_potential/mod.rs` lines 50-53. -/
def helmholtz_free_energy (number_of_links : Nat) (link_length : α) (hinge_mass : α) (potential_distance : α) (potential_stiffness : α) (temperature : α) : α :=
  Polymers.fjc.thermodynamics.modified_canonical.asymptotic.strong_potential.nondimensional_helmholtz_free_energy number_of_links link_length hinge_mass (potential_distance / ((number_of_links : α) * link_length)) (potential_stiffness * Elem.powi link_length 2 / (Polymers.BOLTZMANN_CONSTANT : α) / temperature) temperature * (Polymers.BOLTZMANN_CONSTANT : α) * temperature

/-- `src/physics/single_chain/fjc/thermodynamics/modified_canonical/asymptotic/strong_potential/mod.rs` lines 84-87. -/
def nondimensional_helmholtz_free_energy_per_link (number_of_links : Nat) (link_length : α) (hinge_mass : α) (nondimensional_potential_distance : α) (nondimensional_potential_stiffness : α) (temperature : α) : α :=
  Polymers.fjc.thermodynamics.modified_canonical.asymptotic.strong_potential.nondimensional_helmholtz_free_energy number_of_links link_length hinge_mass nondimensional_potential_distance nondimensional_potential_stiffness temperature / (number_of_links : α)

/-- `src/physics/single_chain/fjc/thermodynamics/modified_canonical/asymptotic/strong_potential/mod.rs` lines 56-59. -/
def helmholtz_free_energy_per_link (number_of_links : Nat) (link_length : α) (hinge_mass : α) (potential_distance : α) (potential_stiffness : α) (temperature : α) : α :=
  Polymers.fjc.thermodynamics.modified_canonical.asymptotic.strong_potential.nondimensional_helmholtz_free_energy_per_link number_of_links link_length hinge_mass (potential_distance / ((number_of_links : α) * link_length)) (potential_stiffness * Elem.powi link_length 2 / (Polymers.BOLTZMANN_CONSTANT : α) / temperature) temperature * (Polymers.BOLTZMANN_CONSTANT : α) * temperature

/-- `src/physics/single_chain/fjc/thermodynamics/modified_canonical/asymptotic/strong_potential/mod.rs` lines 62-65. -/
def relative_helmholtz_free_energy (number_of_links : Nat) (link_length : α) (potential_distance : α) (potential_stiffness : α) (temperature : α) : α :=
  Polymers.fjc.thermodynamics.modified_canonical.asymptotic.strong_potential.helmholtz_free_energy number_of_links link_length 1.0 potential_distance potential_stiffness temperature - Polymers.fjc.thermodynamics.modified_canonical.asymptotic.strong_potential.helmholtz_free_energy number_of_links link_length 1.0 ((Polymers.ZERO : α) * (number_of_links : α) * link_length) potential_stiffness temperature

/-- `src/physics/single_chain/fjc/thermodynamics/modified_canonical/asymptotic/strong_potential/mod.rs` lines 68-71. -/
def relative_helmholtz_free_energy_per_link (number_of_links : Nat) (link_length : α) (potential_distance : α) (potential_stiffness : α) (temperature : α) : α :=
  Polymers.fjc.thermodynamics.modified_canonical.asymptotic.strong_potential.helmholtz_free_energy_per_link number_of_links link_length 1.0 potential_distance potential_stiffness temperature - Polymers.fjc.thermodynamics.modified_canonical.asymptotic.strong_potential.helmholtz_free_energy_per_link number_of_links link_length 1.0 ((Polymers.ZERO : α) * (number_of_links : α) * link_length) potential_stiffness temperature

/-- `src/physics/single_chain/fjc/thermodynamics/modified_canonical/asymptotic/strong_potential/mod.rs` lines 90-93. -/
def nondimensional_relative_helmholtz_free_energy (number_of_links : Nat) (nondimensional_potential_distance : α) (nondimensional_potential_stiffness : α) : α :=
  Polymers.fjc.thermodynamics.modified_canonical.asymptotic.strong_potential.nondimensional_helmholtz_free_energy number_of_links 1.0 1.0 nondimensional_potential_distance nondimensional_potential_stiffness 300.0 - Polymers.fjc.thermodynamics.modified_canonical.asymptotic.strong_potential.nondimensional_helmholtz_free_energy number_of_links 1.0 1.0 (Polymers.ZERO : α) nondimensional_potential_stiffness 300.0

/-- `src/physics/single_chain/fjc/thermodynamics/modified_canonical/asymptotic/strong_potential/mod.rs` lines 96-99. -/
def nondimensional_relative_helmholtz_free_energy_per_link (number_of_links : Nat) (nondimensional_potential_distance : α) (nondimensional_potential_stiffness : α) : α :=
  Polymers.fjc.thermodynamics.modified_canonical.asymptotic.strong_potential.nondimensional_relative_helmholtz_free_energy number_of_links nondimensional_potential_distance nondimensional_potential_stiffness / (number_of_links : α)

/-- `src/physics/single_chain/fjc/thermodynamics/modified_canonical/asymptotic/strong_potential/mod.rs` lines 105-113. -/
def FJC.init (number_of_links : Nat) (link_length : α) (hinge_mass : α) : Polymers.fjc.thermodynamics.modified_canonical.asymptotic.strong_potential.FJC α :=
  { hinge_mass := hinge_mass, link_length := link_length, number_of_links := number_of_links }

/-- `src/physics/single_chain/fjc/thermodynamics/modified_canonical/asymptotic/strong_potential/mod.rs` lines 115-118. -/
def FJC.force (self : Polymers.fjc.thermodynamics.modified_canonical.asymptotic.strong_potential.FJC α) (potential_distance : α) (potential_stiffness : α) (temperature : α) : α :=
  Polymers.fjc.thermodynamics.modified_canonical.asymptotic.strong_potential.force self.number_of_links self.link_length potential_distance potential_stiffness temperature

/-- `src/physics/single_chain/fjc/thermodynamics/modified_canonical/asymptotic/strong_potential/mod.rs` lines 120-123. -/
def FJC.nondimensional_force (self : Polymers.fjc.thermodynamics.modified_canonical.asymptotic.strong_potential.FJC α) (nondimensional_potential_distance : α) (nondimensional_potential_stiffness : α) : α :=
  Polymers.fjc.thermodynamics.modified_canonical.asymptotic.strong_potential.nondimensional_force self.number_of_links nondimensional_potential_distance nondimensional_potential_stiffness

/-- `src/physics/single_chain/fjc/thermodynamics/modified_canonical/asymptotic/strong_potential/mod.rs` lines 125-128. -/
def FJC.helmholtz_free_energy (self : Polymers.fjc.thermodynamics.modified_canonical.asymptotic.strong_potential.FJC α) (potential_distance : α) (potential_stiffness : α) (temperature : α) : α :=
  Polymers.fjc.thermodynamics.modified_canonical.asymptotic.strong_potential.helmholtz_free_energy self.number_of_links self.link_length self.hinge_mass potential_distance potential_stiffness temperature

/-- `src/physics/single_chain/fjc/thermodynamics/modified_canonical/asymptotic/strong_potential/mod.rs` lines 130-133. -/
def FJC.helmholtz_free_energy_per_link (self : Polymers.fjc.thermodynamics.modified_canonical.asymptotic.strong_potential.FJC α) (potential_distance : α) (potential_stiffness : α) (temperature : α) : α :=
  Polymers.fjc.thermodynamics.modified_canonical.asymptotic.strong_potential.helmholtz_free_energy_per_link self.number_of_links self.link_length self.hinge_mass potential_distance potential_stiffness temperature

/-- `src/physics/single_chain/fjc/thermodynamics/modified_canonical/asymptotic/strong_potential/mod.rs` lines 135-138. -/
def FJC.relative_helmholtz_free_energy (self : Polymers.fjc.thermodynamics.modified_canonical.asymptotic.strong_potential.FJC α) (potential_distance : α) (potential_stiffness : α) (temperature : α) : α :=
  Polymers.fjc.thermodynamics.modified_canonical.asymptotic.strong_potential.relative_helmholtz_free_energy self.number_of_links self.link_length potential_distance potential_stiffness temperature

/-- `src/physics/single_chain/fjc/thermodynamics/modified_canonical/asymptotic/strong_potential/mod.rs` lines 140-143. -/
def FJC.relative_helmholtz_free_energy_per_link (self : Polymers.fjc.thermodynamics.modified_canonical.asymptotic.strong_potential.FJC α) (potential_distance : α) (potential_stiffness : α) (temperature : α) : α :=
  Polymers.fjc.thermodynamics.modified_canonical.asymptotic.strong_potential.relative_helmholtz_free_energy_per_link self.number_of_links self.link_length potential_distance potential_stiffness temperature

/-- `src/physics/single_chain/fjc/thermodynamics/modified_canonical/asymptotic/strong_potential/mod.rs` lines 145-148. -/
def FJC.nondimensional_helmholtz_free_energy (self : Polymers.fjc.thermodynamics.modified_canonical.asymptotic.strong_potential.FJC α) (nondimensional_potential_distance : α) (nondimensional_potential_stiffness : α) (temperature : α) : α :=
  Polymers.fjc.thermodynamics.modified_canonical.asymptotic.strong_potential.nondimensional_helmholtz_free_energy self.number_of_links self.link_length self.hinge_mass nondimensional_potential_distance nondimensional_potential_stiffness temperature

/-- `src/physics/single_chain/fjc/thermodynamics/modified_canonical/asymptotic/strong_potential/mod.rs` lines 150-153. -/
def FJC.nondimensional_helmholtz_free_energy_per_link (self : Polymers.fjc.thermodynamics.modified_canonical.asymptotic.strong_potential.FJC α) (nondimensional_potential_distance : α) (nondimensional_potential_stiffness : α) (temperature : α) : α :=
  Polymers.fjc.thermodynamics.modified_canonical.asymptotic.strong_potential.nondimensional_helmholtz_free_energy_per_link self.number_of_links self.link_length self.hinge_mass nondimensional_potential_distance nondimensional_potential_stiffness temperature

/-- `src/physics/single_chain/fjc/thermodynamics/modified_canonical/asymptotic/strong_potential/mod.rs` lines 155-158. -/
def FJC.nondimensional_relative_helmholtz_free_energy (self : Polymers.fjc.thermodynamics.modified_canonical.asymptotic.strong_potential.FJC α) (nondimensional_potential_distance : α) (nondimensional_potential_stiffness : α) : α :=
  Polymers.fjc.thermodynamics.modified_canonical.asymptotic.strong_potential.nondimensional_relative_helmholtz_free_energy self.number_of_links nondimensional_potential_distance nondimensional_potential_stiffness

/-- `src/physics/single_chain/fjc/thermodynamics/modified_canonical/asymptotic/strong_potential/mod.rs` lines 160-163. -/
def FJC.nondimensional_relative_helmholtz_free_energy_per_link (self : Polymers.fjc.thermodynamics.modified_canonical.asymptotic.strong_potential.FJC α) (nondimensional_potential_distance : α) (nondimensional_potential_stiffness : α) : α :=
  Polymers.fjc.thermodynamics.modified_canonical.asymptotic.strong_potential.nondimensional_relative_helmholtz_free_energy_per_link self.number_of_links nondimensional_potential_distance nondimensional_potential_stiffness

end Polymers.fjc.thermodynamics.modified_canonical.asymptotic.strong_potential

namespace Polymers.fjc.thermodynamics.modified_canonical.asymptotic.weak_potential

/-- `src/physics/single_chain/fjc/thermodynamics/modified_canonical/asymptotic/weak_potential/mod.rs` lines 18-28: struct `FJC`. -/
structure FJC (α : Type) where
  /-- field `hinge_mass` -/
  hinge_mass : α
  /-- field `link_length` -/
  link_length : α
  /-- field `number_of_links` -/
  number_of_links : Nat

/-- `src/physics/single_chain/fjc/thermodynamics/modified_canonical/asymptotic/weak_potential/mod.rs` lines 31-35. -/
def end_to_end_length (number_of_links : Nat) (link_length : α) (potential_distance : α) (potential_stiffness : α) (temperature : α) : α :=
  let nondimensional_force : α := potential_stiffness * potential_distance * link_length / (Polymers.BOLTZMANN_CONSTANT : α) / temperature
  (number_of_links : α) * link_length * (1.0 / Elem.tanh nondimensional_force - 1.0 / nondimensional_force) * (1.0 - potential_stiffness * (number_of_links : α) * Elem.powi link_length 2 / (Polymers.BOLTZMANN_CONSTANT : α) / temperature * (Elem.powi nondimensional_force (-2) - Elem.powi (Elem.sinh nondimensional_force) (-2)))

/-- `src/physics/single_chain/fjc/thermodynamics/modified_canonical/asymptotic/weak_potential/mod.rs` lines 38-42. -/
def end_to_end_length_per_link (number_of_links : Nat) (link_length : α) (potential_distance : α) (potential_stiffness : α) (temperature : α) : α :=
  let nondimensional_force : α := potential_stiffness * potential_distance * link_length / (Polymers.BOLTZMANN_CONSTANT : α) / temperature
  link_length * (1.0 / Elem.tanh nondimensional_force - 1.0 / nondimensional_force) * (1.0 - potential_stiffness * (number_of_links : α) * Elem.powi link_length 2 / (Polymers.BOLTZMANN_CONSTANT : α) / temperature * (Elem.powi nondimensional_force (-2) - Elem.powi (Elem.sinh nondimensional_force) (-2)))

/-- `src/physics/single_chain/fjc/thermodynamics/modified_canonical/asymptotic/weak_potential/mod.rs` lines 45-49. -/
def nondimensional_end_to_end_length (number_of_links : Nat) (nondimensional_potential_distance : α) (nondimensional_potential_stiffness : α) : α :=
  let nondimensional_force : α := (number_of_links : α) * nondimensional_potential_stiffness * nondimensional_potential_distance
  (number_of_links : α) * (1.0 / Elem.tanh nondimensional_force - 1.0 / nondimensional_force) * (1.0 - (number_of_links : α) * nondimensional_potential_stiffness * (Elem.powi nondimensional_force (-2) - Elem.powi (Elem.sinh nondimensional_force) (-2)))

/-- `src/physics/single_chain/fjc/thermodynamics/modified_canonical/asymptotic/weak_potential/mod.rs` lines 52-56. -/
def nondimensional_end_to_end_length_per_link (number_of_links : Nat) (nondimensional_potential_distance : α) (nondimensional_potential_stiffness : α) : α :=
  let nondimensional_force : α := (number_of_links : α) * nondimensional_potential_stiffness * nondimensional_potential_distance
  (1.0 / Elem.tanh nondimensional_force - 1.0 / nondimensional_force) * (1.0 - (number_of_links : α) * nondimensional_potential_stiffness * (Elem.powi nondimensional_force (-2) - Elem.powi (Elem.sinh nondimensional_force) (-2)))

/-- `src/physics/single_chain/fjc/thermodynamics/modified_canonical/asymptotic/weak_potential/mod.rs` lines 59-62. -/
def force (potential_distance : α) (potential_stiffness : α) : α :=
  potential_stiffness * potential_distance

/-- `src/physics/single_chain/fjc/thermodynamics/modified_canonical/asymptotic/weak_potential/mod.rs` lines 65-68. -/
def nondimensional_force (number_of_links : Nat) (nondimensional_potential_distance : α) (nondimensional_potential_stiffness : α) : α :=
  (number_of_links : α) * nondimensional_potential_stiffness * nondimensional_potential_distance

/-- `src/physics/single_chain/fjc/thermodynamics/modified_canonical/asymptotic/weak_potential/mod.rs` lines 71-75. -/
def gibbs_free_energy (number_of_links : Nat) (link_length : α) (hinge_mass : α) (potential_distance : α) (potential_stiffness : α) (temperature : α) : α :=
  let nondimensional_force : α := potential_stiffness * potential_distance * link_length / (Polymers.BOLTZMANN_CONSTANT : α) / temperature
  (-(number_of_links : α)) * (Polymers.BOLTZMANN_CONSTANT : α) * temperature * Elem.ln (Elem.sinh nondimensional_force / nondimensional_force) + 0.5 * potential_stiffness * Elem.powi ((number_of_links : α) * link_length) 2 * Elem.powi (1.0 / Elem.tanh nondimensional_force - 1.0 / nondimensional_force) 2 - (number_of_links : α) * (Polymers.BOLTZMANN_CONSTANT : α) * temperature * Elem.ln (8.0 * Elem.powi (Elem.pi : α) 2 * hinge_mass * Elem.powi link_length 2 * (Polymers.BOLTZMANN_CONSTANT : α) * temperature / Elem.powi (Polymers.PLANCK_CONSTANT : α) 2)

/-- `src/physics/single_chain/fjc/thermodynamics/modified_canonical/asymptotic/weak_potential/mod.rs` lines 78-82. -/
def gibbs_free_energy_per_link (number_of_links : Nat) (link_length : α) (hinge_mass : α) (potential_distance : α) (potential_stiffness : α) (temperature : α) : α :=
  let nondimensional_force : α := potential_stiffness * potential_distance * link_length / (Polymers.BOLTZMANN_CONSTANT : α) / temperature
  (-(Polymers.BOLTZMANN_CONSTANT : α)) * temperature * Elem.ln (Elem.sinh nondimensional_force / nondimensional_force) + 0.5 * potential_stiffness * Elem.powi ((number_of_links : α) * link_length) 2 / (number_of_links : α) * Elem.powi (1.0 / Elem.tanh nondimensional_force - 1.0 / nondimensional_force) 2 - (Polymers.BOLTZMANN_CONSTANT : α) * temperature * Elem.ln (8.0 * Elem.powi (Elem.pi : α) 2 * hinge_mass * Elem.powi link_length 2 * (Polymers.BOLTZMANN_CONSTANT : α) * temperature / Elem.powi (Polymers.PLANCK_CONSTANT : α) 2)

/-- `src/physics/single_chain/fjc/thermodynamics/modified_canonical/asymptotic/weak_potential/mod.rs` lines 85-88. -/
def relative_gibbs_free_energy (number_of_links : Nat) (link_length : α) (potential_distance : α) (potential_stiffness : α) (temperature : α) : α :=
  Polymers.fjc.thermodynamics.modified_canonical.asymptotic.weak_potential.gibbs_free_energy number_of_links link_length 1.0 potential_distance potential_stiffness temperature - Polymers.fjc.thermodynamics.modified_canonical.asymptotic.weak_potential.gibbs_free_energy number_of_links link_length 1.0 ((Polymers.ZERO : α) * (number_of_links : α) * link_length) potential_stiffness temperature

/-- `src/physics/single_chain/fjc/thermodynamics/modified_canonical/asymptotic/weak_potential/mod.rs` lines 91-94. -/
def relative_gibbs_free_energy_per_link (number_of_links : Nat) (link_length : α) (potential_distance : α) (potential_stiffness : α) (temperature : α) : α :=
  Polymers.fjc.thermodynamics.modified_canonical.asymptotic.weak_potential.gibbs_free_energy_per_link number_of_links link_length 1.0 potential_distance potential_stiffness temperature - Polymers.fjc.thermodynamics.modified_canonical.asymptotic.weak_potential.gibbs_free_energy_per_link number_of_links link_length 1.0 ((Polymers.ZERO : α) * (number_of_links : α) * link_length) potential_stiffness temperature

/-- `src/physics/single_chain/fjc/thermodynamics/modified_canonical/asymptotic/weak_potential/mod.rs` lines 97-101. -/
def nondimensional_gibbs_free_energy (number_of_links : Nat) (link_length : α) (hinge_mass : α) (nondimensional_potential_distance : α) (nondimensional_potential_stiffness : α) (temperature : α) : α :=
  let nondimensional_force : α := (number_of_links : α) * nondimensional_potential_stiffness * nondimensional_potential_distance
  (-(number_of_links : α)) * Elem.ln (Elem.sinh nondimensional_force / nondimensional_force) + 0.5 * nondimensional_potential_stiffness * Elem.powi (number_of_links : α) 2 * Elem.powi (1.0 / Elem.tanh nondimensional_force - 1.0 / nondimensional_force) 2 - (number_of_links : α) * Elem.ln (8.0 * Elem.powi (Elem.pi : α) 2 * hinge_mass * Elem.powi link_length 2 * (Polymers.BOLTZMANN_CONSTANT : α) * temperature / Elem.powi (Polymers.PLANCK_CONSTANT : α) 2)

/-- `src/physics/single_chain/fjc/thermodynamics/modified_canonical/asymptotic/weak_potential/mod.rs` lines 104-108. -/
def nondimensional_gibbs_free_energy_per_link (number_of_links : Nat) (link_length : α) (hinge_mass : α) (nondimensional_potential_distance : α) (nondimensional_potential_stiffness : α) (temperature : α) : α :=
  let nondimensional_force : α := (number_of_links : α) * nondimensional_potential_stiffness * nondimensional_potential_distance
  (-Elem.ln (Elem.sinh nondimensional_force / nondimensional_force)) + 0.5 * nondimensional_potential_stiffness * (number_of_links : α) * Elem.powi (1.0 / Elem.tanh nondimensional_force - 1.0 / nondimensional_force) 2 - Elem.ln (8.0 * Elem.powi (Elem.pi : α) 2 * hinge_mass * Elem.powi link_length 2 * (Polymers.BOLTZMANN_CONSTANT : α) * temperature / Elem.powi (Polymers.PLANCK_CONSTANT : α) 2)

/-- `src/physics/single_chain/fjc/thermodynamics/modified_canonical/asymptotic/weak_potential/mod.rs` lines 111-114. -/
def nondimensional_relative_gibbs_free_energy (number_of_links : Nat) (nondimensional_potential_distance : α) (nondimensional_potential_stiffness : α) : α :=
  Polymers.fjc.thermodynamics.modified_canonical.asymptotic.weak_potential.nondimensional_gibbs_free_energy number_of_links 1.0 1.0 nondimensional_potential_distance nondimensional_potential_stiffness 300.0 - Polymers.fjc.thermodynamics.modified_canonical.asymptotic.weak_potential.nondimensional_gibbs_free_energy number_of_links 1.0 1.0 (Polymers.ZERO : α) nondimensional_potential_stiffness 300.0

/-- `src/physics/single_chain/fjc/thermodynamics/modified_canonical/asymptotic/weak_potential/mod.rs` lines 117-120. -/
def nondimensional_relative_gibbs_free_energy_per_link (number_of_links : Nat) (nondimensional_potential_distance : α) (nondimensional_potential_stiffness : α) : α :=
  Polymers.fjc.thermodynamics.modified_canonical.asymptotic.weak_potential.nondimensional_gibbs_free_energy_per_link number_of_links 1.0 1.0 nondimensional_potential_distance nondimensional_potential_stiffness 300.0 - Polymers.fjc.thermodynamics.modified_canonical.asymptotic.weak_potential.nondimensional_gibbs_free_energy_per_link number_of_links 1.0 1.0 (Polymers.ZERO : α) nondimensional_potential_stiffness 300.0

/-- `src/physics/single_chain/fjc/thermodynamics/modified_canonical/asymptotic/weak_potential/mod.rs` lines 126-134. -/
def FJC.init (number_of_links : Nat) (link_length : α) (hinge_mass : α) : Polymers.fjc.thermodynamics.modified_canonical.asymptotic.weak_potential.FJC α :=
  { hinge_mass := hinge_mass, link_length := link_length, number_of_links := number_of_links }

/-- `src/physics/single_chain/fjc/thermodynamics/modified_canonical/asymptotic/weak_potential/mod.rs` lines 136-139. -/
def FJC.end_to_end_length (self : Polymers.fjc.thermodynamics.modified_canonical.asymptotic.weak_potential.FJC α) (potential_distance : α) (potential_stiffness : α) (temperature : α) : α :=
  Polymers.fjc.thermodynamics.modified_canonical.asymptotic.weak_potential.end_to_end_length self.number_of_links self.link_length potential_distance potential_stiffness temperature

/-- `src/physics/single_chain/fjc/thermodynamics/modified_canonical/asymptotic/weak_potential/mod.rs` lines 141-144. -/
def FJC.end_to_end_length_per_link (self : Polymers.fjc.thermodynamics.modified_canonical.asymptotic.weak_potential.FJC α) (potential_distance : α) (potential_stiffness : α) (temperature : α) : α :=
  Polymers.fjc.thermodynamics.modified_canonical.asymptotic.weak_potential.end_to_end_length_per_link self.number_of_links self.link_length potential_distance potential_stiffness temperature

/-- `src/physics/single_chain/fjc/thermodynamics/modified_canonical/asymptotic/weak_potential/mod.rs` lines 146-149. -/
def FJC.nondimensional_end_to_end_length (self : Polymers.fjc.thermodynamics.modified_canonical.asymptotic.weak_potential.FJC α) (nondimensional_potential_distance : α) (nondimensional_potential_stiffness : α) : α :=
  Polymers.fjc.thermodynamics.modified_canonical.asymptotic.weak_potential.nondimensional_end_to_end_length self.number_of_links nondimensional_potential_distance nondimensional_potential_stiffness

/-- `src/physics/single_chain/fjc/thermodynamics/modified_canonical/asymptotic/weak_potential/mod.rs` lines 151-154. -/
def FJC.nondimensional_end_to_end_length_per_link (self : Polymers.fjc.thermodynamics.modified_canonical.asymptotic.weak_potential.FJC α) (nondimensional_potential_distance : α) (nondimensional_potential_stiffness : α) : α :=
  Polymers.fjc.thermodynamics.modified_canonical.asymptotic.weak_potential.nondimensional_end_to_end_length_per_link self.number_of_links nondimensional_potential_distance nondimensional_potential_stiffness

/-- `src/physics/single_chain/fjc/thermodynamics/modified_canonical/asymptotic/weak_potential/mod.rs` lines 156-159. -/
def FJC.force (self : Polymers.fjc.thermodynamics.modified_canonical.asymptotic.weak_potential.FJC α) (potential_distance : α) (potential_stiffness : α) : α :=
  Polymers.fjc.thermodynamics.modified_canonical.asymptotic.weak_potential.force potential_distance potential_stiffness

/-- `src/physics/single_chain/fjc/thermodynamics/modified_canonical/asymptotic/weak_potential/mod.rs` lines 161-164. -/
def FJC.nondimensional_force (self : Polymers.fjc.thermodynamics.modified_canonical.asymptotic.weak_potential.FJC α) (nondimensional_potential_distance : α) (nondimensional_potential_stiffness : α) : α :=
  Polymers.fjc.thermodynamics.modified_canonical.asymptotic.weak_potential.nondimensional_force self.number_of_links nondimensional_potential_distance nondimensional_potential_stiffness

/-- `src/physics/single_chain/fjc/thermodynamics/modified_canonical/asymptotic/weak_potential/mod.rs` lines 166-169. -/
def FJC.gibbs_free_energy (self : Polymers.fjc.thermodynamics.modified_canonical.asymptotic.weak_potential.FJC α) (potential_distance : α) (potential_stiffness : α) (temperature : α) : α :=
  Polymers.fjc.thermodynamics.modified_canonical.asymptotic.weak_potential.gibbs_free_energy self.number_of_links self.link_length self.hinge_mass potential_distance potential_stiffness temperature

/-- `src/physics/single_chain/fjc/thermodynamics/modified_canonical/asymptotic/weak_potential/mod.rs` lines 171-174. -/
def FJC.gibbs_free_energy_per_link (self : Polymers.fjc.thermodynamics.modified_canonical.asymptotic.weak_potential.FJC α) (potential_distance : α) (potential_stiffness : α) (temperature : α) : α :=
  Polymers.fjc.thermodynamics.modified_canonical.asymptotic.weak_potential.gibbs_free_energy_per_link self.number_of_links self.link_length self.hinge_mass potential_distance potential_stiffness temperature

/-- `src/physics/single_chain/fjc/thermodynamics/modified_canonical/asymptotic/weak_potential/mod.rs` lines 176-179. -/
def FJC.relative_gibbs_free_energy (self : Polymers.fjc.thermodynamics.modified_canonical.asymptotic.weak_potential.FJC α) (potential_distance : α) (potential_stiffness : α) (temperature : α) : α :=
  Polymers.fjc.thermodynamics.modified_canonical.asymptotic.weak_potential.relative_gibbs_free_energy self.number_of_links self.link_length potential_distance potential_stiffness temperature

/-- `src/physics/single_chain/fjc/thermodynamics/modified_canonical/asymptotic/weak_potential/mod.rs` lines 181-184. -/
def FJC.relative_gibbs_free_energy_per_link (self : Polymers.fjc.thermodynamics.modified_canonical.asymptotic.weak_potential.FJC α) (potential_distance : α) (potential_stiffness : α) (temperature : α) : α :=
  Polymers.fjc.thermodynamics.modified_canonical.asymptotic.weak_potential.relative_gibbs_free_energy_per_link self.number_of_links self.link_length potential_distance potential_stiffness temperature

/-- `src/physics/single_chain/fjc/thermodynamics/modified_canonical/asymptotic/weak_potential/mod.rs` lines 186-189. -/
def FJC.nondimensional_gibbs_free_energy (self : Polymers.fjc.thermodynamics.modified_canonical.asymptotic.weak_potential.FJC α) (nondimensional_potential_distance : α) (nondimensional_potential_stiffness : α) (temperature : α) : α :=
  Polymers.fjc.thermodynamics.modified_canonical.asymptotic.weak_potential.nondimensional_gibbs_free_energy self.number_of_links self.link_length self.hinge_mass nondimensional_potential_distance nondimensional_potential_stiffness temperature

/-- `src/physics/single_chain/fjc/thermodynamics/modified_canonical/asymptotic/weak_potential/mod.rs` lines 191-194. -/
def FJC.nondimensional_gibbs_free_energy_per_link (self : Polymers.fjc.thermodynamics.modified_canonical.asymptotic.weak_potential.FJC α) (nondimensional_potential_distance : α) (nondimensional_potential_stiffness : α) (temperature : α) : α :=
  Polymers.fjc.thermodynamics.modified_canonical.asymptotic.weak_potential.nondimensional_gibbs_free_energy_per_link self.number_of_links self.link_length self.hinge_mass nondimensional_potential_distance nondimensional_potential_stiffness temperature

/-- `src/physics/single_chain/fjc/thermodynamics/modified_canonical/asymptotic/weak_potential/mod.rs` lines 196-199. -/
def FJC.nondimensional_relative_gibbs_free_energy (self : Polymers.fjc.thermodynamics.modified_canonical.asymptotic.weak_potential.FJC α) (nondimensional_potential_distance : α) (nondimensional_potential_stiffness : α) : α :=
  Polymers.fjc.thermodynamics.modified_canonical.asymptotic.weak_potential.nondimensional_relative_gibbs_free_energy self.number_of_links nondimensional_potential_distance nondimensional_potential_stiffness

/-- `src/physics/single_chain/fjc/thermodynamics/modified_canonical/asymptotic/weak_potential/mod.rs` lines 201-204. -/
def FJC.nondimensional_relative_gibbs_free_energy_per_link (self : Polymers.fjc.thermodynamics.modified_canonical.asymptotic.weak_potential.FJC α) (nondimensional_potential_distance : α) (nondimensional_potential_stiffness : α) : α :=
  Polymers.fjc.thermodynamics.modified_canonical.asymptotic.weak_potential.nondimensional_relative_gibbs_free_energy_per_link self.number_of_links nondimensional_potential_distance nondimensional_potential_stiffness

end Polymers.fjc.thermodynamics.modified_canonical.asymptotic.weak_potential

namespace Polymers.fjc.thermodynamics.isometric.legendre

/-- `src/physics/single_chain/fjc/thermodynamics/isometric/legendre/mod.rs` lines 33-45: struct `FJC`. -/
structure FJC (α : Type) where
  /-- field `hinge_mass` -/
  hinge_mass : α
  /-- field `link_length` -/
  link_length : α
  /-- field `number_of_links` -/
  number_of_links : Nat
  /-- field `normalization_nondimensional_equilibrium_distribution` -/
  normalization_nondimensional_equilibrium_distribution : α

/-- `src/physics/single_chain/fjc/thermodynamics/isometric/legendre/mod.rs` lines 54-57. -/
def nondimensional_force (nondimensional_end_to_end_length_per_link : α) : α :=
  Polymers.math.inverse_langevin nondimensional_end_to_end_length_per_link

/-- `src/physics/single_chain/fjc/thermodynamics/isometric/legendre/mod.rs` lines 48-51. -/
def force (number_of_links : Nat) (link_length : α) (end_to_end_length : α) (temperature : α) : α :=
  (Polymers.BOLTZMANN_CONSTANT : α) * temperature / link_length * Polymers.fjc.thermodynamics.isometric.legendre.nondimensional_force (end_to_end_length / ((number_of_links : α) * link_length))

/-- `src/physics/single_chain/fjc/thermodynamics/isometric/legendre/mod.rs` lines 102-106. -/
def nondimensional_relative_helmholtz_free_energy_per_link (nondimensional_end_to_end_length_per_link : α) : α :=
  let nondimensional_force : α := Polymers.fjc.thermodynamics.isometric.legendre.nondimensional_force nondimensional_end_to_end_length_per_link
  nondimensional_force * nondimensional_end_to_end_length_per_link - Elem.ln (Elem.sinh nondimensional_force / nondimensional_force)

/-- `src/physics/single_chain/fjc/thermodynamics/isometric/legendre/mod.rs` lines 96-99. -/
def nondimensional_relative_helmholtz_free_energy (number_of_links : Nat) (nondimensional_end_to_end_length_per_link : α) : α :=
  Polymers.fjc.thermodynamics.isometric.legendre.nondimensional_relative_helmholtz_free_energy_per_link nondimensional_end_to_end_length_per_link * (number_of_links : α)

/-- `src/physics/single_chain/fjc/thermodynamics/isometric/legendre/mod.rs` lines 84-87. -/
def nondimensional_helmholtz_free_energy (number_of_links : Nat) (link_length : α) (hinge_mass : α) (nondimensional_end_to_end_length_per_link : α) (temperature : α) : α :=
  Polymers.fjc.thermodynamics.isometric.legendre.nondimensional_relative_helmholtz_free_energy number_of_links nondimensional_end_to_end_length_per_link - ((number_of_links : α) - 1.0) * Elem.ln (8.0 * Elem.powi (Elem.pi : α) 2 * hinge_mass * Elem.powi link_length 2 * (Polymers.BOLTZMANN_CONSTANT : α) * temperature / Elem.powi (Polymers.PLANCK_CONSTANT : α) 2)

/-- `src/physics/single_chain/fjc/thermodynamics/isometric/legendre/mod.rs` lines 60-63. -/
def helmholtz_free_energy (number_of_links : Nat) (link_length : α) (hinge_mass : α) (end_to_end_length : α) (temperature : α) : α :=
  Polymers.fjc.thermodynamics.isometric.legendre.nondimensional_helmholtz_free_energy number_of_links link_length hinge_mass (end_to_end_length / ((number_of_links : α) * link_length)) temperature * (Polymers.BOLTZMANN_CONSTANT : α) * temperature

/-- `src/physics/single_chain/fjc/thermodynamics/isometric/legendre/mod.rs` lines 90-93. -/
def nondimensional_helmholtz_free_energy_per_link (number_of_links : Nat) (link_length : α) (hinge_mass : α) (nondimensional_end_to_end_length_per_link : α) (temperature : α) : α :=
  Polymers.fjc.thermodynamics.isometric.legendre.nondimensional_relative_helmholtz_free_energy_per_link nondimensional_end_to_end_length_per_link - (1.0 - 1.0 / (number_of_links : α)) * Elem.ln (8.0 * Elem.powi (Elem.pi : α) 2 * hinge_mass * Elem.powi link_length 2 * (Polymers.BOLTZMANN_CONSTANT : α) * temperature / Elem.powi (Polymers.PLANCK_CONSTANT : α) 2)

/-- `src/physics/single_chain/fjc/thermodynamics/isometric/legendre/mod.rs` lines 66-69. -/
def helmholtz_free_energy_per_link (number_of_links : Nat) (link_length : α) (hinge_mass : α) (end_to_end_length : α) (temperature : α) : α :=
  Polymers.fjc.thermodynamics.isometric.legendre.nondimensional_helmholtz_free_energy_per_link number_of_links link_length hinge_mass (end_to_end_length / ((number_of_links : α) * link_length)) temperature * (Polymers.BOLTZMANN_CONSTANT : α) * temperature

/-- `src/physics/single_chain/fjc/thermodynamics/isometric/legendre/mod.rs` lines 72-75. -/
def relative_helmholtz_free_energy (number_of_links : Nat) (link_length : α) (end_to_end_length : α) (temperature : α) : α :=
  Polymers.fjc.thermodynamics.isometric.legendre.nondimensional_relative_helmholtz_free_energy number_of_links (end_to_end_length / ((number_of_links : α) * link_length)) * (Polymers.BOLTZMANN_CONSTANT : α) * temperature

/-- `src/physics/single_chain/fjc/thermodynamics/isometric/legendre/mod.rs` lines 78-81. -/
def relative_helmholtz_free_energy_per_link (number_of_links : Nat) (link_length : α) (end_to_end_length : α) (temperature : α) : α :=
  Polymers.fjc.thermodynamics.isometric.legendre.nondimensional_relative_helmholtz_free_energy_per_link (end_to_end_length / ((number_of_links : α) * link_length)) * (Polymers.BOLTZMANN_CONSTANT : α) * temperature

/-- `src/physics/single_chain/fjc/thermodynamics/isometric/legendre/mod.rs` lines 116-120. -/
def nondimensional_equilibrium_distribution (number_of_links : Nat) (normalization_nondimensional_equilibrium_distribution : α) (nondimensional_end_to_end_length_per_link : α) : α :=
  let nondimensional_force : α := Polymers.fjc.thermodynamics.isometric.legendre.nondimensional_force nondimensional_end_to_end_length_per_link
  Elem.powi (Elem.sinh nondimensional_force / nondimensional_force * Elem.exp ((-nondimensional_force) * nondimensional_end_to_end_length_per_link)) (number_of_links : Int) / normalization_nondimensional_equilibrium_distribution

/-- `src/physics/single_chain/fjc/thermodynamics/isometric/legendre/mod.rs` lines 109-113. -/
def equilibrium_distribution (number_of_links : Nat) (link_length : α) (normalization_nondimensional_equilibrium_distribution : α) (end_to_end_length : α) : α :=
  let contour_length : α := (number_of_links : α) * link_length
  Polymers.fjc.thermodynamics.isometric.legendre.nondimensional_equilibrium_distribution number_of_links normalization_nondimensional_equilibrium_distribution (end_to_end_length / contour_length) / Elem.powi contour_length 3

/-- `src/physics/single_chain/fjc/thermodynamics/isometric/legendre/mod.rs` lines 130-133. -/
def nondimensional_equilibrium_radial_distribution (number_of_links : Nat) (normalization_nondimensional_equilibrium_distribution : α) (nondimensional_end_to_end_length_per_link : α) : α :=
  4.0 * (Elem.pi : α) * Elem.powi nondimensional_end_to_end_length_per_link 2 * Polymers.fjc.thermodynamics.isometric.legendre.nondimensional_equilibrium_distribution number_of_links normalization_nondimensional_equilibrium_distribution nondimensional_end_to_end_length_per_link

/-- `src/physics/single_chain/fjc/thermodynamics/isometric/legendre/mod.rs` lines 123-127. -/
def equilibrium_radial_distribution (number_of_links : Nat) (link_length : α) (normalization_nondimensional_equilibrium_distribution : α) (end_to_end_length : α) : α :=
  let contour_length : α := (number_of_links : α) * link_length
  Polymers.fjc.thermodynamics.isometric.legendre.nondimensional_equilibrium_radial_distribution number_of_links normalization_nondimensional_equilibrium_distribution (end_to_end_length / contour_length) / contour_length

/-- `src/physics/single_chain/fjc/thermodynamics/isometric/legendre/mod.rs` lines 160-165. -/
def nondimensional_gibbs_free_energy (number_of_links : Nat) (link_length : α) (hinge_mass : α) (nondimensional_end_to_end_length_per_link : α) (temperature : α) : α :=
  let sums : List α := Polymers.fjc.thermodynamics.treloar_sums number_of_links nondimensional_end_to_end_length_per_link [0, 1]
  let number_of_links_f64 : α := (number_of_links : α)
  (-(nondimensional_end_to_end_length_per_link * number_of_links_f64)) * (1.0 / nondimensional_end_to_end_length_per_link + (0.5 * number_of_links_f64 - 1.0) * (List.getD sums 1 Elem.panic) / (List.getD sums 0 Elem.panic)) / number_of_links_f64 - Elem.ln (Polymers.fjc.thermodynamics.treloar_sum_0_with_prefactor number_of_links nondimensional_end_to_end_length_per_link / Elem.powi (number_of_links_f64 * link_length) 3) - (number_of_links_f64 - 1.0) * Elem.ln (8.0 * Elem.powi (Elem.pi : α) 2 * hinge_mass * Elem.powi link_length 2 * (Polymers.BOLTZMANN_CONSTANT : α) * temperature / Elem.powi (Polymers.PLANCK_CONSTANT : α) 2)

/-- `src/physics/single_chain/fjc/thermodynamics/isometric/legendre/mod.rs` lines 136-139. -/
def gibbs_free_energy (number_of_links : Nat) (link_length : α) (hinge_mass : α) (end_to_end_length : α) (temperature : α) : α :=
  Polymers.fjc.thermodynamics.isometric.legendre.nondimensional_gibbs_free_energy number_of_links link_length hinge_mass (end_to_end_length / ((number_of_links : α) * link_length)) temperature * (Polymers.BOLTZMANN_CONSTANT : α) * temperature

/-- `src/physics/single_chain/fjc/thermodynamics/isometric/legendre/mod.rs` lines 168-171. -/
def nondimensional_gibbs_free_energy_per_link (number_of_links : Nat) (link_length : α) (hinge_mass : α) (nondimensional_end_to_end_length_per_link : α) (temperature : α) : α :=
  Polymers.fjc.thermodynamics.isometric.legendre.nondimensional_gibbs_free_energy number_of_links link_length hinge_mass nondimensional_end_to_end_length_per_link temperature / (number_of_links : α)

/-- `src/physics/single_chain/fjc/thermodynamics/isometric/legendre/mod.rs` lines 142-145. -/
def gibbs_free_energy_per_link (number_of_links : Nat) (link_length : α) (hinge_mass : α) (end_to_end_length : α) (temperature : α) : α :=
  Polymers.fjc.thermodynamics.isometric.legendre.nondimensional_gibbs_free_energy_per_link number_of_links link_length hinge_mass (end_to_end_length / ((number_of_links : α) * link_length)) temperature * (Polymers.BOLTZMANN_CONSTANT : α) * temperature

/-- `src/physics/single_chain/fjc/thermodynamics/isometric/legendre/mod.rs` lines 174-177. -/
def nondimensional_relative_gibbs_free_energy (number_of_links : Nat) (nondimensional_end_to_end_length_per_link : α) : α :=
  Polymers.fjc.thermodynamics.isometric.legendre.nondimensional_gibbs_free_energy number_of_links 1.0 1.0 nondimensional_end_to_end_length_per_link 300.0 - Polymers.fjc.thermodynamics.isometric.legendre.nondimensional_gibbs_free_energy number_of_links 1.0 1.0 (Polymers.ZERO : α) 300.0

/-- `src/physics/single_chain/fjc/thermodynamics/isometric/legendre/mod.rs` lines 148-151. -/
def relative_gibbs_free_energy (number_of_links : Nat) (link_length : α) (end_to_end_length : α) (temperature : α) : α :=
  Polymers.fjc.thermodynamics.isometric.legendre.nondimensional_relative_gibbs_free_energy number_of_links (end_to_end_length / ((number_of_links : α) * link_length)) * (Polymers.BOLTZMANN_CONSTANT : α) * temperature

/-- `src/physics/single_chain/fjc/thermodynamics/isometric/legendre/mod.rs` lines 180-183. -/
def nondimensional_relative_gibbs_free_energy_per_link (number_of_links : Nat) (nondimensional_end_to_end_length_per_link : α) : α :=
  Polymers.fjc.thermodynamics.isometric.legendre.nondimensional_gibbs_free_energy_per_link number_of_links 1.0 1.0 nondimensional_end_to_end_length_per_link 300.0 - Polymers.fjc.thermodynamics.isometric.legendre.nondimensional_gibbs_free_energy_per_link number_of_links 1.0 1.0 (Polymers.ZERO : α) 300.0

/-- `src/physics/single_chain/fjc/thermodynamics/isometric/legendre/mod.rs` lines 154-157. -/
def relative_gibbs_free_energy_per_link (number_of_links : Nat) (link_length : α) (end_to_end_length : α) (temperature : α) : α :=
  Polymers.fjc.thermodynamics.isometric.legendre.nondimensional_relative_gibbs_free_energy_per_link number_of_links (end_to_end_length / ((number_of_links : α) * link_length)) * (Polymers.BOLTZMANN_CONSTANT : α) * temperature

/-- `src/physics/single_chain/fjc/thermodynamics/isometric/legendre/mod.rs` lines 189-199. -/
def FJC.init (number_of_links : Nat) (link_length : α) (hinge_mass : α) : Polymers.fjc.thermodynamics.isometric.legendre.FJC α :=
  let normalization : α := Polymers.math.integrate_1d (fun (nondimensional_end_to_end_length_per_link : α) => Polymers.fjc.thermodynamics.isometric.legendre.nondimensional_equilibrium_radial_distribution number_of_links 1.0 nondimensional_end_to_end_length_per_link) (Polymers.ZERO : α) (Polymers.ONE : α) Polymers.POINTS
  { hinge_mass := hinge_mass, link_length := link_length, number_of_links := number_of_links, normalization_nondimensional_equilibrium_distribution := normalization }

/-- `src/physics/single_chain/fjc/thermodynamics/isometric/legendre/mod.rs` lines 201-204. -/
def FJC.force (self : Polymers.fjc.thermodynamics.isometric.legendre.FJC α) (end_to_end_length : α) (temperature : α) : α :=
  Polymers.fjc.thermodynamics.isometric.legendre.force self.number_of_links self.link_length end_to_end_length temperature

/-- `src/physics/single_chain/fjc/thermodynamics/isometric/legendre/mod.rs` lines 206-209. -/
def FJC.nondimensional_force (self : Polymers.fjc.thermodynamics.isometric.legendre.FJC α) (nondimensional_end_to_end_length_per_link : α) : α :=
  Polymers.fjc.thermodynamics.isometric.legendre.nondimensional_force nondimensional_end_to_end_length_per_link

/-- `src/physics/single_chain/fjc/thermodynamics/isometric/legendre/mod.rs` lines 211-214. -/
def FJC.helmholtz_free_energy (self : Polymers.fjc.thermodynamics.isometric.legendre.FJC α) (end_to_end_length : α) (temperature : α) : α :=
  Polymers.fjc.thermodynamics.isometric.legendre.helmholtz_free_energy self.number_of_links self.link_length self.hinge_mass end_to_end_length temperature

/-- `src/physics/single_chain/fjc/thermodynamics/isometric/legendre/mod.rs` lines 216-219. -/
def FJC.helmholtz_free_energy_per_link (self : Polymers.fjc.thermodynamics.isometric.legendre.FJC α) (end_to_end_length : α) (temperature : α) : α :=
  Polymers.fjc.thermodynamics.isometric.legendre.helmholtz_free_energy_per_link self.number_of_links self.link_length self.hinge_mass end_to_end_length temperature

/-- `src/physics/single_chain/fjc/thermodynamics/isometric/legendre/mod.rs` lines 221-224. -/
def FJC.relative_helmholtz_free_energy (self : Polymers.fjc.thermodynamics.isometric.legendre.FJC α) (end_to_end_length : α) (temperature : α) : α :=
  Polymers.fjc.thermodynamics.isometric.legendre.relative_helmholtz_free_energy self.number_of_links self.link_length end_to_end_length temperature

/-- `src/physics/single_chain/fjc/thermodynamics/isometric/legendre/mod.rs` lines 226-229. -/
def FJC.relative_helmholtz_free_energy_per_link (self : Polymers.fjc.thermodynamics.isometric.legendre.FJC α) (end_to_end_length : α) (temperature : α) : α :=
  Polymers.fjc.thermodynamics.isometric.legendre.relative_helmholtz_free_energy_per_link self.number_of_links self.link_length end_to_end_length temperature

/-- `src/physics/single_chain/fjc/thermodynamics/isometric/legendre/mod.rs` lines 231-234. -/
def FJC.nondimensional_helmholtz_free_energy (self : Polymers.fjc.thermodynamics.isometric.legendre.FJC α) (nondimensional_end_to_end_length_per_link : α) (temperature : α) : α :=
  Polymers.fjc.thermodynamics.isometric.legendre.nondimensional_helmholtz_free_energy self.number_of_links self.link_length self.hinge_mass nondimensional_end_to_end_length_per_link temperature

/-- `src/physics/single_chain/fjc/thermodynamics/isometric/legendre/mod.rs` lines 236-239. -/
def FJC.nondimensional_helmholtz_free_energy_per_link (self : Polymers.fjc.thermodynamics.isometric.legendre.FJC α) (nondimensional_end_to_end_length_per_link : α) (temperature : α) : α :=
  Polymers.fjc.thermodynamics.isometric.legendre.nondimensional_helmholtz_free_energy_per_link self.number_of_links self.link_length self.hinge_mass nondimensional_end_to_end_length_per_link temperature

/-- `src/physics/single_chain/fjc/thermodynamics/isometric/legendre/mod.rs` lines 241-244. -/
def FJC.nondimensional_relative_helmholtz_free_energy (self : Polymers.fjc.thermodynamics.isometric.legendre.FJC α) (nondimensional_end_to_end_length_per_link : α) : α :=
  Polymers.fjc.thermodynamics.isometric.legendre.nondimensional_relative_helmholtz_free_energy self.number_of_links nondimensional_end_to_end_length_per_link

/-- `src/physics/single_chain/fjc/thermodynamics/isometric/legendre/mod.rs` lines 246-249. -/
def FJC.nondimensional_relative_helmholtz_free_energy_per_link (self : Polymers.fjc.thermodynamics.isometric.legendre.FJC α) (nondimensional_end_to_end_length_per_link : α) : α :=
  Polymers.fjc.thermodynamics.isometric.legendre.nondimensional_relative_helmholtz_free_energy_per_link nondimensional_end_to_end_length_per_link

/-- `src/physics/single_chain/fjc/thermodynamics/isometric/legendre/mod.rs` lines 251-254. -/
def FJC.equilibrium_distribution (self : Polymers.fjc.thermodynamics.isometric.legendre.FJC α) (end_to_end_length : α) : α :=
  Polymers.fjc.thermodynamics.isometric.legendre.equilibrium_distribution self.number_of_links self.link_length self.normalization_nondimensional_equilibrium_distribution end_to_end_length

/-- `src/physics/single_chain/fjc/thermodynamics/isometric/legendre/mod.rs` lines 256-259. -/
def FJC.nondimensional_equilibrium_distribution (self : Polymers.fjc.thermodynamics.isometric.legendre.FJC α) (nondimensional_end_to_end_length_per_link : α) : α :=
  Polymers.fjc.thermodynamics.isometric.legendre.nondimensional_equilibrium_distribution self.number_of_links self.normalization_nondimensional_equilibrium_distribution nondimensional_end_to_end_length_per_link

/-- `src/physics/single_chain/fjc/thermodynamics/isometric/legendre/mod.rs` lines 261-264. -/
def FJC.equilibrium_radial_distribution (self : Polymers.fjc.thermodynamics.isometric.legendre.FJC α) (end_to_end_length : α) : α :=
  Polymers.fjc.thermodynamics.isometric.legendre.equilibrium_radial_distribution self.number_of_links self.link_length self.normalization_nondimensional_equilibrium_distribution end_to_end_length

/-- `src/physics/single_chain/fjc/thermodynamics/isometric/legendre/mod.rs` lines 266-269. -/
def FJC.nondimensional_equilibrium_radial_distribution (self : Polymers.fjc.thermodynamics.isometric.legendre.FJC α) (nondimensional_end_to_end_length_per_link : α) : α :=
  Polymers.fjc.thermodynamics.isometric.legendre.nondimensional_equilibrium_radial_distribution self.number_of_links self.normalization_nondimensional_equilibrium_distribution nondimensional_end_to_end_length_per_link

/-- `src/physics/single_chain/fjc/thermodynamics/isometric/legendre/mod.rs` lines 271-274. -/
def FJC.gibbs_free_energy (self : Polymers.fjc.thermodynamics.isometric.legendre.FJC α) (end_to_end_length : α) (temperature : α) : α :=
  Polymers.fjc.thermodynamics.isometric.legendre.gibbs_free_energy self.number_of_links self.link_length self.hinge_mass end_to_end_length temperature

/-- `src/physics/single_chain/fjc/thermodynamics/isometric/legendre/mod.rs` lines 276-279. -/
def FJC.gibbs_free_energy_per_link (self : Polymers.fjc.thermodynamics.isometric.legendre.FJC α) (end_to_end_length : α) (temperature : α) : α :=
  Polymers.fjc.thermodynamics.isometric.legendre.gibbs_free_energy_per_link self.number_of_links self.link_length self.hinge_mass end_to_end_length temperature

/-- `src/physics/single_chain/fjc/thermodynamics/isometric/legendre/mod.rs` lines 281-284. -/
def FJC.relative_gibbs_free_energy (self : Polymers.fjc.thermodynamics.isometric.legendre.FJC α) (end_to_end_length : α) (temperature : α) : α :=
  Polymers.fjc.thermodynamics.isometric.legendre.relative_gibbs_free_energy self.number_of_links self.link_length end_to_end_length temperature

/-- `src/physics/single_chain/fjc/thermodynamics/isometric/legendre/mod.rs` lines 286-289. -/
def FJC.relative_gibbs_free_energy_per_link (self : Polymers.fjc.thermodynamics.isometric.legendre.FJC α) (end_to_end_length : α) (temperature : α) : α :=
  Polymers.fjc.thermodynamics.isometric.legendre.relative_gibbs_free_energy_per_link self.number_of_links self.link_length end_to_end_length temperature

/-- `src/physics/single_chain/fjc/thermodynamics/isometric/legendre/mod.rs` lines 291-294. -/
def FJC.nondimensional_gibbs_free_energy (self : Polymers.fjc.thermodynamics.isometric.legendre.FJC α) (nondimensional_end_to_end_length_per_link : α) (temperature : α) : α :=
  Polymers.fjc.thermodynamics.isometric.legendre.nondimensional_gibbs_free_energy self.number_of_links self.link_length self.hinge_mass nondimensional_end_to_end_length_per_link temperature

/-- `src/physics/single_chain/fjc/thermodynamics/isometric/legendre/mod.rs` lines 296-299. -/
def FJC.nondimensional_gibbs_free_energy_per_link (self : Polymers.fjc.thermodynamics.isometric.legendre.FJC α) (nondimensional_end_to_end_length_per_link : α) (temperature : α) : α :=
  Polymers.fjc.thermodynamics.isometric.legendre.nondimensional_gibbs_free_energy_per_link self.number_of_links self.link_length self.hinge_mass nondimensional_end_to_end_length_per_link temperature

/-- `src/physics/single_chain/fjc/thermodynamics/isometric/legendre/mod.rs` lines 301-304. -/
def FJC.nondimensional_relative_gibbs_free_energy (self : Polymers.fjc.thermodynamics.isometric.legendre.FJC α) (nondimensional_end_to_end_length_per_link : α) : α :=
  Polymers.fjc.thermodynamics.isometric.legendre.nondimensional_relative_gibbs_free_energy self.number_of_links nondimensional_end_to_end_length_per_link

/-- `src/physics/single_chain/fjc/thermodynamics/isometric/legendre/mod.rs` lines 306-309. -/
def FJC.nondimensional_relative_gibbs_free_energy_per_link (self : Polymers.fjc.thermodynamics.isometric.legendre.FJC α) (nondimensional_end_to_end_length_per_link : α) : α :=
  Polymers.fjc.thermodynamics.isometric.legendre.nondimensional_relative_gibbs_free_energy_per_link self.number_of_links nondimensional_end_to_end_length_per_link

end Polymers.fjc.thermodynamics.isometric.legendre

namespace Polymers.fjc.thermodynamics.isotensional.legendre

/-- `src/physics/single_chain/fjc/thermodynamics/isotensional/legendre/mod.rs` lines 17-27: struct `FJC`. -/
structure FJC (α : Type) where
  /-- field `hinge_mass` -/
  hinge_mass : α
  /-- field `link_length` -/
  link_length : α
  /-- field `number_of_links` -/
  number_of_links : Nat

/-- `src/physics/single_chain/fjc/thermodynamics/isotensional/legendre/mod.rs` lines 30-34. -/
def helmholtz_free_energy (number_of_links : Nat) (link_length : α) (hinge_mass : α) (force : α) (temperature : α) : α :=
  let nondimensional_force : α := force / (Polymers.BOLTZMANN_CONSTANT : α) / temperature * link_length
  (number_of_links : α) * (Polymers.BOLTZMANN_CONSTANT : α) * temperature * (nondimensional_force / Elem.tanh nondimensional_force - 1.0 - Elem.ln (Elem.sinh nondimensional_force / nondimensional_force) - Elem.ln (8.0 * Elem.powi (Elem.pi : α) 2 * hinge_mass * Elem.powi link_length 2 * (Polymers.BOLTZMANN_CONSTANT : α) * temperature / Elem.powi (Polymers.PLANCK_CONSTANT : α) 2))

/-- `src/physics/single_chain/fjc/thermodynamics/isotensional/legendre/mod.rs` lines 37-41. -/
def helmholtz_free_energy_per_link (link_length : α) (hinge_mass : α) (force : α) (temperature : α) : α :=
  let nondimensional_force : α := force / (Polymers.BOLTZMANN_CONSTANT : α) / temperature * link_length
  (Polymers.BOLTZMANN_CONSTANT : α) * temperature * (nondimensional_force / Elem.tanh nondimensional_force - 1.0 - Elem.ln (Elem.sinh nondimensional_force / nondimensional_force) - Elem.ln (8.0 * Elem.powi (Elem.pi : α) 2 * hinge_mass * Elem.powi link_length 2 * (Polymers.BOLTZMANN_CONSTANT : α) * temperature / Elem.powi (Polymers.PLANCK_CONSTANT : α) 2))

/-- `src/physics/single_chain/fjc/thermodynamics/isotensional/legendre/mod.rs` lines 44-48. -/
def relative_helmholtz_free_energy (number_of_links : Nat) (link_length : α) (force : α) (temperature : α) : α :=
  let nondimensional_force : α := force / (Polymers.BOLTZMANN_CONSTANT : α) / temperature * link_length
  (number_of_links : α) * (Polymers.BOLTZMANN_CONSTANT : α) * temperature * (nondimensional_force / Elem.tanh nondimensional_force - 1.0 - Elem.ln (Elem.sinh nondimensional_force / nondimensional_force))

/-- `src/physics/single_chain/fjc/thermodynamics/isotensional/legendre/mod.rs` lines 51-55. -/
def relative_helmholtz_free_energy_per_link (link_length : α) (force : α) (temperature : α) : α :=
  let nondimensional_force : α := force / (Polymers.BOLTZMANN_CONSTANT : α) / temperature * link_length
  (Polymers.BOLTZMANN_CONSTANT : α) * temperature * (nondimensional_force / Elem.tanh nondimensional_force - 1.0 - Elem.ln (Elem.sinh nondimensional_force / nondimensional_force))

/-- `src/physics/single_chain/fjc/thermodynamics/isotensional/legendre/mod.rs` lines 58-61. -/
def nondimensional_helmholtz_free_energy (number_of_links : Nat) (link_length : α) (hinge_mass : α) (nondimensional_force : α) (temperature : α) : α :=
  (number_of_links : α) * (nondimensional_force / Elem.tanh nondimensional_force - 1.0 - Elem.ln (Elem.sinh nondimensional_force / nondimensional_force) - Elem.ln (8.0 * Elem.powi (Elem.pi : α) 2 * hinge_mass * Elem.powi link_length 2 * (Polymers.BOLTZMANN_CONSTANT : α) * temperature / Elem.powi (Polymers.PLANCK_CONSTANT : α) 2))

/-- `src/physics/single_chain/fjc/thermodynamics/isotensional/legendre/mod.rs` lines 64-67. -/
def nondimensional_helmholtz_free_energy_per_link (link_length : α) (hinge_mass : α) (nondimensional_force : α) (temperature : α) : α :=
  nondimensional_force / Elem.tanh nondimensional_force - 1.0 - Elem.ln (Elem.sinh nondimensional_force / nondimensional_force) - Elem.ln (8.0 * Elem.powi (Elem.pi : α) 2 * hinge_mass * Elem.powi link_length 2 * (Polymers.BOLTZMANN_CONSTANT : α) * temperature / Elem.powi (Polymers.PLANCK_CONSTANT : α) 2)

/-- `src/physics/single_chain/fjc/thermodynamics/isotensional/legendre/mod.rs` lines 70-73. -/
def nondimensional_relative_helmholtz_free_energy (number_of_links : Nat) (nondimensional_force : α) : α :=
  (number_of_links : α) * (nondimensional_force / Elem.tanh nondimensional_force - 1.0 - Elem.ln (Elem.sinh nondimensional_force / nondimensional_force))

/-- `src/physics/single_chain/fjc/thermodynamics/isotensional/legendre/mod.rs` lines 76-79. -/
def nondimensional_relative_helmholtz_free_energy_per_link (nondimensional_force : α) : α :=
  nondimensional_force / Elem.tanh nondimensional_force - 1.0 - Elem.ln (Elem.sinh nondimensional_force / nondimensional_force)

/-- `src/physics/single_chain/fjc/thermodynamics/isotensional/legendre/mod.rs` lines 85-93. -/
def FJC.init (number_of_links : Nat) (link_length : α) (hinge_mass : α) : Polymers.fjc.thermodynamics.isotensional.legendre.FJC α :=
  { hinge_mass := hinge_mass, link_length := link_length, number_of_links := number_of_links }

/-- `src/physics/single_chain/fjc/thermodynamics/isotensional/legendre/mod.rs` lines 95-98. -/
def FJC.helmholtz_free_energy (self : Polymers.fjc.thermodynamics.isotensional.legendre.FJC α) (force : α) (temperature : α) : α :=
  Polymers.fjc.thermodynamics.isotensional.legendre.helmholtz_free_energy self.number_of_links self.link_length self.hinge_mass force temperature

/-- `src/physics/single_chain/fjc/thermodynamics/isotensional/legendre/mod.rs` lines 100-103. -/
def FJC.helmholtz_free_energy_per_link (self : Polymers.fjc.thermodynamics.isotensional.legendre.FJC α) (force : α) (temperature : α) : α :=
  Polymers.fjc.thermodynamics.isotensional.legendre.helmholtz_free_energy_per_link self.link_length self.hinge_mass force temperature

/-- `src/physics/single_chain/fjc/thermodynamics/isotensional/legendre/mod.rs` lines 105-108. -/
def FJC.relative_helmholtz_free_energy (self : Polymers.fjc.thermodynamics.isotensional.legendre.FJC α) (force : α) (temperature : α) : α :=
  Polymers.fjc.thermodynamics.isotensional.legendre.relative_helmholtz_free_energy self.number_of_links self.link_length force temperature

/-- `src/physics/single_chain/fjc/thermodynamics/isotensional/legendre/mod.rs` lines 110-113. -/
def FJC.relative_helmholtz_free_energy_per_link (self : Polymers.fjc.thermodynamics.isotensional.legendre.FJC α) (force : α) (temperature : α) : α :=
  Polymers.fjc.thermodynamics.isotensional.legendre.relative_helmholtz_free_energy_per_link self.link_length force temperature

/-- `src/physics/single_chain/fjc/thermodynamics/isotensional/legendre/mod.rs` lines 115-118. -/
def FJC.nondimensional_helmholtz_free_energy (self : Polymers.fjc.thermodynamics.isotensional.legendre.FJC α) (nondimensional_force : α) (temperature : α) : α :=
  Polymers.fjc.thermodynamics.isotensional.legendre.nondimensional_helmholtz_free_energy self.number_of_links self.link_length self.hinge_mass nondimensional_force temperature

/-- `src/physics/single_chain/fjc/thermodynamics/isotensional/legendre/mod.rs` lines 120-123. -/
def FJC.nondimensional_helmholtz_free_energy_per_link (self : Polymers.fjc.thermodynamics.isotensional.legendre.FJC α) (nondimensional_force : α) (temperature : α) : α :=
  Polymers.fjc.thermodynamics.isotensional.legendre.nondimensional_helmholtz_free_energy_per_link self.link_length self.hinge_mass nondimensional_force temperature

/-- `src/physics/single_chain/fjc/thermodynamics/isotensional/legendre/mod.rs` lines 125-128. -/
def FJC.nondimensional_relative_helmholtz_free_energy (self : Polymers.fjc.thermodynamics.isotensional.legendre.FJC α) (nondimensional_force : α) : α :=
  Polymers.fjc.thermodynamics.isotensional.legendre.nondimensional_relative_helmholtz_free_energy self.number_of_links nondimensional_force

/-- `src/physics/single_chain/fjc/thermodynamics/isotensional/legendre/mod.rs` lines 130-133. -/
def FJC.nondimensional_relative_helmholtz_free_energy_per_link (self : Polymers.fjc.thermodynamics.isotensional.legendre.FJC α) (nondimensional_force : α) : α :=
  Polymers.fjc.thermodynamics.isotensional.legendre.nondimensional_relative_helmholtz_free_energy_per_link nondimensional_force

end Polymers.fjc.thermodynamics.isotensional.legendre

namespace Polymers.fjc.thermodynamics.modified_canonical.asymptotic

/-- `src/physics/single_chain/fjc/thermodynamics/modified_canonical/asymptotic/mod.rs` lines 13-29: struct `FJC`. -/
structure FJC (α : Type) where
  /-- field `hinge_mass` -/
  hinge_mass : α
  /-- field `link_length` -/
  link_length : α
  /-- field `number_of_links` -/
  number_of_links : Nat
  /-- field `weak_potential` -/
  weak_potential : Polymers.fjc.thermodynamics.modified_canonical.asymptotic.weak_potential.FJC α
  /-- field `strong_potential` -/
  strong_potential : Polymers.fjc.thermodynamics.modified_canonical.asymptotic.strong_potential.FJC α

/-- `src/physics/single_chain/fjc/thermodynamics/modified_canonical/asymptotic/mod.rs` lines 35-45. -/
def FJC.init (number_of_links : Nat) (link_length : α) (hinge_mass : α) : Polymers.fjc.thermodynamics.modified_canonical.asymptotic.FJC α :=
  { hinge_mass := hinge_mass, link_length := link_length, number_of_links := number_of_links, weak_potential := Polymers.fjc.thermodynamics.modified_canonical.asymptotic.weak_potential.FJC.init number_of_links link_length hinge_mass, strong_potential := Polymers.fjc.thermodynamics.modified_canonical.asymptotic.strong_potential.FJC.init number_of_links link_length hinge_mass }

end Polymers.fjc.thermodynamics.modified_canonical.asymptotic

namespace Polymers.fjc.thermodynamics.isometric

/-- `src/physics/single_chain/fjc/thermodynamics/isometric/mod.rs` lines 29-42: struct `FJC`. -/
structure FJC (α : Type) where
  /-- field `hinge_mass` -/
  hinge_mass : α
  /-- field `link_length` -/
  link_length : α
  /-- field `number_of_links` -/
  number_of_links : Nat
  /-- field `legendre` -/
  legendre : Polymers.fjc.thermodynamics.isometric.legendre.FJC α

/-- `src/physics/single_chain/fjc/thermodynamics/isometric/mod.rs` lines 51-56. -/
def nondimensional_force (number_of_links : Nat) (nondimensional_end_to_end_length_per_link : α) : α :=
  let sums : List α := Polymers.fjc.thermodynamics.treloar_sums number_of_links nondimensional_end_to_end_length_per_link [0, 1]
  let number_of_links_f64 : α := (number_of_links : α)
  (1.0 / nondimensional_end_to_end_length_per_link + (0.5 * number_of_links_f64 - 1.0) * (List.getD sums 1 Elem.panic) / (List.getD sums 0 Elem.panic)) / number_of_links_f64

/-- `src/physics/single_chain/fjc/thermodynamics/isometric/mod.rs` lines 45-48. -/
def force (number_of_links : Nat) (link_length : α) (end_to_end_length : α) (temperature : α) : α :=
  Polymers.fjc.thermodynamics.isometric.nondimensional_force number_of_links (end_to_end_length / ((number_of_links : α) * link_length)) * (Polymers.BOLTZMANN_CONSTANT : α) * temperature / link_length

/-- `src/physics/single_chain/fjc/thermodynamics/isometric/mod.rs` lines 114-117. -/
def nondimensional_equilibrium_distribution (number_of_links : Nat) (nondimensional_end_to_end_length_per_link : α) : α :=
  Polymers.fjc.thermodynamics.treloar_sum_0_with_prefactor number_of_links nondimensional_end_to_end_length_per_link

/-- `src/physics/single_chain/fjc/thermodynamics/isometric/mod.rs` lines 107-111. -/
def equilibrium_distribution (number_of_links : Nat) (link_length : α) (end_to_end_length : α) : α :=
  let contour_length : α := (number_of_links : α) * link_length
  Polymers.fjc.thermodynamics.isometric.nondimensional_equilibrium_distribution number_of_links (end_to_end_length / contour_length) / Elem.powi contour_length 3

/-- `src/physics/single_chain/fjc/thermodynamics/isometric/mod.rs` lines 83-86. -/
def nondimensional_helmholtz_free_energy (number_of_links : Nat) (link_length : α) (hinge_mass : α) (nondimensional_end_to_end_length_per_link : α) (temperature : α) : α :=
  (-Elem.ln (Polymers.fjc.thermodynamics.isometric.equilibrium_distribution number_of_links link_length (nondimensional_end_to_end_length_per_link * (number_of_links : α) * link_length))) - ((number_of_links : α) - 1.0) * Elem.ln (8.0 * Elem.powi (Elem.pi : α) 2 * hinge_mass * Elem.powi link_length 2 * (Polymers.BOLTZMANN_CONSTANT : α) * temperature / Elem.powi (Polymers.PLANCK_CONSTANT : α) 2)

/-- `src/physics/single_chain/fjc/thermodynamics/isometric/mod.rs` lines 59-62. -/
def helmholtz_free_energy (number_of_links : Nat) (link_length : α) (hinge_mass : α) (end_to_end_length : α) (temperature : α) : α :=
  Polymers.fjc.thermodynamics.isometric.nondimensional_helmholtz_free_energy number_of_links link_length hinge_mass (end_to_end_length / ((number_of_links : α) * link_length)) temperature * (Polymers.BOLTZMANN_CONSTANT : α) * temperature

/-- `src/physics/single_chain/fjc/thermodynamics/isometric/mod.rs` lines 89-92. -/
def nondimensional_helmholtz_free_energy_per_link (number_of_links : Nat) (link_length : α) (hinge_mass : α) (nondimensional_end_to_end_length_per_link : α) (temperature : α) : α :=
  Polymers.fjc.thermodynamics.isometric.nondimensional_helmholtz_free_energy number_of_links link_length hinge_mass nondimensional_end_to_end_length_per_link temperature / (number_of_links : α)

/-- `src/physics/single_chain/fjc/thermodynamics/isometric/mod.rs` lines 65-68. -/
def helmholtz_free_energy_per_link (number_of_links : Nat) (link_length : α) (hinge_mass : α) (end_to_end_length : α) (temperature : α) : α :=
  Polymers.fjc.thermodynamics.isometric.nondimensional_helmholtz_free_energy_per_link number_of_links link_length hinge_mass (end_to_end_length / ((number_of_links : α) * link_length)) temperature * (Polymers.BOLTZMANN_CONSTANT : α) * temperature

/-- `src/physics/single_chain/fjc/thermodynamics/isometric/mod.rs` lines 95-98. -/
def nondimensional_relative_helmholtz_free_energy (number_of_links : Nat) (nondimensional_end_to_end_length_per_link : α) : α :=
  Elem.ln (Polymers.fjc.thermodynamics.isometric.nondimensional_equilibrium_distribution number_of_links (Polymers.ZERO : α) / Polymers.fjc.thermodynamics.isometric.nondimensional_equilibrium_distribution number_of_links nondimensional_end_to_end_length_per_link)

/-- `src/physics/single_chain/fjc/thermodynamics/isometric/mod.rs` lines 71-74. -/
def relative_helmholtz_free_energy (number_of_links : Nat) (link_length : α) (end_to_end_length : α) (temperature : α) : α :=
  Polymers.fjc.thermodynamics.isometric.nondimensional_relative_helmholtz_free_energy number_of_links (end_to_end_length / ((number_of_links : α) * link_length)) * (Polymers.BOLTZMANN_CONSTANT : α) * temperature

/-- `src/physics/single_chain/fjc/thermodynamics/isometric/mod.rs` lines 101-104. -/
def nondimensional_relative_helmholtz_free_energy_per_link (number_of_links : Nat) (nondimensional_end_to_end_length_per_link : α) : α :=
  Polymers.fjc.thermodynamics.isometric.nondimensional_relative_helmholtz_free_energy number_of_links nondimensional_end_to_end_length_per_link / (number_of_links : α)

/-- `src/physics/single_chain/fjc/thermodynamics/isometric/mod.rs` lines 77-80. -/
def relative_helmholtz_free_energy_per_link (number_of_links : Nat) (link_length : α) (end_to_end_length : α) (temperature : α) : α :=
  Polymers.fjc.thermodynamics.isometric.nondimensional_relative_helmholtz_free_energy_per_link number_of_links (end_to_end_length / ((number_of_links : α) * link_length)) * (Polymers.BOLTZMANN_CONSTANT : α) * temperature

/-- `src/physics/single_chain/fjc/thermodynamics/isometric/mod.rs` lines 127-130. -/
def nondimensional_equilibrium_radial_distribution (number_of_links : Nat) (nondimensional_end_to_end_length_per_link : α) : α :=
  4.0 * (Elem.pi : α) * Elem.powi nondimensional_end_to_end_length_per_link 2 * Polymers.fjc.thermodynamics.isometric.nondimensional_equilibrium_distribution number_of_links nondimensional_end_to_end_length_per_link

/-- `src/physics/single_chain/fjc/thermodynamics/isometric/mod.rs` lines 120-124. -/
def equilibrium_radial_distribution (number_of_links : Nat) (link_length : α) (end_to_end_length : α) : α :=
  let contour_length : α := (number_of_links : α) * link_length
  Polymers.fjc.thermodynamics.isometric.nondimensional_equilibrium_radial_distribution number_of_links (end_to_end_length / contour_length) / contour_length

/-- `src/physics/single_chain/fjc/thermodynamics/isometric/mod.rs` lines 136-145. -/
def FJC.init (number_of_links : Nat) (link_length : α) (hinge_mass : α) : Polymers.fjc.thermodynamics.isometric.FJC α :=
  { hinge_mass := hinge_mass, link_length := link_length, number_of_links := number_of_links, legendre := Polymers.fjc.thermodynamics.isometric.legendre.FJC.init number_of_links link_length hinge_mass }

/-- `src/physics/single_chain/fjc/thermodynamics/isometric/mod.rs` lines 147-150. -/
def FJC.force (self : Polymers.fjc.thermodynamics.isometric.FJC α) (end_to_end_length : α) (temperature : α) : α :=
  Polymers.fjc.thermodynamics.isometric.force self.number_of_links self.link_length end_to_end_length temperature

/-- `src/physics/single_chain/fjc/thermodynamics/isometric/mod.rs` lines 152-155. -/
def FJC.nondimensional_force (self : Polymers.fjc.thermodynamics.isometric.FJC α) (nondimensional_end_to_end_length_per_link : α) : α :=
  Polymers.fjc.thermodynamics.isometric.nondimensional_force self.number_of_links nondimensional_end_to_end_length_per_link

/-- `src/physics/single_chain/fjc/thermodynamics/isometric/mod.rs` lines 157-160. -/
def FJC.helmholtz_free_energy (self : Polymers.fjc.thermodynamics.isometric.FJC α) (end_to_end_length : α) (temperature : α) : α :=
  Polymers.fjc.thermodynamics.isometric.helmholtz_free_energy self.number_of_links self.link_length self.hinge_mass end_to_end_length temperature

/-- `src/physics/single_chain/fjc/thermodynamics/isometric/mod.rs` lines 162-165. -/
def FJC.helmholtz_free_energy_per_link (self : Polymers.fjc.thermodynamics.isometric.FJC α) (end_to_end_length : α) (temperature : α) : α :=
  Polymers.fjc.thermodynamics.isometric.helmholtz_free_energy_per_link self.number_of_links self.link_length self.hinge_mass end_to_end_length temperature

/-- `src/physics/single_chain/fjc/thermodynamics/isometric/mod.rs` lines 167-170. -/
def FJC.relative_helmholtz_free_energy (self : Polymers.fjc.thermodynamics.isometric.FJC α) (end_to_end_length : α) (temperature : α) : α :=
  Polymers.fjc.thermodynamics.isometric.relative_helmholtz_free_energy self.number_of_links self.link_length end_to_end_length temperature

/-- `src/physics/single_chain/fjc/thermodynamics/isometric/mod.rs` lines 172-175. -/
def FJC.relative_helmholtz_free_energy_per_link (self : Polymers.fjc.thermodynamics.isometric.FJC α) (end_to_end_length : α) (temperature : α) : α :=
  Polymers.fjc.thermodynamics.isometric.relative_helmholtz_free_energy_per_link self.number_of_links self.link_length end_to_end_length temperature

/-- `src/physics/single_chain/fjc/thermodynamics/isometric/mod.rs` lines 177-180. -/
def FJC.nondimensional_helmholtz_free_energy (self : Polymers.fjc.thermodynamics.isometric.FJC α) (nondimensional_end_to_end_length_per_link : α) (temperature : α) : α :=
  Polymers.fjc.thermodynamics.isometric.nondimensional_helmholtz_free_energy self.number_of_links self.link_length self.hinge_mass nondimensional_end_to_end_length_per_link temperature

/-- `src/physics/single_chain/fjc/thermodynamics/isometric/mod.rs` lines 182-185. -/
def FJC.nondimensional_helmholtz_free_energy_per_link (self : Polymers.fjc.thermodynamics.isometric.FJC α) (nondimensional_end_to_end_length_per_link : α) (temperature : α) : α :=
  Polymers.fjc.thermodynamics.isometric.nondimensional_helmholtz_free_energy_per_link self.number_of_links self.link_length self.hinge_mass nondimensional_end_to_end_length_per_link temperature

/-- `src/physics/single_chain/fjc/thermodynamics/isometric/mod.rs` lines 187-190. -/
def FJC.nondimensional_relative_helmholtz_free_energy (self : Polymers.fjc.thermodynamics.isometric.FJC α) (nondimensional_end_to_end_length_per_link : α) : α :=
  Polymers.fjc.thermodynamics.isometric.nondimensional_relative_helmholtz_free_energy self.number_of_links nondimensional_end_to_end_length_per_link

/-- `src/physics/single_chain/fjc/thermodynamics/isometric/mod.rs` lines 192-195. -/
def FJC.nondimensional_relative_helmholtz_free_energy_per_link (self : Polymers.fjc.thermodynamics.isometric.FJC α) (nondimensional_end_to_end_length_per_link : α) : α :=
  Polymers.fjc.thermodynamics.isometric.nondimensional_relative_helmholtz_free_energy_per_link self.number_of_links nondimensional_end_to_end_length_per_link

/-- `src/physics/single_chain/fjc/thermodynamics/isometric/mod.rs` lines 197-200. -/
def FJC.equilibrium_distribution (self : Polymers.fjc.thermodynamics.isometric.FJC α) (end_to_end_length : α) : α :=
  Polymers.fjc.thermodynamics.isometric.equilibrium_distribution self.number_of_links self.link_length end_to_end_length

/-- `src/physics/single_chain/fjc/thermodynamics/isometric/mod.rs` lines 202-205. -/
def FJC.nondimensional_equilibrium_distribution (self : Polymers.fjc.thermodynamics.isometric.FJC α) (nondimensional_end_to_end_length_per_link : α) : α :=
  Polymers.fjc.thermodynamics.isometric.nondimensional_equilibrium_distribution self.number_of_links nondimensional_end_to_end_length_per_link

/-- `src/physics/single_chain/fjc/thermodynamics/isometric/mod.rs` lines 207-210. -/
def FJC.equilibrium_radial_distribution (self : Polymers.fjc.thermodynamics.isometric.FJC α) (end_to_end_length : α) : α :=
  Polymers.fjc.thermodynamics.isometric.equilibrium_radial_distribution self.number_of_links self.link_length end_to_end_length

/-- `src/physics/single_chain/fjc/thermodynamics/isometric/mod.rs` lines 212-215. -/
def FJC.nondimensional_equilibrium_radial_distribution (self : Polymers.fjc.thermodynamics.isometric.FJC α) (nondimensional_end_to_end_length_per_link : α) : α :=
  Polymers.fjc.thermodynamics.isometric.nondimensional_equilibrium_radial_distribution self.number_of_links nondimensional_end_to_end_length_per_link

end Polymers.fjc.thermodynamics.isometric

namespace Polymers.fjc.thermodynamics.isotensional

/-- `src/physics/single_chain/fjc/thermodynamics/isotensional/mod.rs` lines 20-33: struct `FJC`. -/
structure FJC (α : Type) where
  /-- field `hinge_mass` -/
  hinge_mass : α
  /-- field `link_length` -/
  link_length : α
  /-- field `number_of_links` -/
  number_of_links : Nat
  /-- field `legendre` -/
  legendre : Polymers.fjc.thermodynamics.isotensional.legendre.FJC α

/-- `src/physics/single_chain/fjc/thermodynamics/isotensional/mod.rs` lines 36-40. -/
def end_to_end_length (number_of_links : Nat) (link_length : α) (force : α) (temperature : α) : α :=
  let nondimensional_force : α := force / (Polymers.BOLTZMANN_CONSTANT : α) / temperature * link_length
  (1.0 / Elem.tanh nondimensional_force - 1.0 / nondimensional_force) * (number_of_links : α) * link_length

/-- `src/physics/single_chain/fjc/thermodynamics/isotensional/mod.rs` lines 43-47. -/
def end_to_end_length_per_link (link_length : α) (force : α) (temperature : α) : α :=
  let nondimensional_force : α := force / (Polymers.BOLTZMANN_CONSTANT : α) / temperature * link_length
  (1.0 / Elem.tanh nondimensional_force - 1.0 / nondimensional_force) * link_length

/-- `src/physics/single_chain/fjc/thermodynamics/isotensional/mod.rs` lines 50-53. -/
def nondimensional_end_to_end_length (number_of_links : Nat) (nondimensional_force : α) : α :=
  (1.0 / Elem.tanh nondimensional_force - 1.0 / nondimensional_force) * (number_of_links : α)

/-- `src/physics/single_chain/fjc/thermodynamics/isotensional/mod.rs` lines 56-59. -/
def nondimensional_end_to_end_length_per_link (nondimensional_force : α) : α :=
  1.0 / Elem.tanh nondimensional_force - 1.0 / nondimensional_force

/-- `src/physics/single_chain/fjc/thermodynamics/isotensional/mod.rs` lines 98-101. -/
def nondimensional_relative_gibbs_free_energy (number_of_links : Nat) (nondimensional_force : α) : α :=
  (-(number_of_links : α)) * Elem.ln (Elem.sinh nondimensional_force / nondimensional_force)

/-- `src/physics/single_chain/fjc/thermodynamics/isotensional/mod.rs` lines 74-77. -/
def relative_gibbs_free_energy (number_of_links : Nat) (link_length : α) (force : α) (temperature : α) : α :=
  Polymers.fjc.thermodynamics.isotensional.nondimensional_relative_gibbs_free_energy number_of_links (force / (Polymers.BOLTZMANN_CONSTANT : α) / temperature * link_length) * (Polymers.BOLTZMANN_CONSTANT : α) * temperature

/-- `src/physics/single_chain/fjc/thermodynamics/isotensional/mod.rs` lines 62-65. -/
def gibbs_free_energy (number_of_links : Nat) (link_length : α) (hinge_mass : α) (force : α) (temperature : α) : α :=
  Polymers.fjc.thermodynamics.isotensional.relative_gibbs_free_energy number_of_links link_length force temperature - (number_of_links : α) * (Polymers.BOLTZMANN_CONSTANT : α) * temperature * Elem.ln (8.0 * Elem.powi (Elem.pi : α) 2 * hinge_mass * Elem.powi link_length 2 * (Polymers.BOLTZMANN_CONSTANT : α) * temperature / Elem.powi (Polymers.PLANCK_CONSTANT : α) 2)

/-- `src/physics/single_chain/fjc/thermodynamics/isotensional/mod.rs` lines 104-107. -/
def nondimensional_relative_gibbs_free_energy_per_link (nondimensional_force : α) : α :=
  (-Elem.ln (Elem.sinh nondimensional_force / nondimensional_force))

/-- `src/physics/single_chain/fjc/thermodynamics/isotensional/mod.rs` lines 80-83. -/
def relative_gibbs_free_energy_per_link (link_length : α) (force : α) (temperature : α) : α :=
  Polymers.fjc.thermodynamics.isotensional.nondimensional_relative_gibbs_free_energy_per_link (force / (Polymers.BOLTZMANN_CONSTANT : α) / temperature * link_length) * (Polymers.BOLTZMANN_CONSTANT : α) * temperature

/-- `src/physics/single_chain/fjc/thermodynamics/isotensional/mod.rs` lines 68-71. -/
def gibbs_free_energy_per_link (link_length : α) (hinge_mass : α) (force : α) (temperature : α) : α :=
  Polymers.fjc.thermodynamics.isotensional.relative_gibbs_free_energy_per_link link_length force temperature - (Polymers.BOLTZMANN_CONSTANT : α) * temperature * Elem.ln (8.0 * Elem.powi (Elem.pi : α) 2 * hinge_mass * Elem.powi link_length 2 * (Polymers.BOLTZMANN_CONSTANT : α) * temperature / Elem.powi (Polymers.PLANCK_CONSTANT : α) 2)

/-- `src/physics/single_chain/fjc/thermodynamics/isotensional/mod.rs` lines 86-89. -/
def nondimensional_gibbs_free_energy (number_of_links : Nat) (link_length : α) (hinge_mass : α) (nondimensional_force : α) (temperature : α) : α :=
  (number_of_links : α) * ((-Elem.ln (Elem.sinh nondimensional_force / nondimensional_force)) - Elem.ln (8.0 * Elem.powi (Elem.pi : α) 2 * hinge_mass * Elem.powi link_length 2 * (Polymers.BOLTZMANN_CONSTANT : α) * temperature / Elem.powi (Polymers.PLANCK_CONSTANT : α) 2))

/-- `src/physics/single_chain/fjc/thermodynamics/isotensional/mod.rs` lines 92-95. -/
def nondimensional_gibbs_free_energy_per_link (link_length : α) (hinge_mass : α) (nondimensional_force : α) (temperature : α) : α :=
  (-Elem.ln (Elem.sinh nondimensional_force / nondimensional_force)) - Elem.ln (8.0 * Elem.powi (Elem.pi : α) 2 * hinge_mass * Elem.powi link_length 2 * (Polymers.BOLTZMANN_CONSTANT : α) * temperature / Elem.powi (Polymers.PLANCK_CONSTANT : α) 2)

/-- `src/physics/single_chain/fjc/thermodynamics/isotensional/mod.rs` lines 113-122. -/
def FJC.init (number_of_links : Nat) (link_length : α) (hinge_mass : α) : Polymers.fjc.thermodynamics.isotensional.FJC α :=
  { hinge_mass := hinge_mass, link_length := link_length, number_of_links := number_of_links, legendre := Polymers.fjc.thermodynamics.isotensional.legendre.FJC.init number_of_links link_length hinge_mass }

/-- `src/physics/single_chain/fjc/thermodynamics/isotensional/mod.rs` lines 124-127. -/
def FJC.end_to_end_length (self : Polymers.fjc.thermodynamics.isotensional.FJC α) (force : α) (temperature : α) : α :=
  Polymers.fjc.thermodynamics.isotensional.end_to_end_length self.number_of_links self.link_length force temperature

/-- `src/physics/single_chain/fjc/thermodynamics/isotensional/mod.rs` lines 129-132. -/
def FJC.end_to_end_length_per_link (self : Polymers.fjc.thermodynamics.isotensional.FJC α) (force : α) (temperature : α) : α :=
  Polymers.fjc.thermodynamics.isotensional.end_to_end_length_per_link self.link_length force temperature

/-- `src/physics/single_chain/fjc/thermodynamics/isotensional/mod.rs` lines 134-137. -/
def FJC.nondimensional_end_to_end_length (self : Polymers.fjc.thermodynamics.isotensional.FJC α) (nondimensional_force : α) : α :=
  Polymers.fjc.thermodynamics.isotensional.nondimensional_end_to_end_length self.number_of_links nondimensional_force

/-- `src/physics/single_chain/fjc/thermodynamics/isotensional/mod.rs` lines 139-142. -/
def FJC.nondimensional_end_to_end_length_per_link (self : Polymers.fjc.thermodynamics.isotensional.FJC α) (nondimensional_force : α) : α :=
  Polymers.fjc.thermodynamics.isotensional.nondimensional_end_to_end_length_per_link nondimensional_force

/-- `src/physics/single_chain/fjc/thermodynamics/isotensional/mod.rs` lines 144-147. -/
def FJC.gibbs_free_energy (self : Polymers.fjc.thermodynamics.isotensional.FJC α) (force : α) (temperature : α) : α :=
  Polymers.fjc.thermodynamics.isotensional.gibbs_free_energy self.number_of_links self.link_length self.hinge_mass force temperature

/-- `src/physics/single_chain/fjc/thermodynamics/isotensional/mod.rs` lines 149-152. -/
def FJC.gibbs_free_energy_per_link (self : Polymers.fjc.thermodynamics.isotensional.FJC α) (force : α) (temperature : α) : α :=
  Polymers.fjc.thermodynamics.isotensional.gibbs_free_energy_per_link self.link_length self.hinge_mass force temperature

/-- `src/physics/single_chain/fjc/thermodynamics/isotensional/mod.rs` lines 154-157. -/
def FJC.relative_gibbs_free_energy (self : Polymers.fjc.thermodynamics.isotensional.FJC α) (force : α) (temperature : α) : α :=
  Polymers.fjc.thermodynamics.isotensional.relative_gibbs_free_energy self.number_of_links self.link_length force temperature

/-- `src/physics/single_chain/fjc/thermodynamics/isotensional/mod.rs` lines 159-162. -/
def FJC.relative_gibbs_free_energy_per_link (self : Polymers.fjc.thermodynamics.isotensional.FJC α) (force : α) (temperature : α) : α :=
  Polymers.fjc.thermodynamics.isotensional.relative_gibbs_free_energy_per_link self.link_length force temperature

/-- `src/physics/single_chain/fjc/thermodynamics/isotensional/mod.rs` lines 164-167. -/
def FJC.nondimensional_gibbs_free_energy (self : Polymers.fjc.thermodynamics.isotensional.FJC α) (nondimensional_force : α) (temperature : α) : α :=
  Polymers.fjc.thermodynamics.isotensional.nondimensional_gibbs_free_energy self.number_of_links self.link_length self.hinge_mass nondimensional_force temperature

/-- `src/physics/single_chain/fjc/thermodynamics/isotensional/mod.rs` lines 169-172. -/
def FJC.nondimensional_gibbs_free_energy_per_link (self : Polymers.fjc.thermodynamics.isotensional.FJC α) (nondimensional_force : α) (temperature : α) : α :=
  Polymers.fjc.thermodynamics.isotensional.nondimensional_gibbs_free_energy_per_link self.link_length self.hinge_mass nondimensional_force temperature

/-- `src/physics/single_chain/fjc/thermodynamics/isotensional/mod.rs` lines 174-177. -/
def FJC.nondimensional_relative_gibbs_free_energy (self : Polymers.fjc.thermodynamics.isotensional.FJC α) (nondimensional_force : α) : α :=
  Polymers.fjc.thermodynamics.isotensional.nondimensional_relative_gibbs_free_energy self.number_of_links nondimensional_force

/-- `src/physics/single_chain/fjc/thermodynamics/isotensional/mod.rs` lines 179-182. -/
def FJC.nondimensional_relative_gibbs_free_energy_per_link (self : Polymers.fjc.thermodynamics.isotensional.FJC α) (nondimensional_force : α) : α :=
  Polymers.fjc.thermodynamics.isotensional.nondimensional_relative_gibbs_free_energy_per_link nondimensional_force

end Polymers.fjc.thermodynamics.isotensional

namespace Polymers.fjc.thermodynamics.modified_canonical

/-- `src/physics/single_chain/fjc/thermodynamics/modified_canonical/mod.rs` lines 28-41: struct `FJC`. -/
structure FJC (α : Type) where
  /-- field `hinge_mass` -/
  hinge_mass : α
  /-- field `link_length` -/
  link_length : α
  /-- field `number_of_links` -/
  number_of_links : Nat
  /-- field `asymptotic` -/
  asymptotic : Polymers.fjc.thermodynamics.modified_canonical.asymptotic.FJC α

/-- `src/physics/single_chain/fjc/thermodynamics/modified_canonical/mod.rs` lines 74-87. -/
def nondimensional_force (number_of_links : Nat) (nondimensional_potential_distance : α) (nondimensional_potential_stiffness : α) : α :=
  let number_of_links_f64 : α := (number_of_links : α)
  let number_of_links_squared_times_nondimensional_potential_stiffness : α := Elem.powi number_of_links_f64 2 * nondimensional_potential_stiffness
  let integrand_numerator : α → α := fun (nondimensional_end_to_end_length_per_link : α) => (4.0 * (Elem.pi : α) * Elem.powi nondimensional_end_to_end_length_per_link 2 * Polymers.fjc.thermodynamics.treloar_sum_0_with_prefactor number_of_links nondimensional_end_to_end_length_per_link * ((number_of_links_squared_times_nondimensional_potential_stiffness * (nondimensional_potential_distance - nondimensional_end_to_end_length_per_link) * Elem.exp ((-0.5) * number_of_links_squared_times_nondimensional_potential_stiffness * Elem.powi (nondimensional_potential_distance - nondimensional_end_to_end_length_per_link) 2) - number_of_links_squared_times_nondimensional_potential_stiffness * (nondimensional_potential_distance + nondimensional_end_to_end_length_per_link) * Elem.exp ((-0.5) * number_of_links_squared_times_nondimensional_potential_stiffness * Elem.powi (nondimensional_potential_distance + nondimensional_end_to_end_length_per_link) 2)) / (2.0 * number_of_links_squared_times_nondimensional_potential_stiffness * nondimensional_potential_distance * nondimensional_end_to_end_length_per_link) + (Elem.exp ((-0.5) * number_of_links_squared_times_nondimensional_potential_stiffness * Elem.powi (nondimensional_potential_distance - nondimensional_end_to_end_length_per_link) 2) - Elem.exp ((-0.5) * number_of_links_squared_times_nondimensional_potential_stiffness * Elem.powi (nondimensional_potential_distance + nondimensional_end_to_end_length_per_link) 2)) / (2.0 * number_of_links_squared_times_nondimensional_potential_stiffness * Elem.powi nondimensional_potential_distance 2 * nondimensional_end_to_end_length_per_link)))
  let integrand_denominator : α → α := fun (nondimensional_end_to_end_length_per_link : α) => (4.0 * (Elem.pi : α) * Elem.powi nondimensional_end_to_end_length_per_link 2 * Polymers.fjc.thermodynamics.treloar_sum_0_with_prefactor number_of_links nondimensional_end_to_end_length_per_link * (Elem.exp ((-0.5) * number_of_links_squared_times_nondimensional_potential_stiffness * Elem.powi (nondimensional_potential_distance - nondimensional_end_to_end_length_per_link) 2) - Elem.exp ((-0.5) * number_of_links_squared_times_nondimensional_potential_stiffness * Elem.powi (nondimensional_potential_distance + nondimensional_end_to_end_length_per_link) 2)) / (2.0 * number_of_links_squared_times_nondimensional_potential_stiffness * nondimensional_potential_distance * nondimensional_end_to_end_length_per_link))
  Polymers.math.integrate_1d integrand_numerator (Polymers.ZERO : α) (Polymers.ONE : α) Polymers.POINTS / Polymers.math.integrate_1d integrand_denominator (Polymers.ZERO : α) (Polymers.ONE : α) Polymers.POINTS / number_of_links_f64

/-- `src/physics/single_chain/fjc/thermodynamics/modified_canonical/mod.rs` lines 68-71. -/
def force (number_of_links : Nat) (link_length : α) (potential_distance : α) (potential_stiffness : α) (temperature : α) : α :=
  (Polymers.BOLTZMANN_CONSTANT : α) * temperature / link_length * Polymers.fjc.thermodynamics.modified_canonical.nondimensional_force number_of_links (potential_distance / ((number_of_links : α) * link_length)) (potential_stiffness * Elem.powi link_length 2 / (Polymers.BOLTZMANN_CONSTANT : α) / temperature)

/-- `src/physics/single_chain/fjc/thermodynamics/modified_canonical/mod.rs` lines 44-47. -/
def end_to_end_length (number_of_links : Nat) (link_length : α) (potential_distance : α) (potential_stiffness : α) (temperature : α) : α :=
  potential_distance - Polymers.fjc.thermodynamics.modified_canonical.force number_of_links link_length potential_distance potential_stiffness temperature / potential_stiffness

/-- `src/physics/single_chain/fjc/thermodynamics/modified_canonical/mod.rs` lines 50-53. -/
def end_to_end_length_per_link (number_of_links : Nat) (link_length : α) (potential_distance : α) (potential_stiffness : α) (temperature : α) : α :=
  (potential_distance - Polymers.fjc.thermodynamics.modified_canonical.force number_of_links link_length potential_distance potential_stiffness temperature / potential_stiffness) / (number_of_links : α)

/-- `src/physics/single_chain/fjc/thermodynamics/modified_canonical/mod.rs` lines 56-59. -/
def nondimensional_end_to_end_length (number_of_links : Nat) (nondimensional_potential_distance : α) (nondimensional_potential_stiffness : α) : α :=
  (number_of_links : α) * nondimensional_potential_distance - Polymers.fjc.thermodynamics.modified_canonical.nondimensional_force number_of_links nondimensional_potential_distance nondimensional_potential_stiffness / nondimensional_potential_stiffness

/-- `src/physics/single_chain/fjc/thermodynamics/modified_canonical/mod.rs` lines 62-65. -/
def nondimensional_end_to_end_length_per_link (number_of_links : Nat) (nondimensional_potential_distance : α) (nondimensional_potential_stiffness : α) : α :=
  nondimensional_potential_distance - Polymers.fjc.thermodynamics.modified_canonical.nondimensional_force number_of_links nondimensional_potential_distance nondimensional_potential_stiffness / nondimensional_potential_stiffness / (number_of_links : α)

/-- `src/physics/single_chain/fjc/thermodynamics/modified_canonical/mod.rs` lines 114-124. -/
def nondimensional_helmholtz_free_energy (number_of_links : Nat) (link_length : α) (hinge_mass : α) (nondimensional_potential_distance : α) (nondimensional_potential_stiffness : α) (temperature : α) : α :=
  let number_of_links_f64 : α := (number_of_links : α)
  let number_of_links_squared_times_nondimensional_potential_stiffness : α := Elem.powi number_of_links_f64 2 * nondimensional_potential_stiffness
  let integrand : α → α := fun (nondimensional_end_to_end_length_per_link : α) => (4.0 * (Elem.pi : α) * Elem.powi nondimensional_end_to_end_length_per_link 2 * Polymers.fjc.thermodynamics.treloar_sum_0_with_prefactor number_of_links nondimensional_end_to_end_length_per_link * (Elem.exp ((-0.5) * number_of_links_squared_times_nondimensional_potential_stiffness * Elem.powi (nondimensional_potential_distance - nondimensional_end_to_end_length_per_link) 2) - Elem.exp ((-0.5) * number_of_links_squared_times_nondimensional_potential_stiffness * Elem.powi (nondimensional_potential_distance + nondimensional_end_to_end_length_per_link) 2)) / (2.0 * number_of_links_squared_times_nondimensional_potential_stiffness * nondimensional_potential_distance * nondimensional_end_to_end_length_per_link))
  let nondimensional_configurational_partition_function : α := Polymers.math.integrate_1d integrand (Polymers.ZERO : α) (Polymers.ONE : α) Polymers.POINTS
  (-Elem.ln nondimensional_configurational_partition_function) - (number_of_links_f64 - 1.0) * Elem.ln (8.0 * Elem.powi (Elem.pi : α) 2 * hinge_mass * Elem.powi link_length 2 * (Polymers.BOLTZMANN_CONSTANT : α) * temperature / Elem.powi (Polymers.PLANCK_CONSTANT : α) 2)

/-- `src/physics/single_chain/fjc/thermodynamics/modified_canonical/mod.rs` lines 90-93. -/
def helmholtz_free_energy (number_of_links : Nat) (link_length : α) (hinge_mass : α) (potential_distance : α) (potential_stiffness : α) (temperature : α) : α :=
  (Polymers.BOLTZMANN_CONSTANT : α) * temperature * Polymers.fjc.thermodynamics.modified_canonical.nondimensional_helmholtz_free_energy number_of_links link_length hinge_mass (potential_distance / ((number_of_links : α) * link_length)) (potential_stiffness * Elem.powi link_length 2 / (Polymers.BOLTZMANN_CONSTANT : α) / temperature) temperature

/-- `src/physics/single_chain/fjc/thermodynamics/modified_canonical/mod.rs` lines 127-130. -/
def nondimensional_helmholtz_free_energy_per_link (number_of_links : Nat) (link_length : α) (hinge_mass : α) (nondimensional_potential_distance : α) (nondimensional_potential_stiffness : α) (temperature : α) : α :=
  Polymers.fjc.thermodynamics.modified_canonical.nondimensional_helmholtz_free_energy number_of_links link_length hinge_mass nondimensional_potential_distance nondimensional_potential_stiffness temperature / (number_of_links : α)

/-- `src/physics/single_chain/fjc/thermodynamics/modified_canonical/mod.rs` lines 96-99. -/
def helmholtz_free_energy_per_link (number_of_links : Nat) (link_length : α) (hinge_mass : α) (potential_distance : α) (potential_stiffness : α) (temperature : α) : α :=
  (Polymers.BOLTZMANN_CONSTANT : α) * temperature * Polymers.fjc.thermodynamics.modified_canonical.nondimensional_helmholtz_free_energy_per_link number_of_links link_length hinge_mass (potential_distance / ((number_of_links : α) * link_length)) (potential_stiffness * Elem.powi link_length 2 / (Polymers.BOLTZMANN_CONSTANT : α) / temperature) temperature

/-- `src/physics/single_chain/fjc/thermodynamics/modified_canonical/mod.rs` lines 133-136. -/
def nondimensional_relative_helmholtz_free_energy (number_of_links : Nat) (nondimensional_potential_distance : α) (nondimensional_potential_stiffness : α) : α :=
  Polymers.fjc.thermodynamics.modified_canonical.nondimensional_helmholtz_free_energy number_of_links 1.0 1.0 nondimensional_potential_distance nondimensional_potential_stiffness 300.0 - Polymers.fjc.thermodynamics.modified_canonical.nondimensional_helmholtz_free_energy number_of_links 1.0 1.0 (Polymers.ZERO : α) nondimensional_potential_stiffness 300.0

/-- `src/physics/single_chain/fjc/thermodynamics/modified_canonical/mod.rs` lines 102-105. -/
def relative_helmholtz_free_energy (number_of_links : Nat) (link_length : α) (potential_distance : α) (potential_stiffness : α) (temperature : α) : α :=
  (Polymers.BOLTZMANN_CONSTANT : α) * temperature * Polymers.fjc.thermodynamics.modified_canonical.nondimensional_relative_helmholtz_free_energy number_of_links (potential_distance / ((number_of_links : α) * link_length)) (potential_stiffness * Elem.powi link_length 2 / (Polymers.BOLTZMANN_CONSTANT : α) / temperature)

/-- `src/physics/single_chain/fjc/thermodynamics/modified_canonical/mod.rs` lines 139-142. -/
def nondimensional_relative_helmholtz_free_energy_per_link (number_of_links : Nat) (nondimensional_potential_distance : α) (nondimensional_potential_stiffness : α) : α :=
  Polymers.fjc.thermodynamics.modified_canonical.nondimensional_relative_helmholtz_free_energy number_of_links nondimensional_potential_distance nondimensional_potential_stiffness / (number_of_links : α)

/-- `src/physics/single_chain/fjc/thermodynamics/modified_canonical/mod.rs` lines 108-111. -/
def relative_helmholtz_free_energy_per_link (number_of_links : Nat) (link_length : α) (potential_distance : α) (potential_stiffness : α) (temperature : α) : α :=
  (Polymers.BOLTZMANN_CONSTANT : α) * temperature * Polymers.fjc.thermodynamics.modified_canonical.nondimensional_relative_helmholtz_free_energy_per_link number_of_links (potential_distance / ((number_of_links : α) * link_length)) (potential_stiffness * Elem.powi link_length 2 / (Polymers.BOLTZMANN_CONSTANT : α) / temperature)

/-- `src/physics/single_chain/fjc/thermodynamics/modified_canonical/mod.rs` lines 145-148. -/
def gibbs_free_energy (number_of_links : Nat) (link_length : α) (hinge_mass : α) (potential_distance : α) (potential_stiffness : α) (temperature : α) : α :=
  Polymers.fjc.thermodynamics.modified_canonical.helmholtz_free_energy number_of_links link_length hinge_mass potential_distance potential_stiffness temperature - 0.5 * potential_stiffness * Elem.powi potential_distance 2

/-- `src/physics/single_chain/fjc/thermodynamics/modified_canonical/mod.rs` lines 151-154. -/
def gibbs_free_energy_per_link (number_of_links : Nat) (link_length : α) (hinge_mass : α) (potential_distance : α) (potential_stiffness : α) (temperature : α) : α :=
  Polymers.fjc.thermodynamics.modified_canonical.helmholtz_free_energy_per_link number_of_links link_length hinge_mass potential_distance potential_stiffness temperature - 0.5 * potential_stiffness * Elem.powi potential_distance 2 / (number_of_links : α)

/-- `src/physics/single_chain/fjc/thermodynamics/modified_canonical/mod.rs` lines 157-160. -/
def relative_gibbs_free_energy (number_of_links : Nat) (link_length : α) (potential_distance : α) (potential_stiffness : α) (temperature : α) : α :=
  Polymers.fjc.thermodynamics.modified_canonical.relative_helmholtz_free_energy number_of_links link_length potential_distance potential_stiffness temperature - 0.5 * potential_stiffness * Elem.powi potential_distance 2

/-- `src/physics/single_chain/fjc/thermodynamics/modified_canonical/mod.rs` lines 163-166. -/
def relative_gibbs_free_energy_per_link (number_of_links : Nat) (link_length : α) (potential_distance : α) (potential_stiffness : α) (temperature : α) : α :=
  Polymers.fjc.thermodynamics.modified_canonical.relative_helmholtz_free_energy_per_link number_of_links link_length potential_distance potential_stiffness temperature - 0.5 * potential_stiffness * Elem.powi potential_distance 2 / (number_of_links : α)

/-- `src/physics/single_chain/fjc/thermodynamics/modified_canonical/mod.rs` lines 169-172. -/
def nondimensional_gibbs_free_energy (number_of_links : Nat) (link_length : α) (hinge_mass : α) (nondimensional_potential_distance : α) (nondimensional_potential_stiffness : α) (temperature : α) : α :=
  Polymers.fjc.thermodynamics.modified_canonical.nondimensional_helmholtz_free_energy number_of_links link_length hinge_mass nondimensional_potential_distance nondimensional_potential_stiffness temperature - 0.5 * Elem.powi (number_of_links : α) 2 * nondimensional_potential_stiffness * Elem.powi nondimensional_potential_distance 2

/-- `src/physics/single_chain/fjc/thermodynamics/modified_canonical/mod.rs` lines 175-178. -/
def nondimensional_gibbs_free_energy_per_link (number_of_links : Nat) (link_length : α) (hinge_mass : α) (nondimensional_potential_distance : α) (nondimensional_potential_stiffness : α) (temperature : α) : α :=
  Polymers.fjc.thermodynamics.modified_canonical.nondimensional_helmholtz_free_energy_per_link number_of_links link_length hinge_mass nondimensional_potential_distance nondimensional_potential_stiffness temperature - 0.5 * (number_of_links : α) * nondimensional_potential_stiffness * Elem.powi nondimensional_potential_distance 2

/-- `src/physics/single_chain/fjc/thermodynamics/modified_canonical/mod.rs` lines 181-184. -/
def nondimensional_relative_gibbs_free_energy (number_of_links : Nat) (nondimensional_potential_distance : α) (nondimensional_potential_stiffness : α) : α :=
  Polymers.fjc.thermodynamics.modified_canonical.nondimensional_relative_helmholtz_free_energy number_of_links nondimensional_potential_distance nondimensional_potential_stiffness - 0.5 * Elem.powi (number_of_links : α) 2 * nondimensional_potential_stiffness * Elem.powi nondimensional_potential_distance 2

/-- `src/physics/single_chain/fjc/thermodynamics/modified_canonical/mod.rs` lines 187-190. -/
def nondimensional_relative_gibbs_free_energy_per_link (number_of_links : Nat) (nondimensional_potential_distance : α) (nondimensional_potential_stiffness : α) : α :=
  Polymers.fjc.thermodynamics.modified_canonical.nondimensional_relative_helmholtz_free_energy_per_link number_of_links nondimensional_potential_distance nondimensional_potential_stiffness - 0.5 * (number_of_links : α) * nondimensional_potential_stiffness * Elem.powi nondimensional_potential_distance 2

/-- `src/physics/single_chain/fjc/thermodynamics/modified_canonical/mod.rs` lines 196-205. -/
def FJC.init (number_of_links : Nat) (link_length : α) (hinge_mass : α) : Polymers.fjc.thermodynamics.modified_canonical.FJC α :=
  { hinge_mass := hinge_mass, link_length := link_length, number_of_links := number_of_links, asymptotic := Polymers.fjc.thermodynamics.modified_canonical.asymptotic.FJC.init number_of_links link_length hinge_mass }

/-- `src/physics/single_chain/fjc/thermodynamics/modified_canonical/mod.rs` lines 207-210. -/
def FJC.end_to_end_length (self : Polymers.fjc.thermodynamics.modified_canonical.FJC α) (potential_distance : α) (potential_stiffness : α) (temperature : α) : α :=
  Polymers.fjc.thermodynamics.modified_canonical.end_to_end_length self.number_of_links self.link_length potential_distance potential_stiffness temperature

/-- `src/physics/single_chain/fjc/thermodynamics/modified_canonical/mod.rs` lines 212-215. -/
def FJC.end_to_end_length_per_link (self : Polymers.fjc.thermodynamics.modified_canonical.FJC α) (potential_distance : α) (potential_stiffness : α) (temperature : α) : α :=
  Polymers.fjc.thermodynamics.modified_canonical.end_to_end_length_per_link self.number_of_links self.link_length potential_distance potential_stiffness temperature

/-- `src/physics/single_chain/fjc/thermodynamics/modified_canonical/mod.rs` lines 217-220. -/
def FJC.nondimensional_end_to_end_length (self : Polymers.fjc.thermodynamics.modified_canonical.FJC α) (nondimensional_potential_distance : α) (nondimensional_potential_stiffness : α) : α :=
  Polymers.fjc.thermodynamics.modified_canonical.nondimensional_end_to_end_length self.number_of_links nondimensional_potential_distance nondimensional_potential_stiffness

/-- `src/physics/single_chain/fjc/thermodynamics/modified_canonical/mod.rs` lines 222-225. -/
def FJC.nondimensional_end_to_end_length_per_link (self : Polymers.fjc.thermodynamics.modified_canonical.FJC α) (nondimensional_potential_distance : α) (nondimensional_potential_stiffness : α) : α :=
  Polymers.fjc.thermodynamics.modified_canonical.nondimensional_end_to_end_length_per_link self.number_of_links nondimensional_potential_distance nondimensional_potential_stiffness

/-- `src/physics/single_chain/fjc/thermodynamics/modified_canonical/mod.rs` lines 227-230. -/
def FJC.force (self : Polymers.fjc.thermodynamics.modified_canonical.FJC α) (potential_distance : α) (potential_stiffness : α) (temperature : α) : α :=
  Polymers.fjc.thermodynamics.modified_canonical.force self.number_of_links self.link_length potential_distance potential_stiffness temperature

/-- `src/physics/single_chain/fjc/thermodynamics/modified_canonical/mod.rs` lines 232-235. -/
def FJC.nondimensional_force (self : Polymers.fjc.thermodynamics.modified_canonical.FJC α) (nondimensional_potential_distance : α) (nondimensional_potential_stiffness : α) : α :=
  Polymers.fjc.thermodynamics.modified_canonical.nondimensional_force self.number_of_links nondimensional_potential_distance nondimensional_potential_stiffness

/-- `src/physics/single_chain/fjc/thermodynamics/modified_canonical/mod.rs` lines 237-240. -/
def FJC.helmholtz_free_energy (self : Polymers.fjc.thermodynamics.modified_canonical.FJC α) (potential_distance : α) (potential_stiffness : α) (temperature : α) : α :=
  Polymers.fjc.thermodynamics.modified_canonical.helmholtz_free_energy self.number_of_links self.link_length self.hinge_mass potential_distance potential_stiffness temperature

/-- `src/physics/single_chain/fjc/thermodynamics/modified_canonical/mod.rs` lines 242-245. -/
def FJC.helmholtz_free_energy_per_link (self : Polymers.fjc.thermodynamics.modified_canonical.FJC α) (potential_distance : α) (potential_stiffness : α) (temperature : α) : α :=
  Polymers.fjc.thermodynamics.modified_canonical.helmholtz_free_energy_per_link self.number_of_links self.link_length self.hinge_mass potential_distance potential_stiffness temperature

/-- `src/physics/single_chain/fjc/thermodynamics/modified_canonical/mod.rs` lines 247-250. -/
def FJC.relative_helmholtz_free_energy (self : Polymers.fjc.thermodynamics.modified_canonical.FJC α) (potential_distance : α) (potential_stiffness : α) (temperature : α) : α :=
  Polymers.fjc.thermodynamics.modified_canonical.relative_helmholtz_free_energy self.number_of_links self.link_length potential_distance potential_stiffness temperature

/-- `src/physics/single_chain/fjc/thermodynamics/modified_canonical/mod.rs` lines 252-255. -/
def FJC.relative_helmholtz_free_energy_per_link (self : Polymers.fjc.thermodynamics.modified_canonical.FJC α) (potential_distance : α) (potential_stiffness : α) (temperature : α) : α :=
  Polymers.fjc.thermodynamics.modified_canonical.relative_helmholtz_free_energy_per_link self.number_of_links self.link_length potential_distance potential_stiffness temperature

/-- `src/physics/single_chain/fjc/thermodynamics/modified_canonical/mod.rs` lines 257-260. -/
def FJC.nondimensional_helmholtz_free_energy (self : Polymers.fjc.thermodynamics.modified_canonical.FJC α) (nondimensional_potential_distance : α) (nondimensional_potential_stiffness : α) (temperature : α) : α :=
  Polymers.fjc.thermodynamics.modified_canonical.nondimensional_helmholtz_free_energy self.number_of_links self.link_length self.hinge_mass nondimensional_potential_distance nondimensional_potential_stiffness temperature

/-- `src/physics/single_chain/fjc/thermodynamics/modified_canonical/mod.rs` lines 262-265. -/
def FJC.nondimensional_helmholtz_free_energy_per_link (self : Polymers.fjc.thermodynamics.modified_canonical.FJC α) (nondimensional_potential_distance : α) (nondimensional_potential_stiffness : α) (temperature : α) : α :=
  Polymers.fjc.thermodynamics.modified_canonical.nondimensional_helmholtz_free_energy_per_link self.number_of_links self.link_length self.hinge_mass nondimensional_potential_distance nondimensional_potential_stiffness temperature

/-- `src/physics/single_chain/fjc/thermodynamics/modified_canonical/mod.rs` lines 267-270. -/
def FJC.nondimensional_relative_helmholtz_free_energy (self : Polymers.fjc.thermodynamics.modified_canonical.FJC α) (nondimensional_potential_distance : α) (nondimensional_potential_stiffness : α) : α :=
  Polymers.fjc.thermodynamics.modified_canonical.nondimensional_relative_helmholtz_free_energy self.number_of_links nondimensional_potential_distance nondimensional_potential_stiffness

/-- `src/physics/single_chain/fjc/thermodynamics/modified_canonical/mod.rs` lines 272-275. -/
def FJC.nondimensional_relative_helmholtz_free_energy_per_link (self : Polymers.fjc.thermodynamics.modified_canonical.FJC α) (nondimensional_potential_distance : α) (nondimensional_potential_stiffness : α) : α :=
  Polymers.fjc.thermodynamics.modified_canonical.nondimensional_relative_helmholtz_free_energy_per_link self.number_of_links nondimensional_potential_distance nondimensional_potential_stiffness

/-- `src/physics/single_chain/fjc/thermodynamics/modified_canonical/mod.rs` lines 277-280. -/
def FJC.gibbs_free_energy (self : Polymers.fjc.thermodynamics.modified_canonical.FJC α) (potential_distance : α) (potential_stiffness : α) (temperature : α) : α :=
  Polymers.fjc.thermodynamics.modified_canonical.gibbs_free_energy self.number_of_links self.link_length self.hinge_mass potential_distance potential_stiffness temperature

/-- `src/physics/single_chain/fjc/thermodynamics/modified_canonical/mod.rs` lines 282-285. -/
def FJC.gibbs_free_energy_per_link (self : Polymers.fjc.thermodynamics.modified_canonical.FJC α) (potential_distance : α) (potential_stiffness : α) (temperature : α) : α :=
  Polymers.fjc.thermodynamics.modified_canonical.gibbs_free_energy_per_link self.number_of_links self.link_length self.hinge_mass potential_distance potential_stiffness temperature

/-- `src/physics/single_chain/fjc/thermodynamics/modified_canonical/mod.rs` lines 287-290. -/
def FJC.relative_gibbs_free_energy (self : Polymers.fjc.thermodynamics.modified_canonical.FJC α) (potential_distance : α) (potential_stiffness : α) (temperature : α) : α :=
  Polymers.fjc.thermodynamics.modified_canonical.relative_gibbs_free_energy self.number_of_links self.link_length potential_distance potential_stiffness temperature

/-- `src/physics/single_chain/fjc/thermodynamics/modified_canonical/mod.rs` lines 292-295. -/
def FJC.relative_gibbs_free_energy_per_link (self : Polymers.fjc.thermodynamics.modified_canonical.FJC α) (potential_distance : α) (potential_stiffness : α) (temperature : α) : α :=
  Polymers.fjc.thermodynamics.modified_canonical.relative_gibbs_free_energy_per_link self.number_of_links self.link_length potential_distance potential_stiffness temperature

/-- `src/physics/single_chain/fjc/thermodynamics/modified_canonical/mod.rs` lines 297-300. -/
def FJC.nondimensional_gibbs_free_energy (self : Polymers.fjc.thermodynamics.modified_canonical.FJC α) (nondimensional_potential_distance : α) (nondimensional_potential_stiffness : α) (temperature : α) : α :=
  Polymers.fjc.thermodynamics.modified_canonical.nondimensional_gibbs_free_energy self.number_of_links self.link_length self.hinge_mass nondimensional_potential_distance nondimensional_potential_stiffness temperature

/-- `src/physics/single_chain/fjc/thermodynamics/modified_canonical/mod.rs` lines 302-305. -/
def FJC.nondimensional_gibbs_free_energy_per_link (self : Polymers.fjc.thermodynamics.modified_canonical.FJC α) (nondimensional_potential_distance : α) (nondimensional_potential_stiffness : α) (temperature : α) : α :=
  Polymers.fjc.thermodynamics.modified_canonical.nondimensional_gibbs_free_energy_per_link self.number_of_links self.link_length self.hinge_mass nondimensional_potential_distance nondimensional_potential_stiffness temperature

/-- `src/physics/single_chain/fjc/thermodynamics/modified_canonical/mod.rs` lines 307-310. -/
def FJC.nondimensional_relative_gibbs_free_energy (self : Polymers.fjc.thermodynamics.modified_canonical.FJC α) (nondimensional_potential_distance : α) (nondimensional_potential_stiffness : α) : α :=
  Polymers.fjc.thermodynamics.modified_canonical.nondimensional_relative_gibbs_free_energy self.number_of_links nondimensional_potential_distance nondimensional_potential_stiffness

/-- `src/physics/single_chain/fjc/thermodynamics/modified_canonical/mod.rs` lines 312-315. -/
def FJC.nondimensional_relative_gibbs_free_energy_per_link (self : Polymers.fjc.thermodynamics.modified_canonical.FJC α) (nondimensional_potential_distance : α) (nondimensional_potential_stiffness : α) : α :=
  Polymers.fjc.thermodynamics.modified_canonical.nondimensional_relative_gibbs_free_energy_per_link self.number_of_links nondimensional_potential_distance nondimensional_potential_stiffness

end Polymers.fjc.thermodynamics.modified_canonical

namespace Polymers.fjc.thermodynamics

/-- `src/physics/single_chain/fjc/thermodynamics/mod.rs` lines 18-37: struct `FJC`. -/
structure FJC (α : Type) where
  /-- field `hinge_mass` -/
  hinge_mass : α
  /-- field `link_length` -/
  link_length : α
  /-- field `number_of_links` -/
  number_of_links : Nat
  /-- field `isometric` -/
  isometric : Polymers.fjc.thermodynamics.isometric.FJC α
  /-- field `isotensional` -/
  isotensional : Polymers.fjc.thermodynamics.isotensional.FJC α
  /-- field `modified_canonical` -/
  modified_canonical : Polymers.fjc.thermodynamics.modified_canonical.FJC α

/-- `src/physics/single_chain/fjc/thermodynamics/mod.rs` lines 43-54. -/
def FJC.init (number_of_links : Nat) (link_length : α) (hinge_mass : α) : Polymers.fjc.thermodynamics.FJC α :=
  { hinge_mass := hinge_mass, link_length := link_length, number_of_links := number_of_links, isometric := Polymers.fjc.thermodynamics.isometric.FJC.init number_of_links link_length hinge_mass, isotensional := Polymers.fjc.thermodynamics.isotensional.FJC.init number_of_links link_length hinge_mass, modified_canonical := Polymers.fjc.thermodynamics.modified_canonical.FJC.init number_of_links link_length hinge_mass }

end Polymers.fjc.thermodynamics

namespace Polymers.fjc

/-- `src/physics/single_chain/fjc/mod.rs` lines 10-23: struct `FJC`. -/
structure FJC (α : Type) where
  /-- field `hinge_mass` -/
  hinge_mass : α
  /-- field `link_length` -/
  link_length : α
  /-- field `number_of_links` -/
  number_of_links : Nat
  /-- field `thermodynamics` -/
  thermodynamics : Polymers.fjc.thermodynamics.FJC α

/-- `src/physics/single_chain/fjc/mod.rs` lines 29-38. -/
def FJC.init (number_of_links : Nat) (link_length : α) (hinge_mass : α) : Polymers.fjc.FJC α :=
  { hinge_mass := hinge_mass, link_length := link_length, number_of_links := number_of_links, thermodynamics := Polymers.fjc.thermodynamics.FJC.init number_of_links link_length hinge_mass }

end Polymers.fjc
