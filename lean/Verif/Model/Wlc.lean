/- Generated by tools/rust2lean.py from /repo/src/physics/single_chain/wlc ; do not edit by hand. -/
import Verif.Model.Math

set_option linter.unusedVariables false

open Polymers

variable {α : Type} [Add α] [Sub α] [Mul α] [Div α] [Neg α] [OfScientific α] [NatCast α] [Elem α]

namespace Polymers.wlc.thermodynamics.isometric.legendre

/-- `src/physics/single_chain/wlc/thermodynamics/isometric/legendre/mod.rs` lines 18-33: struct `WLC`. -/
structure WLC (α : Type) where
  /-- field `hinge_mass` -/
  hinge_mass : α
  /-- field `link_length` -/
  link_length : α
  /-- field `number_of_links` -/
  number_of_links : Nat
  /-- field `persistance_length` -/
  persistance_length : α
  /-- field `nondimensional_persistance_length` -/
  nondimensional_persistance_length : α

end Polymers.wlc.thermodynamics.isometric.legendre

namespace Polymers.wlc.thermodynamics.isometric

/-- `src/physics/single_chain/wlc/thermodynamics/isometric/mod.rs` lines 116-146. -/
def nondimensional_helmholtz_free_energy (number_of_links : Nat) (link_length : α) (hinge_mass : α) (nondimensional_persistance_length : α) (nondimensional_end_to_end_length_per_link : α) (temperature : α) : α :=
  let g2 : α := Elem.powi nondimensional_end_to_end_length_per_link 2
  let a : α := 14.054
  let b : α := 0.473
  let c : List (List α) := [[(-0.75), 0.359375, (-0.109375)], [(-0.5), 1.0625, (-0.5625)]]
  let c0 : α := 1.0 - Elem.powf (1.0 + Elem.powi (0.38 / Elem.powf nondimensional_persistance_length 0.95) (-5)) (-0.2)
  let d : α := if Elem.lt nondimensional_persistance_length 0.125 then 1.0 else 1.0 - 1.0 / (0.177 / (nondimensional_persistance_length - 0.111) + 6.40 * Elem.powf (nondimensional_persistance_length - 0.111) 0.783)
  let e : α := if Elem.lt nondimensional_persistance_length 0.125 then Elem.powf (0.75 / (Elem.pi : α) / nondimensional_persistance_length) 1.5 * (1.0 - 1.25 * nondimensional_persistance_length) else 112.04 * Elem.powi nondimensional_persistance_length 2 * Elem.exp (0.246 / nondimensional_persistance_length - a * nondimensional_persistance_length)
  let f : α := (1.0 - c0 * g2) / (1.0 - g2)
  let h : α := nondimensional_end_to_end_length_per_link / (1.0 - Elem.powi b 2 * g2)
  let arg : α := (-d) * nondimensional_persistance_length * a * (1.0 + b) * h
  let sum : α := Polymers.fsum (List.map (fun (i : Nat) => Polymers.fsum (List.map (fun (j : Nat) => (List.getD (List.getD c i []) (j - 1) Elem.panic) * (Elem.powi nondimensional_persistance_length ((i : Int) - 1) * Elem.powi g2 (j : Int))) (List.range' 1 3))) (List.range' 0 2))
  (-Elem.ln e) - 2.5 * Elem.ln f - sum / (1.0 - g2) - arg * b * nondimensional_end_to_end_length_per_link - Elem.ln (Polymers.math.bessel_i 0 arg) - ((number_of_links : α) - 1.0) * Elem.ln (4.0 * Elem.sin (Elem.acos (Elem.exp ((-1.0) / nondimensional_persistance_length))) * Elem.powi (Elem.pi : α) 2 * hinge_mass * Elem.powi link_length 2 * (Polymers.BOLTZMANN_CONSTANT : α) * temperature / Elem.powi (Polymers.PLANCK_CONSTANT : α) 2)

/-- `src/physics/single_chain/wlc/thermodynamics/isometric/mod.rs` lines 61-85. -/
def nondimensional_force (number_of_links : Nat) (nondimensional_persistance_length : α) (nondimensional_end_to_end_length_per_link : α) : α :=
  let g2 : α := Elem.powi nondimensional_end_to_end_length_per_link 2
  let a : α := 14.054
  let b : α := 0.473
  let c : List (List α) := [[(-0.75), 0.359375, (-0.109375)], [(-0.5), 1.0625, (-0.5625)]]
  let c0 : α := 1.0 - Elem.powf (1.0 + Elem.powi (0.38 / Elem.powf nondimensional_persistance_length 0.95) (-5)) (-0.2)
  let d : α := if Elem.lt nondimensional_persistance_length 0.125 then (1.0) else (1.0 - 1.0 / (0.177 / (nondimensional_persistance_length - 0.111) + 6.40 * Elem.powf (nondimensional_persistance_length - 0.111) 0.783))
  let f : α := (1.0 - c0 * g2) / (1.0 - g2)
  let h : α := nondimensional_end_to_end_length_per_link / (1.0 - Elem.powi b 2 * g2)
  let arg : α := (-d) * nondimensional_persistance_length * a * (1.0 + b) * h
  let sum : α := Polymers.fsum (List.map (fun (i : Nat) => Polymers.fsum (List.map (fun (j : Nat) => (List.getD (List.getD c i []) (j - 1) Elem.panic) * (Elem.powi nondimensional_persistance_length ((i : Int) - 1) * Elem.powi g2 (j : Int))) (List.range' 1 3))) (List.range' 0 2))
  let d_sum_dg : α := Polymers.fsum (List.map (fun (i : Nat) => Polymers.fsum (List.map (fun (j : Nat) => (j : α) * (List.getD (List.getD c i []) (j - 1) Elem.panic) * (Elem.powi nondimensional_persistance_length ((i : Int) - 1) * Elem.powi g2 (j : Int))) (List.range' 1 3))) (List.range' 0 2)) * 2.0 / nondimensional_end_to_end_length_per_link
  (-((5.0 * nondimensional_end_to_end_length_per_link * (1.0 - c0 / f) + d_sum_dg + 2.0 * nondimensional_end_to_end_length_per_link * sum / (1.0 - g2)) / (1.0 - g2) + 2.0 * b * arg * (1.0 + nondimensional_end_to_end_length_per_link * Elem.powi b 2 * h) + arg * Polymers.math.bessel_i 1 arg / Polymers.math.bessel_i 0 arg * (1.0 / nondimensional_end_to_end_length_per_link + 2.0 * Elem.powi b 2 * h))) / (number_of_links : α)

end Polymers.wlc.thermodynamics.isometric

namespace Polymers.wlc.thermodynamics.isometric.legendre

/-- `src/physics/single_chain/wlc/thermodynamics/isometric/legendre/mod.rs` lines 64-67. -/
def nondimensional_gibbs_free_energy (number_of_links : Nat) (link_length : α) (hinge_mass : α) (nondimensional_persistance_length : α) (nondimensional_end_to_end_length_per_link : α) (temperature : α) : α :=
  Polymers.wlc.thermodynamics.isometric.nondimensional_helmholtz_free_energy number_of_links link_length hinge_mass nondimensional_persistance_length nondimensional_end_to_end_length_per_link temperature - Polymers.wlc.thermodynamics.isometric.nondimensional_force number_of_links nondimensional_persistance_length nondimensional_end_to_end_length_per_link * nondimensional_end_to_end_length_per_link * (number_of_links : α)

/-- `src/physics/single_chain/wlc/thermodynamics/isometric/legendre/mod.rs` lines 36-40. -/
def gibbs_free_energy (number_of_links : Nat) (link_length : α) (hinge_mass : α) (persistance_length : α) (end_to_end_length : α) (temperature : α) : α :=
  let contour_length : α := (number_of_links : α) * link_length
  Polymers.wlc.thermodynamics.isometric.legendre.nondimensional_gibbs_free_energy number_of_links link_length hinge_mass (persistance_length / contour_length) (end_to_end_length / contour_length) temperature * (Polymers.BOLTZMANN_CONSTANT : α) * temperature

/-- `src/physics/single_chain/wlc/thermodynamics/isometric/legendre/mod.rs` lines 70-73. -/
def nondimensional_gibbs_free_energy_per_link (number_of_links : Nat) (link_length : α) (hinge_mass : α) (nondimensional_persistance_length : α) (nondimensional_end_to_end_length_per_link : α) (temperature : α) : α :=
  Polymers.wlc.thermodynamics.isometric.legendre.nondimensional_gibbs_free_energy number_of_links link_length hinge_mass nondimensional_persistance_length nondimensional_end_to_end_length_per_link temperature / (number_of_links : α)

/-- `src/physics/single_chain/wlc/thermodynamics/isometric/legendre/mod.rs` lines 43-47. -/
def gibbs_free_energy_per_link (number_of_links : Nat) (link_length : α) (hinge_mass : α) (persistance_length : α) (end_to_end_length : α) (temperature : α) : α :=
  let contour_length : α := (number_of_links : α) * link_length
  Polymers.wlc.thermodynamics.isometric.legendre.nondimensional_gibbs_free_energy_per_link number_of_links link_length hinge_mass (persistance_length / contour_length) (end_to_end_length / contour_length) temperature * (Polymers.BOLTZMANN_CONSTANT : α) * temperature

/-- `src/physics/single_chain/wlc/thermodynamics/isometric/legendre/mod.rs` lines 76-79. -/
def nondimensional_relative_gibbs_free_energy (number_of_links : Nat) (nondimensional_persistance_length : α) (nondimensional_end_to_end_length_per_link : α) : α :=
  Polymers.wlc.thermodynamics.isometric.legendre.nondimensional_gibbs_free_energy number_of_links 1.0 1.0 nondimensional_persistance_length nondimensional_end_to_end_length_per_link 300.0 - Polymers.wlc.thermodynamics.isometric.legendre.nondimensional_gibbs_free_energy number_of_links 1.0 1.0 nondimensional_persistance_length (Polymers.ZERO : α) 300.0

/-- `src/physics/single_chain/wlc/thermodynamics/isometric/legendre/mod.rs` lines 50-54. -/
def relative_gibbs_free_energy (number_of_links : Nat) (link_length : α) (persistance_length : α) (end_to_end_length : α) (temperature : α) : α :=
  let contour_length : α := (number_of_links : α) * link_length
  Polymers.wlc.thermodynamics.isometric.legendre.nondimensional_relative_gibbs_free_energy number_of_links (persistance_length / contour_length) (end_to_end_length / contour_length) * (Polymers.BOLTZMANN_CONSTANT : α) * temperature

/-- `src/physics/single_chain/wlc/thermodynamics/isometric/legendre/mod.rs` lines 82-85. -/
def nondimensional_relative_gibbs_free_energy_per_link (number_of_links : Nat) (nondimensional_persistance_length : α) (nondimensional_end_to_end_length_per_link : α) : α :=
  Polymers.wlc.thermodynamics.isometric.legendre.nondimensional_gibbs_free_energy_per_link number_of_links 1.0 1.0 nondimensional_persistance_length nondimensional_end_to_end_length_per_link 300.0 - Polymers.wlc.thermodynamics.isometric.legendre.nondimensional_gibbs_free_energy_per_link number_of_links 1.0 1.0 nondimensional_persistance_length (Polymers.ZERO : α) 300.0

/-- `src/physics/single_chain/wlc/thermodynamics/isometric/legendre/mod.rs` lines 57-61. -/
def relative_gibbs_free_energy_per_link (number_of_links : Nat) (link_length : α) (persistance_length : α) (end_to_end_length : α) (temperature : α) : α :=
  let contour_length : α := (number_of_links : α) * link_length
  Polymers.wlc.thermodynamics.isometric.legendre.nondimensional_relative_gibbs_free_energy_per_link number_of_links (persistance_length / contour_length) (end_to_end_length / contour_length) * (Polymers.BOLTZMANN_CONSTANT : α) * temperature

/-- `src/physics/single_chain/wlc/thermodynamics/isometric/legendre/mod.rs` lines 91-101. -/
def WLC.init (number_of_links : Nat) (link_length : α) (hinge_mass : α) (persistance_length : α) : Polymers.wlc.thermodynamics.isometric.legendre.WLC α :=
  { hinge_mass := hinge_mass, link_length := link_length, number_of_links := number_of_links, persistance_length := persistance_length, nondimensional_persistance_length := persistance_length / (number_of_links : α) / link_length }

/-- `src/physics/single_chain/wlc/thermodynamics/isometric/legendre/mod.rs` lines 103-106. -/
def WLC.gibbs_free_energy (self : Polymers.wlc.thermodynamics.isometric.legendre.WLC α) (end_to_end_length : α) (temperature : α) : α :=
  Polymers.wlc.thermodynamics.isometric.legendre.gibbs_free_energy self.number_of_links self.link_length self.hinge_mass self.persistance_length end_to_end_length temperature

/-- `src/physics/single_chain/wlc/thermodynamics/isometric/legendre/mod.rs` lines 108-111. -/
def WLC.gibbs_free_energy_per_link (self : Polymers.wlc.thermodynamics.isometric.legendre.WLC α) (end_to_end_length : α) (temperature : α) : α :=
  Polymers.wlc.thermodynamics.isometric.legendre.gibbs_free_energy_per_link self.number_of_links self.link_length self.hinge_mass self.persistance_length end_to_end_length temperature

/-- `src/physics/single_chain/wlc/thermodynamics/isometric/legendre/mod.rs` lines 113-116. -/
def WLC.relative_gibbs_free_energy (self : Polymers.wlc.thermodynamics.isometric.legendre.WLC α) (end_to_end_length : α) (temperature : α) : α :=
  Polymers.wlc.thermodynamics.isometric.legendre.relative_gibbs_free_energy self.number_of_links self.link_length self.persistance_length end_to_end_length temperature

/-- `src/physics/single_chain/wlc/thermodynamics/isometric/legendre/mod.rs` lines 118-121. -/
def WLC.relative_gibbs_free_energy_per_link (self : Polymers.wlc.thermodynamics.isometric.legendre.WLC α) (end_to_end_length : α) (temperature : α) : α :=
  Polymers.wlc.thermodynamics.isometric.legendre.relative_gibbs_free_energy_per_link self.number_of_links self.link_length self.persistance_length end_to_end_length temperature

/-- `src/physics/single_chain/wlc/thermodynamics/isometric/legendre/mod.rs` lines 123-126. -/
def WLC.nondimensional_gibbs_free_energy (self : Polymers.wlc.thermodynamics.isometric.legendre.WLC α) (nondimensional_end_to_end_length_per_link : α) (temperature : α) : α :=
  Polymers.wlc.thermodynamics.isometric.legendre.nondimensional_gibbs_free_energy self.number_of_links self.link_length self.hinge_mass self.nondimensional_persistance_length nondimensional_end_to_end_length_per_link temperature

/-- `src/physics/single_chain/wlc/thermodynamics/isometric/legendre/mod.rs` lines 128-131. -/
def WLC.nondimensional_gibbs_free_energy_per_link (self : Polymers.wlc.thermodynamics.isometric.legendre.WLC α) (nondimensional_end_to_end_length_per_link : α) (temperature : α) : α :=
  Polymers.wlc.thermodynamics.isometric.legendre.nondimensional_gibbs_free_energy_per_link self.number_of_links self.link_length self.hinge_mass self.nondimensional_persistance_length nondimensional_end_to_end_length_per_link temperature

/-- `src/physics/single_chain/wlc/thermodynamics/isometric/legendre/mod.rs` lines 133-136. -/
def WLC.nondimensional_relative_gibbs_free_energy (self : Polymers.wlc.thermodynamics.isometric.legendre.WLC α) (nondimensional_end_to_end_length_per_link : α) : α :=
  Polymers.wlc.thermodynamics.isometric.legendre.nondimensional_relative_gibbs_free_energy self.number_of_links self.nondimensional_persistance_length nondimensional_end_to_end_length_per_link

/-- `src/physics/single_chain/wlc/thermodynamics/isometric/legendre/mod.rs` lines 138-141. -/
def WLC.nondimensional_relative_gibbs_free_energy_per_link (self : Polymers.wlc.thermodynamics.isometric.legendre.WLC α) (nondimensional_end_to_end_length_per_link : α) : α :=
  Polymers.wlc.thermodynamics.isometric.legendre.nondimensional_relative_gibbs_free_energy_per_link self.number_of_links self.nondimensional_persistance_length nondimensional_end_to_end_length_per_link

end Polymers.wlc.thermodynamics.isometric.legendre

namespace Polymers.wlc.thermodynamics.isotensional.legendre

/-- `src/physics/single_chain/wlc/thermodynamics/isotensional/legendre/mod.rs` lines 21-36: struct `WLC`. -/
structure WLC (α : Type) where
  /-- field `hinge_mass` -/
  hinge_mass : α
  /-- field `link_length` -/
  link_length : α
  /-- field `number_of_links` -/
  number_of_links : Nat
  /-- field `persistance_length` -/
  persistance_length : α
  /-- field `nondimensional_persistance_length` -/
  nondimensional_persistance_length : α

end Polymers.wlc.thermodynamics.isotensional.legendre

namespace Polymers.wlc.thermodynamics.isotensional

/-- `src/physics/single_chain/wlc/thermodynamics/isotensional/mod.rs` lines 125-151. -/
def nondimensional_gibbs_free_energy (number_of_links : Nat) (link_length : α) (hinge_mass : α) (nondimensional_persistance_length : α) (nondimensional_force : α) (temperature : α) : α :=
  let f : α → α := fun (nondimensional_end_to_end_length_per_link : α) => Polymers.wlc.thermodynamics.isometric.nondimensional_force number_of_links nondimensional_persistance_length nondimensional_end_to_end_length_per_link
  let fp : α → α := fun (nondimensional_end_to_end_length_per_link : α) => (Polymers.wlc.thermodynamics.isometric.nondimensional_force number_of_links nondimensional_persistance_length (nondimensional_end_to_end_length_per_link + 1e-8) - Polymers.wlc.thermodynamics.isometric.nondimensional_force number_of_links nondimensional_persistance_length (nondimensional_end_to_end_length_per_link - 1e-8)) / 2e-8
  let fpp : α → α := fun (x : α) => (fp (x + 1e-8) - fp (x - 1e-8)) / 2e-8
  let gamma_hat : α := Polymers.math.inverse_newton_raphson_powered nondimensional_force f fp 0.9999 1e-5 100 2
  if !(Elem.le 0.0 gamma_hat && Elem.le gamma_hat 1.0) then Elem.panic else (let scale : α := (number_of_links : α) * nondimensional_force * gamma_hat - Polymers.wlc.thermodynamics.isometric.nondimensional_helmholtz_free_energy number_of_links link_length hinge_mass nondimensional_persistance_length gamma_hat temperature; let log_integral : α := if Elem.lt 100.0 nondimensional_force then ((-Elem.ln (Elem.sqrt (8.0 * Elem.powi (Elem.pi : α) 2 / fpp gamma_hat))) - Elem.ln (0.5 * (number_of_links : α) * gamma_hat / nondimensional_force)) else (let integrand : α → α := fun (nondimensional_end_to_end_length_per_link : α) => (let beta_psi : α := Polymers.wlc.thermodynamics.isometric.nondimensional_helmholtz_free_energy number_of_links link_length hinge_mass nondimensional_persistance_length nondimensional_end_to_end_length_per_link temperature; let beta_f_xi : α := (number_of_links : α) * nondimensional_force * nondimensional_end_to_end_length_per_link; 0.5 * (Elem.exp (beta_f_xi - scale - beta_psi) - Elem.exp ((-beta_f_xi) - scale - beta_psi)) * (number_of_links : α) * nondimensional_end_to_end_length_per_link / nondimensional_force); (-Elem.ln (4.0 * (Elem.pi : α) * Polymers.math.integrate_1d integrand (Polymers.ZERO : α) (Polymers.ONE : α) Polymers.POINTS))); log_integral - scale - Elem.ln (4.0 * Elem.sin (Elem.acos (Elem.exp ((-1.0) / nondimensional_persistance_length))) * Elem.powi (Elem.pi : α) 2 * hinge_mass * Elem.powi link_length 2 * (Polymers.BOLTZMANN_CONSTANT : α) * temperature / Elem.powi (Polymers.PLANCK_CONSTANT : α) 2))

end Polymers.wlc.thermodynamics.isotensional

namespace Polymers.wlc.thermodynamics.isometric

/-- `src/physics/single_chain/wlc/thermodynamics/isometric/mod.rs` lines 155-158. -/
def nondimensional_relative_helmholtz_free_energy (nondimensional_persistance_length : α) (nondimensional_end_to_end_length_per_link : α) : α :=
  Polymers.wlc.thermodynamics.isometric.nondimensional_helmholtz_free_energy 8 1.0 1.0 nondimensional_persistance_length nondimensional_end_to_end_length_per_link 300.0 - Polymers.wlc.thermodynamics.isometric.nondimensional_helmholtz_free_energy 8 1.0 1.0 nondimensional_persistance_length (Polymers.ZERO : α) 300.0

end Polymers.wlc.thermodynamics.isometric

namespace Polymers.wlc.thermodynamics.isotensional

/-- `src/physics/single_chain/wlc/thermodynamics/isotensional/mod.rs` lines 67-92. -/
def nondimensional_end_to_end_length (number_of_links : Nat) (nondimensional_persistance_length : α) (nondimensional_force : α) : α :=
  let f : α → α := fun (nondimensional_end_to_end_length_per_link : α) => Polymers.wlc.thermodynamics.isometric.nondimensional_force number_of_links nondimensional_persistance_length nondimensional_end_to_end_length_per_link
  let fp : α → α := fun (nondimensional_end_to_end_length_per_link : α) => (Polymers.wlc.thermodynamics.isometric.nondimensional_force number_of_links nondimensional_persistance_length (nondimensional_end_to_end_length_per_link + 1e-8) - Polymers.wlc.thermodynamics.isometric.nondimensional_force number_of_links nondimensional_persistance_length (nondimensional_end_to_end_length_per_link - 1e-8)) / 2e-8
  let gamma_hat : α := Polymers.math.inverse_newton_raphson_powered nondimensional_force f fp 0.9999 1e-5 100 2
  if !(Elem.le 0.0 gamma_hat && Elem.le gamma_hat 1.0) then Elem.panic else (let scale : α := (number_of_links : α) * nondimensional_force * gamma_hat - Polymers.wlc.thermodynamics.isometric.nondimensional_relative_helmholtz_free_energy nondimensional_persistance_length gamma_hat; let integrand_denominator : α → α := fun (nondimensional_end_to_end_length_per_link : α) => (let beta_delta_psi : α := Polymers.wlc.thermodynamics.isometric.nondimensional_relative_helmholtz_free_energy nondimensional_persistance_length nondimensional_end_to_end_length_per_link; let beta_f_xi : α := (number_of_links : α) * nondimensional_force * nondimensional_end_to_end_length_per_link; (Elem.exp (beta_f_xi - scale - beta_delta_psi) - Elem.exp ((-beta_f_xi) - scale - beta_delta_psi)) * nondimensional_end_to_end_length_per_link / nondimensional_force); let integrand_numerator : α → α := fun (nondimensional_end_to_end_length_per_link : α) => (let beta_delta_psi : α := Polymers.wlc.thermodynamics.isometric.nondimensional_relative_helmholtz_free_energy nondimensional_persistance_length nondimensional_end_to_end_length_per_link; let beta_f_xi : α := (number_of_links : α) * nondimensional_force * nondimensional_end_to_end_length_per_link; let exp_1 : α := Elem.exp (beta_f_xi - scale - beta_delta_psi); let exp_2 : α := Elem.exp ((-beta_f_xi) - scale - beta_delta_psi); ((exp_1 + exp_2) * (number_of_links : α) * nondimensional_end_to_end_length_per_link - (exp_1 - exp_2) / nondimensional_force) * nondimensional_end_to_end_length_per_link / nondimensional_force); Polymers.math.integrate_1d integrand_numerator (Polymers.ZERO : α) (Polymers.ONE : α) Polymers.POINTS / Polymers.math.integrate_1d integrand_denominator (Polymers.ZERO : α) (Polymers.ONE : α) Polymers.POINTS)

end Polymers.wlc.thermodynamics.isotensional

namespace Polymers.wlc.thermodynamics.isotensional.legendre

/-- `src/physics/single_chain/wlc/thermodynamics/isotensional/legendre/mod.rs` lines 63-66. -/
def nondimensional_helmholtz_free_energy (number_of_links : Nat) (link_length : α) (hinge_mass : α) (nondimensional_persistance_length : α) (nondimensional_force : α) (temperature : α) : α :=
  Polymers.wlc.thermodynamics.isotensional.nondimensional_gibbs_free_energy number_of_links link_length hinge_mass nondimensional_persistance_length nondimensional_force temperature + nondimensional_force * Polymers.wlc.thermodynamics.isotensional.nondimensional_end_to_end_length number_of_links nondimensional_persistance_length nondimensional_force

/-- `src/physics/single_chain/wlc/thermodynamics/isotensional/legendre/mod.rs` lines 39-42. -/
def helmholtz_free_energy (number_of_links : Nat) (link_length : α) (hinge_mass : α) (persistance_length : α) (force : α) (temperature : α) : α :=
  Polymers.wlc.thermodynamics.isotensional.legendre.nondimensional_helmholtz_free_energy number_of_links link_length hinge_mass (persistance_length / ((number_of_links : α) * link_length)) (force * link_length / (Polymers.BOLTZMANN_CONSTANT : α) / temperature) temperature * (Polymers.BOLTZMANN_CONSTANT : α) * temperature

/-- `src/physics/single_chain/wlc/thermodynamics/isotensional/legendre/mod.rs` lines 69-72. -/
def nondimensional_helmholtz_free_energy_per_link (number_of_links : Nat) (link_length : α) (hinge_mass : α) (nondimensional_persistance_length : α) (nondimensional_force : α) (temperature : α) : α :=
  Polymers.wlc.thermodynamics.isotensional.legendre.nondimensional_helmholtz_free_energy number_of_links link_length hinge_mass nondimensional_persistance_length nondimensional_force temperature / (number_of_links : α)

/-- `src/physics/single_chain/wlc/thermodynamics/isotensional/legendre/mod.rs` lines 45-48. -/
def helmholtz_free_energy_per_link (number_of_links : Nat) (link_length : α) (hinge_mass : α) (persistance_length : α) (force : α) (temperature : α) : α :=
  Polymers.wlc.thermodynamics.isotensional.legendre.nondimensional_helmholtz_free_energy_per_link number_of_links link_length hinge_mass (persistance_length / ((number_of_links : α) * link_length)) (force * link_length / (Polymers.BOLTZMANN_CONSTANT : α) / temperature) temperature * (Polymers.BOLTZMANN_CONSTANT : α) * temperature

/-- `src/physics/single_chain/wlc/thermodynamics/isotensional/legendre/mod.rs` lines 75-78. -/
def nondimensional_relative_helmholtz_free_energy (number_of_links : Nat) (nondimensional_persistance_length : α) (nondimensional_force : α) : α :=
  Polymers.wlc.thermodynamics.isotensional.legendre.nondimensional_helmholtz_free_energy number_of_links 1.0 1.0 nondimensional_persistance_length nondimensional_force 300.0 - Polymers.wlc.thermodynamics.isotensional.legendre.nondimensional_helmholtz_free_energy number_of_links 1.0 1.0 nondimensional_persistance_length (Polymers.ZERO : α) 300.0

/-- `src/physics/single_chain/wlc/thermodynamics/isotensional/legendre/mod.rs` lines 51-54. -/
def relative_helmholtz_free_energy (number_of_links : Nat) (link_length : α) (persistance_length : α) (force : α) (temperature : α) : α :=
  Polymers.wlc.thermodynamics.isotensional.legendre.nondimensional_relative_helmholtz_free_energy number_of_links (persistance_length / ((number_of_links : α) * link_length)) (force * link_length / (Polymers.BOLTZMANN_CONSTANT : α) / temperature) * (Polymers.BOLTZMANN_CONSTANT : α) * temperature

/-- `src/physics/single_chain/wlc/thermodynamics/isotensional/legendre/mod.rs` lines 81-84. -/
def nondimensional_relative_helmholtz_free_energy_per_link (number_of_links : Nat) (nondimensional_persistance_length : α) (nondimensional_force : α) : α :=
  Polymers.wlc.thermodynamics.isotensional.legendre.nondimensional_helmholtz_free_energy_per_link number_of_links 1.0 1.0 nondimensional_persistance_length nondimensional_force 300.0 - Polymers.wlc.thermodynamics.isotensional.legendre.nondimensional_helmholtz_free_energy_per_link number_of_links 1.0 1.0 nondimensional_persistance_length (Polymers.ZERO : α) 300.0

/-- `src/physics/single_chain/wlc/thermodynamics/isotensional/legendre/mod.rs` lines 57-60. -/
def relative_helmholtz_free_energy_per_link (number_of_links : Nat) (link_length : α) (persistance_length : α) (force : α) (temperature : α) : α :=
  Polymers.wlc.thermodynamics.isotensional.legendre.nondimensional_relative_helmholtz_free_energy_per_link number_of_links (persistance_length / ((number_of_links : α) * link_length)) (force * link_length / (Polymers.BOLTZMANN_CONSTANT : α) / temperature) * (Polymers.BOLTZMANN_CONSTANT : α) * temperature

/-- `src/physics/single_chain/wlc/thermodynamics/isotensional/legendre/mod.rs` lines 90-100. -/
def WLC.init (number_of_links : Nat) (link_length : α) (hinge_mass : α) (persistance_length : α) : Polymers.wlc.thermodynamics.isotensional.legendre.WLC α :=
  { hinge_mass := hinge_mass, link_length := link_length, number_of_links := number_of_links, persistance_length := persistance_length, nondimensional_persistance_length := persistance_length / (number_of_links : α) / link_length }

/-- `src/physics/single_chain/wlc/thermodynamics/isotensional/legendre/mod.rs` lines 102-105. -/
def WLC.helmholtz_free_energy (self : Polymers.wlc.thermodynamics.isotensional.legendre.WLC α) (force : α) (temperature : α) : α :=
  Polymers.wlc.thermodynamics.isotensional.legendre.helmholtz_free_energy self.number_of_links self.link_length self.hinge_mass self.persistance_length force temperature

/-- `src/physics/single_chain/wlc/thermodynamics/isotensional/legendre/mod.rs` lines 107-110. -/
def WLC.helmholtz_free_energy_per_link (self : Polymers.wlc.thermodynamics.isotensional.legendre.WLC α) (force : α) (temperature : α) : α :=
  Polymers.wlc.thermodynamics.isotensional.legendre.helmholtz_free_energy_per_link self.number_of_links self.link_length self.hinge_mass self.persistance_length force temperature

/-- `src/physics/single_chain/wlc/thermodynamics/isotensional/legendre/mod.rs` lines 112-115. -/
def WLC.relative_helmholtz_free_energy (self : Polymers.wlc.thermodynamics.isotensional.legendre.WLC α) (force : α) (temperature : α) : α :=
  Polymers.wlc.thermodynamics.isotensional.legendre.relative_helmholtz_free_energy self.number_of_links self.link_length self.persistance_length force temperature

/-- `src/physics/single_chain/wlc/thermodynamics/isotensional/legendre/mod.rs` lines 117-120. -/
def WLC.relative_helmholtz_free_energy_per_link (self : Polymers.wlc.thermodynamics.isotensional.legendre.WLC α) (force : α) (temperature : α) : α :=
  Polymers.wlc.thermodynamics.isotensional.legendre.relative_helmholtz_free_energy_per_link self.number_of_links self.link_length self.persistance_length force temperature

/-- `src/physics/single_chain/wlc/thermodynamics/isotensional/legendre/mod.rs` lines 122-125. -/
def WLC.nondimensional_helmholtz_free_energy (self : Polymers.wlc.thermodynamics.isotensional.legendre.WLC α) (nondimensional_force : α) (temperature : α) : α :=
  Polymers.wlc.thermodynamics.isotensional.legendre.nondimensional_helmholtz_free_energy self.number_of_links self.link_length self.hinge_mass self.nondimensional_persistance_length nondimensional_force temperature

/-- `src/physics/single_chain/wlc/thermodynamics/isotensional/legendre/mod.rs` lines 127-130. -/
def WLC.nondimensional_helmholtz_free_energy_per_link (self : Polymers.wlc.thermodynamics.isotensional.legendre.WLC α) (nondimensional_force : α) (temperature : α) : α :=
  Polymers.wlc.thermodynamics.isotensional.legendre.nondimensional_helmholtz_free_energy_per_link self.number_of_links self.link_length self.hinge_mass self.nondimensional_persistance_length nondimensional_force temperature

/-- `src/physics/single_chain/wlc/thermodynamics/isotensional/legendre/mod.rs` lines 132-135. -/
def WLC.nondimensional_relative_helmholtz_free_energy (self : Polymers.wlc.thermodynamics.isotensional.legendre.WLC α) (nondimensional_force : α) : α :=
  Polymers.wlc.thermodynamics.isotensional.legendre.nondimensional_relative_helmholtz_free_energy self.number_of_links self.nondimensional_persistance_length nondimensional_force

/-- `src/physics/single_chain/wlc/thermodynamics/isotensional/legendre/mod.rs` lines 137-140. -/
def WLC.nondimensional_relative_helmholtz_free_energy_per_link (self : Polymers.wlc.thermodynamics.isotensional.legendre.WLC α) (nondimensional_force : α) : α :=
  Polymers.wlc.thermodynamics.isotensional.legendre.nondimensional_relative_helmholtz_free_energy_per_link self.number_of_links self.nondimensional_persistance_length nondimensional_force

end Polymers.wlc.thermodynamics.isotensional.legendre

namespace Polymers.wlc.thermodynamics.isometric

/-- `src/physics/single_chain/wlc/thermodynamics/isometric/mod.rs` lines 31-51: struct `WLC`. -/
structure WLC (α : Type) where
  /-- field `hinge_mass` -/
  hinge_mass : α
  /-- field `link_length` -/
  link_length : α
  /-- field `number_of_links` -/
  number_of_links : Nat
  /-- field `persistance_length` -/
  persistance_length : α
  /-- field `nondimensional_persistance_length` -/
  nondimensional_persistance_length : α
  /-- field `normalization_nondimensional_equilibrium_distribution` -/
  normalization_nondimensional_equilibrium_distribution : α
  /-- field `legendre` -/
  legendre : Polymers.wlc.thermodynamics.isometric.legendre.WLC α

/-- `src/physics/single_chain/wlc/thermodynamics/isometric/mod.rs` lines 54-58. -/
def force (number_of_links : Nat) (link_length : α) (persistance_length : α) (end_to_end_length : α) (temperature : α) : α :=
  let contour_length : α := (number_of_links : α) * link_length
  Polymers.wlc.thermodynamics.isometric.nondimensional_force number_of_links (persistance_length / contour_length) (end_to_end_length / contour_length) * (Polymers.BOLTZMANN_CONSTANT : α) * temperature / link_length

/-- `src/physics/single_chain/wlc/thermodynamics/isometric/mod.rs` lines 88-92. -/
def helmholtz_free_energy (number_of_links : Nat) (link_length : α) (hinge_mass : α) (persistance_length : α) (end_to_end_length : α) (temperature : α) : α :=
  let contour_length : α := (number_of_links : α) * link_length
  Polymers.wlc.thermodynamics.isometric.nondimensional_helmholtz_free_energy number_of_links link_length hinge_mass (persistance_length / contour_length) (end_to_end_length / contour_length) temperature * (Polymers.BOLTZMANN_CONSTANT : α) * temperature

/-- `src/physics/single_chain/wlc/thermodynamics/isometric/mod.rs` lines 149-152. -/
def nondimensional_helmholtz_free_energy_per_link (number_of_links : Nat) (link_length : α) (hinge_mass : α) (nondimensional_persistance_length : α) (nondimensional_end_to_end_length_per_link : α) (temperature : α) : α :=
  Polymers.wlc.thermodynamics.isometric.nondimensional_helmholtz_free_energy number_of_links link_length hinge_mass nondimensional_persistance_length nondimensional_end_to_end_length_per_link temperature / (number_of_links : α)

/-- `src/physics/single_chain/wlc/thermodynamics/isometric/mod.rs` lines 95-99. -/
def helmholtz_free_energy_per_link (number_of_links : Nat) (link_length : α) (hinge_mass : α) (persistance_length : α) (end_to_end_length : α) (temperature : α) : α :=
  let contour_length : α := (number_of_links : α) * link_length
  Polymers.wlc.thermodynamics.isometric.nondimensional_helmholtz_free_energy_per_link number_of_links link_length hinge_mass (persistance_length / contour_length) (end_to_end_length / contour_length) temperature * (Polymers.BOLTZMANN_CONSTANT : α) * temperature

/-- `src/physics/single_chain/wlc/thermodynamics/isometric/mod.rs` lines 102-106. -/
def relative_helmholtz_free_energy (number_of_links : Nat) (link_length : α) (persistance_length : α) (end_to_end_length : α) (temperature : α) : α :=
  let contour_length : α := (number_of_links : α) * link_length
  Polymers.wlc.thermodynamics.isometric.nondimensional_relative_helmholtz_free_energy (persistance_length / contour_length) (end_to_end_length / contour_length) * (Polymers.BOLTZMANN_CONSTANT : α) * temperature

/-- `src/physics/single_chain/wlc/thermodynamics/isometric/mod.rs` lines 161-164. -/
def nondimensional_relative_helmholtz_free_energy_per_link (number_of_links : Nat) (nondimensional_persistance_length : α) (nondimensional_end_to_end_length_per_link : α) : α :=
  Polymers.wlc.thermodynamics.isometric.nondimensional_relative_helmholtz_free_energy nondimensional_persistance_length nondimensional_end_to_end_length_per_link / (number_of_links : α)

/-- `src/physics/single_chain/wlc/thermodynamics/isometric/mod.rs` lines 109-113. -/
def relative_helmholtz_free_energy_per_link (number_of_links : Nat) (link_length : α) (persistance_length : α) (end_to_end_length : α) (temperature : α) : α :=
  let contour_length : α := (number_of_links : α) * link_length
  Polymers.wlc.thermodynamics.isometric.nondimensional_relative_helmholtz_free_energy_per_link number_of_links (persistance_length / contour_length) (end_to_end_length / contour_length) * (Polymers.BOLTZMANN_CONSTANT : α) * temperature

/-- `src/physics/single_chain/wlc/thermodynamics/isometric/mod.rs` lines 174-201. -/
def nondimensional_equilibrium_distribution (nondimensional_persistance_length : α) (normalization_nondimensional_equilibrium_distribution : α) (nondimensional_end_to_end_length_per_link : α) : α :=
  let g2 : α := Elem.powi nondimensional_end_to_end_length_per_link 2
  let a : α := 14.054
  let b : α := 0.473
  let c : List (List α) := [[(-0.75), 0.359375, (-0.109375)], [(-0.5), 1.0625, (-0.5625)]]
  let c0 : α := 1.0 - Elem.powf (1.0 + Elem.powi (0.38 / Elem.powf nondimensional_persistance_length 0.95) (-5)) (-0.2)
  let d : α := if Elem.lt nondimensional_persistance_length 0.125 then 1.0 else 1.0 - 1.0 / (0.177 / (nondimensional_persistance_length - 0.111) + 6.40 * Elem.powf (nondimensional_persistance_length - 0.111) 0.783)
  let e : α := if Elem.lt nondimensional_persistance_length 0.125 then Elem.powf (0.75 / (Elem.pi : α) / nondimensional_persistance_length) 1.5 * (1.0 - 1.25 * nondimensional_persistance_length) else 112.04 * Elem.powi nondimensional_persistance_length 2 * Elem.exp (0.246 / nondimensional_persistance_length - a * nondimensional_persistance_length)
  let f : α := (1.0 - c0 * g2) / (1.0 - g2)
  let h : α := nondimensional_end_to_end_length_per_link / (1.0 - Elem.powi b 2 * g2)
  let arg : α := (-d) * nondimensional_persistance_length * a * (1.0 + b) * h
  let sum : α := Polymers.fsum (List.map (fun (i : Nat) => Polymers.fsum (List.map (fun (j : Nat) => (List.getD (List.getD c i []) (j - 1) Elem.panic) * (Elem.powi nondimensional_persistance_length ((i : Int) - 1) * Elem.powi g2 (j : Int))) (List.range' 1 3))) (List.range' 0 2))
  e * Elem.powf f 2.5 * Elem.exp (sum / (1.0 - g2) + arg * b * nondimensional_end_to_end_length_per_link) * Polymers.math.bessel_i 0 arg / normalization_nondimensional_equilibrium_distribution

/-- `src/physics/single_chain/wlc/thermodynamics/isometric/mod.rs` lines 167-171. -/
def equilibrium_distribution (number_of_links : Nat) (link_length : α) (persistance_length : α) (normalization_nondimensional_equilibrium_distribution : α) (end_to_end_length : α) : α :=
  let contour_length : α := (number_of_links : α) * link_length
  Polymers.wlc.thermodynamics.isometric.nondimensional_equilibrium_distribution (persistance_length / contour_length) normalization_nondimensional_equilibrium_distribution (end_to_end_length / contour_length) / Elem.powi contour_length 3

/-- `src/physics/single_chain/wlc/thermodynamics/isometric/mod.rs` lines 211-214. -/
def nondimensional_equilibrium_radial_distribution (nondimensional_persistance_length : α) (normalization_nondimensional_equilibrium_distribution : α) (nondimensional_end_to_end_length_per_link : α) : α :=
  4.0 * (Elem.pi : α) * Elem.powi nondimensional_end_to_end_length_per_link 2 * Polymers.wlc.thermodynamics.isometric.nondimensional_equilibrium_distribution nondimensional_persistance_length normalization_nondimensional_equilibrium_distribution nondimensional_end_to_end_length_per_link

/-- `src/physics/single_chain/wlc/thermodynamics/isometric/mod.rs` lines 204-208. -/
def equilibrium_radial_distribution (number_of_links : Nat) (link_length : α) (persistance_length : α) (normalization_nondimensional_equilibrium_distribution : α) (end_to_end_length : α) : α :=
  let contour_length : α := (number_of_links : α) * link_length
  Polymers.wlc.thermodynamics.isometric.nondimensional_equilibrium_radial_distribution (persistance_length / contour_length) normalization_nondimensional_equilibrium_distribution (end_to_end_length / contour_length) / contour_length

/-- `src/physics/single_chain/wlc/thermodynamics/isometric/mod.rs` lines 220-234. -/
def WLC.init (number_of_links : Nat) (link_length : α) (hinge_mass : α) (persistance_length : α) : Polymers.wlc.thermodynamics.isometric.WLC α :=
  let nondimensional_persistance_length : α := persistance_length / (number_of_links : α) / link_length
  let normalization_nondimensional_equilibrium_distribution : α := Polymers.math.integrate_1d (fun (nondimensional_end_to_end_length_per_link : α) => Polymers.wlc.thermodynamics.isometric.nondimensional_equilibrium_radial_distribution nondimensional_persistance_length 1.0 nondimensional_end_to_end_length_per_link) (Polymers.ZERO : α) (Polymers.ONE : α) Polymers.POINTS
  { hinge_mass := hinge_mass, link_length := link_length, number_of_links := number_of_links, persistance_length := persistance_length, nondimensional_persistance_length := nondimensional_persistance_length, normalization_nondimensional_equilibrium_distribution := normalization_nondimensional_equilibrium_distribution, legendre := Polymers.wlc.thermodynamics.isometric.legendre.WLC.init number_of_links link_length hinge_mass persistance_length }

/-- `src/physics/single_chain/wlc/thermodynamics/isometric/mod.rs` lines 236-239. -/
def WLC.force (self : Polymers.wlc.thermodynamics.isometric.WLC α) (end_to_end_length : α) (temperature : α) : α :=
  Polymers.wlc.thermodynamics.isometric.force self.number_of_links self.link_length self.persistance_length end_to_end_length temperature

/-- `src/physics/single_chain/wlc/thermodynamics/isometric/mod.rs` lines 241-244. -/
def WLC.nondimensional_force (self : Polymers.wlc.thermodynamics.isometric.WLC α) (nondimensional_end_to_end_length_per_link : α) : α :=
  Polymers.wlc.thermodynamics.isometric.nondimensional_force self.number_of_links self.nondimensional_persistance_length nondimensional_end_to_end_length_per_link

/-- `src/physics/single_chain/wlc/thermodynamics/isometric/mod.rs` lines 246-249. -/
def WLC.helmholtz_free_energy (self : Polymers.wlc.thermodynamics.isometric.WLC α) (end_to_end_length : α) (temperature : α) : α :=
  Polymers.wlc.thermodynamics.isometric.helmholtz_free_energy self.number_of_links self.link_length self.hinge_mass self.persistance_length end_to_end_length temperature

/-- `src/physics/single_chain/wlc/thermodynamics/isometric/mod.rs` lines 251-254. -/
def WLC.helmholtz_free_energy_per_link (self : Polymers.wlc.thermodynamics.isometric.WLC α) (end_to_end_length : α) (temperature : α) : α :=
  Polymers.wlc.thermodynamics.isometric.helmholtz_free_energy_per_link self.number_of_links self.link_length self.hinge_mass self.persistance_length end_to_end_length temperature

/-- `src/physics/single_chain/wlc/thermodynamics/isometric/mod.rs` lines 256-259. -/
def WLC.relative_helmholtz_free_energy (self : Polymers.wlc.thermodynamics.isometric.WLC α) (end_to_end_length : α) (temperature : α) : α :=
  Polymers.wlc.thermodynamics.isometric.relative_helmholtz_free_energy self.number_of_links self.link_length self.persistance_length end_to_end_length temperature

/-- `src/physics/single_chain/wlc/thermodynamics/isometric/mod.rs` lines 261-264. -/
def WLC.relative_helmholtz_free_energy_per_link (self : Polymers.wlc.thermodynamics.isometric.WLC α) (end_to_end_length : α) (temperature : α) : α :=
  Polymers.wlc.thermodynamics.isometric.relative_helmholtz_free_energy_per_link self.number_of_links self.link_length self.persistance_length end_to_end_length temperature

/-- `src/physics/single_chain/wlc/thermodynamics/isometric/mod.rs` lines 266-269. -/
def WLC.nondimensional_helmholtz_free_energy (self : Polymers.wlc.thermodynamics.isometric.WLC α) (nondimensional_end_to_end_length_per_link : α) (temperature : α) : α :=
  Polymers.wlc.thermodynamics.isometric.nondimensional_helmholtz_free_energy self.number_of_links self.link_length self.hinge_mass self.nondimensional_persistance_length nondimensional_end_to_end_length_per_link temperature

/-- `src/physics/single_chain/wlc/thermodynamics/isometric/mod.rs` lines 271-274. -/
def WLC.nondimensional_helmholtz_free_energy_per_link (self : Polymers.wlc.thermodynamics.isometric.WLC α) (nondimensional_end_to_end_length_per_link : α) (temperature : α) : α :=
  Polymers.wlc.thermodynamics.isometric.nondimensional_helmholtz_free_energy_per_link self.number_of_links self.link_length self.hinge_mass self.nondimensional_persistance_length nondimensional_end_to_end_length_per_link temperature

/-- `src/physics/single_chain/wlc/thermodynamics/isometric/mod.rs` lines 276-279. -/
def WLC.nondimensional_relative_helmholtz_free_energy (self : Polymers.wlc.thermodynamics.isometric.WLC α) (nondimensional_end_to_end_length_per_link : α) : α :=
  Polymers.wlc.thermodynamics.isometric.nondimensional_relative_helmholtz_free_energy self.nondimensional_persistance_length nondimensional_end_to_end_length_per_link

/-- `src/physics/single_chain/wlc/thermodynamics/isometric/mod.rs` lines 281-284. -/
def WLC.nondimensional_relative_helmholtz_free_energy_per_link (self : Polymers.wlc.thermodynamics.isometric.WLC α) (nondimensional_end_to_end_length_per_link : α) : α :=
  Polymers.wlc.thermodynamics.isometric.nondimensional_relative_helmholtz_free_energy_per_link self.number_of_links self.nondimensional_persistance_length nondimensional_end_to_end_length_per_link

/-- `src/physics/single_chain/wlc/thermodynamics/isometric/mod.rs` lines 286-289. -/
def WLC.equilibrium_distribution (self : Polymers.wlc.thermodynamics.isometric.WLC α) (end_to_end_length : α) : α :=
  Polymers.wlc.thermodynamics.isometric.equilibrium_distribution self.number_of_links self.link_length self.persistance_length self.normalization_nondimensional_equilibrium_distribution end_to_end_length

/-- `src/physics/single_chain/wlc/thermodynamics/isometric/mod.rs` lines 291-294. -/
def WLC.nondimensional_equilibrium_distribution (self : Polymers.wlc.thermodynamics.isometric.WLC α) (nondimensional_end_to_end_length_per_link : α) : α :=
  Polymers.wlc.thermodynamics.isometric.nondimensional_equilibrium_distribution self.nondimensional_persistance_length self.normalization_nondimensional_equilibrium_distribution nondimensional_end_to_end_length_per_link

/-- `src/physics/single_chain/wlc/thermodynamics/isometric/mod.rs` lines 296-299. -/
def WLC.equilibrium_radial_distribution (self : Polymers.wlc.thermodynamics.isometric.WLC α) (end_to_end_length : α) : α :=
  Polymers.wlc.thermodynamics.isometric.equilibrium_radial_distribution self.number_of_links self.link_length self.persistance_length self.normalization_nondimensional_equilibrium_distribution end_to_end_length

/-- `src/physics/single_chain/wlc/thermodynamics/isometric/mod.rs` lines 301-304. -/
def WLC.nondimensional_equilibrium_radial_distribution (self : Polymers.wlc.thermodynamics.isometric.WLC α) (nondimensional_end_to_end_length_per_link : α) : α :=
  Polymers.wlc.thermodynamics.isometric.nondimensional_equilibrium_radial_distribution self.nondimensional_persistance_length self.normalization_nondimensional_equilibrium_distribution nondimensional_end_to_end_length_per_link

end Polymers.wlc.thermodynamics.isometric

namespace Polymers.wlc.thermodynamics.isotensional

/-- `src/physics/single_chain/wlc/thermodynamics/isotensional/mod.rs` lines 34-52: struct `WLC`. -/
structure WLC (α : Type) where
  /-- field `hinge_mass` -/
  hinge_mass : α
  /-- field `link_length` -/
  link_length : α
  /-- field `number_of_links` -/
  number_of_links : Nat
  /-- field `persistance_length` -/
  persistance_length : α
  /-- field `nondimensional_persistance_length` -/
  nondimensional_persistance_length : α
  /-- field `legendre` -/
  legendre : Polymers.wlc.thermodynamics.isotensional.legendre.WLC α

/-- `src/physics/single_chain/wlc/thermodynamics/isotensional/mod.rs` lines 55-58. -/
def end_to_end_length (number_of_links : Nat) (link_length : α) (persistance_length : α) (force : α) (temperature : α) : α :=
  link_length * Polymers.wlc.thermodynamics.isotensional.nondimensional_end_to_end_length number_of_links (persistance_length / ((number_of_links : α) * link_length)) (force * link_length / (Polymers.BOLTZMANN_CONSTANT : α) / temperature)

/-- `src/physics/single_chain/wlc/thermodynamics/isotensional/mod.rs` lines 95-98. -/
def nondimensional_end_to_end_length_per_link (number_of_links : Nat) (nondimensional_persistance_length : α) (nondimensional_force : α) : α :=
  Polymers.wlc.thermodynamics.isotensional.nondimensional_end_to_end_length number_of_links nondimensional_persistance_length nondimensional_force / (number_of_links : α)

/-- `src/physics/single_chain/wlc/thermodynamics/isotensional/mod.rs` lines 61-64. -/
def end_to_end_length_per_link (number_of_links : Nat) (link_length : α) (persistance_length : α) (force : α) (temperature : α) : α :=
  link_length * Polymers.wlc.thermodynamics.isotensional.nondimensional_end_to_end_length_per_link number_of_links (persistance_length / ((number_of_links : α) * link_length)) (force * link_length / (Polymers.BOLTZMANN_CONSTANT : α) / temperature)

/-- `src/physics/single_chain/wlc/thermodynamics/isotensional/mod.rs` lines 101-104. -/
def gibbs_free_energy (number_of_links : Nat) (link_length : α) (hinge_mass : α) (persistance_length : α) (force : α) (temperature : α) : α :=
  Polymers.wlc.thermodynamics.isotensional.nondimensional_gibbs_free_energy number_of_links link_length hinge_mass (persistance_length / ((number_of_links : α) * link_length)) (force * link_length / (Polymers.BOLTZMANN_CONSTANT : α) / temperature) temperature * (Polymers.BOLTZMANN_CONSTANT : α) * temperature

/-- `src/physics/single_chain/wlc/thermodynamics/isotensional/mod.rs` lines 154-157. -/
def nondimensional_gibbs_free_energy_per_link (number_of_links : Nat) (link_length : α) (hinge_mass : α) (nondimensional_persistance_length : α) (nondimensional_force : α) (temperature : α) : α :=
  Polymers.wlc.thermodynamics.isotensional.nondimensional_gibbs_free_energy number_of_links link_length hinge_mass nondimensional_persistance_length nondimensional_force temperature / (number_of_links : α)

/-- `src/physics/single_chain/wlc/thermodynamics/isotensional/mod.rs` lines 107-110. -/
def gibbs_free_energy_per_link (number_of_links : Nat) (link_length : α) (hinge_mass : α) (persistance_length : α) (force : α) (temperature : α) : α :=
  Polymers.wlc.thermodynamics.isotensional.nondimensional_gibbs_free_energy_per_link number_of_links link_length hinge_mass (persistance_length / ((number_of_links : α) * link_length)) (force * link_length / (Polymers.BOLTZMANN_CONSTANT : α) / temperature) temperature * (Polymers.BOLTZMANN_CONSTANT : α) * temperature

/-- `src/physics/single_chain/wlc/thermodynamics/isotensional/mod.rs` lines 160-163. -/
def nondimensional_relative_gibbs_free_energy (number_of_links : Nat) (nondimensional_persistance_length : α) (nondimensional_force : α) : α :=
  Polymers.wlc.thermodynamics.isotensional.nondimensional_gibbs_free_energy number_of_links 1.0 1.0 nondimensional_persistance_length nondimensional_force 300.0 - Polymers.wlc.thermodynamics.isotensional.nondimensional_gibbs_free_energy number_of_links 1.0 1.0 nondimensional_persistance_length (Polymers.ZERO : α) 300.0

/-- `src/physics/single_chain/wlc/thermodynamics/isotensional/mod.rs` lines 113-116. -/
def relative_gibbs_free_energy (number_of_links : Nat) (link_length : α) (persistance_length : α) (force : α) (temperature : α) : α :=
  Polymers.wlc.thermodynamics.isotensional.nondimensional_relative_gibbs_free_energy number_of_links (persistance_length / ((number_of_links : α) * link_length)) (force * link_length / (Polymers.BOLTZMANN_CONSTANT : α) / temperature) * (Polymers.BOLTZMANN_CONSTANT : α) * temperature

/-- `src/physics/single_chain/wlc/thermodynamics/isotensional/mod.rs` lines 166-169. -/
def nondimensional_relative_gibbs_free_energy_per_link (number_of_links : Nat) (nondimensional_persistance_length : α) (nondimensional_force : α) : α :=
  Polymers.wlc.thermodynamics.isotensional.nondimensional_gibbs_free_energy_per_link number_of_links 1.0 1.0 nondimensional_persistance_length nondimensional_force 300.0 - Polymers.wlc.thermodynamics.isotensional.nondimensional_gibbs_free_energy_per_link number_of_links 1.0 1.0 nondimensional_persistance_length (Polymers.ZERO : α) 300.0

/-- `src/physics/single_chain/wlc/thermodynamics/isotensional/mod.rs` lines 119-122. -/
def relative_gibbs_free_energy_per_link (number_of_links : Nat) (link_length : α) (persistance_length : α) (force : α) (temperature : α) : α :=
  Polymers.wlc.thermodynamics.isotensional.nondimensional_relative_gibbs_free_energy_per_link number_of_links (persistance_length / ((number_of_links : α) * link_length)) (force * link_length / (Polymers.BOLTZMANN_CONSTANT : α) / temperature) * (Polymers.BOLTZMANN_CONSTANT : α) * temperature

/-- `src/physics/single_chain/wlc/thermodynamics/isotensional/mod.rs` lines 175-186. -/
def WLC.init (number_of_links : Nat) (link_length : α) (hinge_mass : α) (persistance_length : α) : Polymers.wlc.thermodynamics.isotensional.WLC α :=
  { hinge_mass := hinge_mass, link_length := link_length, number_of_links := number_of_links, persistance_length := persistance_length, nondimensional_persistance_length := persistance_length / (number_of_links : α) / link_length, legendre := Polymers.wlc.thermodynamics.isotensional.legendre.WLC.init number_of_links link_length hinge_mass persistance_length }

/-- `src/physics/single_chain/wlc/thermodynamics/isotensional/mod.rs` lines 188-191. -/
def WLC.end_to_end_length (self : Polymers.wlc.thermodynamics.isotensional.WLC α) (force : α) (temperature : α) : α :=
  Polymers.wlc.thermodynamics.isotensional.end_to_end_length self.number_of_links self.link_length self.persistance_length force temperature

/-- `src/physics/single_chain/wlc/thermodynamics/isotensional/mod.rs` lines 193-196. -/
def WLC.end_to_end_length_per_link (self : Polymers.wlc.thermodynamics.isotensional.WLC α) (force : α) (temperature : α) : α :=
  Polymers.wlc.thermodynamics.isotensional.end_to_end_length_per_link self.number_of_links self.link_length self.persistance_length force temperature

/-- `src/physics/single_chain/wlc/thermodynamics/isotensional/mod.rs` lines 198-201. -/
def WLC.nondimensional_end_to_end_length (self : Polymers.wlc.thermodynamics.isotensional.WLC α) (nondimensional_force : α) : α :=
  Polymers.wlc.thermodynamics.isotensional.nondimensional_end_to_end_length self.number_of_links self.nondimensional_persistance_length nondimensional_force

/-- `src/physics/single_chain/wlc/thermodynamics/isotensional/mod.rs` lines 203-206. -/
def WLC.nondimensional_end_to_end_length_per_link (self : Polymers.wlc.thermodynamics.isotensional.WLC α) (nondimensional_force : α) : α :=
  Polymers.wlc.thermodynamics.isotensional.nondimensional_end_to_end_length_per_link self.number_of_links self.nondimensional_persistance_length nondimensional_force

/-- `src/physics/single_chain/wlc/thermodynamics/isotensional/mod.rs` lines 208-211. -/
def WLC.gibbs_free_energy (self : Polymers.wlc.thermodynamics.isotensional.WLC α) (force : α) (temperature : α) : α :=
  Polymers.wlc.thermodynamics.isotensional.gibbs_free_energy self.number_of_links self.link_length self.hinge_mass self.persistance_length force temperature

/-- `src/physics/single_chain/wlc/thermodynamics/isotensional/mod.rs` lines 213-216. -/
def WLC.gibbs_free_energy_per_link (self : Polymers.wlc.thermodynamics.isotensional.WLC α) (force : α) (temperature : α) : α :=
  Polymers.wlc.thermodynamics.isotensional.gibbs_free_energy_per_link self.number_of_links self.link_length self.hinge_mass self.persistance_length force temperature

/-- `src/physics/single_chain/wlc/thermodynamics/isotensional/mod.rs` lines 218-221. -/
def WLC.relative_gibbs_free_energy (self : Polymers.wlc.thermodynamics.isotensional.WLC α) (force : α) (temperature : α) : α :=
  Polymers.wlc.thermodynamics.isotensional.relative_gibbs_free_energy self.number_of_links self.link_length self.persistance_length force temperature

/-- `src/physics/single_chain/wlc/thermodynamics/isotensional/mod.rs` lines 223-226. -/
def WLC.relative_gibbs_free_energy_per_link (self : Polymers.wlc.thermodynamics.isotensional.WLC α) (force : α) (temperature : α) : α :=
  Polymers.wlc.thermodynamics.isotensional.relative_gibbs_free_energy_per_link self.number_of_links self.link_length self.persistance_length force temperature

/-- `src/physics/single_chain/wlc/thermodynamics/isotensional/mod.rs` lines 228-231. -/
def WLC.nondimensional_gibbs_free_energy (self : Polymers.wlc.thermodynamics.isotensional.WLC α) (nondimensional_force : α) (temperature : α) : α :=
  Polymers.wlc.thermodynamics.isotensional.nondimensional_gibbs_free_energy self.number_of_links self.link_length self.hinge_mass self.nondimensional_persistance_length nondimensional_force temperature

/-- `src/physics/single_chain/wlc/thermodynamics/isotensional/mod.rs` lines 233-236. -/
def WLC.nondimensional_gibbs_free_energy_per_link (self : Polymers.wlc.thermodynamics.isotensional.WLC α) (nondimensional_force : α) (temperature : α) : α :=
  Polymers.wlc.thermodynamics.isotensional.nondimensional_gibbs_free_energy_per_link self.number_of_links self.link_length self.hinge_mass self.nondimensional_persistance_length nondimensional_force temperature

/-- `src/physics/single_chain/wlc/thermodynamics/isotensional/mod.rs` lines 238-241. -/
def WLC.nondimensional_relative_gibbs_free_energy (self : Polymers.wlc.thermodynamics.isotensional.WLC α) (nondimensional_force : α) : α :=
  Polymers.wlc.thermodynamics.isotensional.nondimensional_relative_gibbs_free_energy self.number_of_links self.nondimensional_persistance_length nondimensional_force

/-- `src/physics/single_chain/wlc/thermodynamics/isotensional/mod.rs` lines 243-246. -/
def WLC.nondimensional_relative_gibbs_free_energy_per_link (self : Polymers.wlc.thermodynamics.isotensional.WLC α) (nondimensional_force : α) : α :=
  Polymers.wlc.thermodynamics.isotensional.nondimensional_relative_gibbs_free_energy_per_link self.number_of_links self.nondimensional_persistance_length nondimensional_force

end Polymers.wlc.thermodynamics.isotensional

namespace Polymers.wlc.thermodynamics

/-- `src/physics/single_chain/wlc/thermodynamics/mod.rs` lines 13-32: struct `WLC`. -/
structure WLC (α : Type) where
  /-- field `hinge_mass` -/
  hinge_mass : α
  /-- field `link_length` -/
  link_length : α
  /-- field `number_of_links` -/
  number_of_links : Nat
  /-- field `persistance_length` -/
  persistance_length : α
  /-- field `isometric` -/
  isometric : Polymers.wlc.thermodynamics.isometric.WLC α
  /-- field `isotensional` -/
  isotensional : Polymers.wlc.thermodynamics.isotensional.WLC α

/-- `src/physics/single_chain/wlc/thermodynamics/mod.rs` lines 38-49. -/
def WLC.init (number_of_links : Nat) (link_length : α) (hinge_mass : α) (persistance_length : α) : Polymers.wlc.thermodynamics.WLC α :=
  { hinge_mass := hinge_mass, link_length := link_length, number_of_links := number_of_links, persistance_length := persistance_length, isometric := Polymers.wlc.thermodynamics.isometric.WLC.init number_of_links link_length hinge_mass persistance_length, isotensional := Polymers.wlc.thermodynamics.isotensional.WLC.init number_of_links link_length hinge_mass persistance_length }

end Polymers.wlc.thermodynamics

namespace Polymers.wlc

/-- `src/physics/single_chain/wlc/mod.rs` lines 10-26: struct `WLC`. -/
structure WLC (α : Type) where
  /-- field `hinge_mass` -/
  hinge_mass : α
  /-- field `link_length` -/
  link_length : α
  /-- field `number_of_links` -/
  number_of_links : Nat
  /-- field `persistance_length` -/
  persistance_length : α
  /-- field `thermodynamics` -/
  thermodynamics : Polymers.wlc.thermodynamics.WLC α

/-- `src/physics/single_chain/wlc/mod.rs` lines 32-42. -/
def WLC.init (number_of_links : Nat) (link_length : α) (hinge_mass : α) (persistance_length : α) : Polymers.wlc.WLC α :=
  { hinge_mass := hinge_mass, link_length := link_length, number_of_links := number_of_links, persistance_length := persistance_length, thermodynamics := Polymers.wlc.thermodynamics.WLC.init number_of_links link_length hinge_mass persistance_length }

end Polymers.wlc
