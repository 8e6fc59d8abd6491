import Verif.Model.Base

/-! Model of the Monte Carlo modules
`/repo/src/physics/single_chain/{fjc,frc,efjc,efrc}/thermodynamics/isometric/monte_carlo/mod.rs`.

The random number generator is an explicit argument: `draw i` holds the numbers which the `i`-th passage through the
link loop obtains from `rng` (and from the normal distribution `dist`).  Theorems quantify over all of them.
Const generics (`NUMBER_OF_LINKS`, `NUMBER_OF_BINS`) are ordinary arguments.  `[f64; 3]` is the structure `V3`. -/

namespace Polymers

variable {α : Type} [Add α] [Sub α] [Mul α] [Div α] [Neg α] [OfScientific α] [NatCast α] [Elem α]

/-- `[f64; 3]` (all four `monte_carlo/mod.rs`, e.g. `fjc/.../monte_carlo/mod.rs` line 11). -/
structure V3 (α : Type) where
  /-- entry 0 -/
  x : α
  /-- entry 1 -/
  y : α
  /-- entry 2 -/
  z : α

/-- `v.iter().map(|e| e * e).sum::<f64>().sqrt()`
(`fjc/thermodynamics/isometric/monte_carlo/mod.rs` line 28 and the other three modules). -/
def V3.norm (v : V3 α) : α := Elem.sqrt (fsum [v.x * v.x, v.y * v.y, v.z * v.z])

/-- `position += r`, entrywise (e.g. `frc/thermodynamics/isometric/monte_carlo/mod.rs` lines 41-43). -/
def V3.add (p r : V3 α) : V3 α := ⟨p.x + r.x, p.y + r.y, p.z + r.z⟩

/-- `[0.0; 3]`. -/
def V3.zero : V3 α := ⟨0.0, 0.0, 0.0⟩

/-- `configuration[NUMBER_OF_LINKS - 1]` followed by the norm
(`fjc/thermodynamics/isometric/monte_carlo/mod.rs` line 28 and the other three modules);
no links is an index failure. -/
def last_norm (configuration : List (V3 α)) : α :=
  match configuration.getLast? with
  | some v => v.norm
  | none => Elem.panic

/-- `std::f64::consts::TAU` (`fjc/thermodynamics/isometric/monte_carlo/mod.rs` line 5), as `2 * PI`. -/
def TWO_PI : α := 2.0 * Elem.pi

/-! ### Histogram -/

/-- `bin_edge = scale * (bin_index + 1)/NUMBER_OF_BINS`
(`frc/thermodynamics/isometric/monte_carlo/mod.rs` lines 61-64, `efjc` 40-43, `efrc` 64-67). -/
def bin_edges (gamma_max : α) (number_of_bins : Nat) : List α :=
  (List.range number_of_bins).map fun (bin_index : Nat) =>
    gamma_max * ((bin_index : α) + 1.0) / (number_of_bins : α)

/-- `bin_center = scale * (bin_index + 0.5)/NUMBER_OF_BINS`
(`frc/thermodynamics/isometric/monte_carlo/mod.rs` lines 87-90, `efjc` 66-69, `efrc` 90-93). -/
def bin_centers (gamma_max : α) (number_of_bins : Nat) : List α :=
  (List.range number_of_bins).map fun (bin_index : Nat) =>
    gamma_max * ((bin_index : α) + 0.5) / (number_of_bins : α)

/-- `bin_probability = bin_count/normalization`
(`fjc/thermodynamics/isometric/monte_carlo/mod.rs` lines 53-56 and the other three modules). -/
def bin_probabilities (normalization : α) (bin_counts : List Nat) : List α :=
  bin_counts.map fun (bin_count : Nat) => (bin_count : α) / normalization

/-- The `for` loop over `bin_edges.iter().zip(bin_counts.iter_mut())` with `break`, without the range check:
`fjc/thermodynamics/isometric/monte_carlo/mod.rs` lines 43-50. -/
def bin_sample (gamma : α) : List α → List Nat → List Nat
  | bin_edge :: edges, bin_count :: counts =>
    if Elem.lt gamma bin_edge then (bin_count + 1) :: counts
    else bin_count :: bin_sample gamma edges counts
  | _, counts => counts

/-- The same loop with the check `if gamma > gamma_max { panic!() }`:
`frc/thermodynamics/isometric/monte_carlo/mod.rs` lines 69-80, `efjc` 48-59, `efrc` 72-83.  `none` is the panic. -/
def bin_sample_checked (gamma_max gamma : α) : List α → List Nat → Option (List Nat)
  | bin_edge :: edges, bin_count :: counts =>
    if Elem.lt gamma_max gamma then none
    else if Elem.lt gamma bin_edge then some ((bin_count + 1) :: counts)
    else (bin_sample_checked gamma_max gamma edges counts).map fun rest => bin_count :: rest
  | _, counts => some counts

/-- `(0..number_of_samples).for_each(..)` of `fjc/thermodynamics/isometric/monte_carlo/mod.rs` lines 41-51, for a given
list of sampled extensions. -/
def bin_all (edges : List α) : List α → List Nat → List Nat
  | [], counts => counts
  | gamma :: gammas, counts => bin_all edges gammas (bin_sample gamma edges counts)

/-- `(0..number_of_samples).for_each(..)` of `frc/thermodynamics/isometric/monte_carlo/mod.rs` lines 67-81
(`efjc` 46-60, `efrc` 70-84), for a given list of sampled extensions. -/
def bin_all_checked (gamma_max : α) (edges : List α) : List α → List Nat → Option (List Nat)
  | [], counts => some counts
  | gamma :: gammas, counts =>
    (bin_sample_checked gamma_max gamma edges counts).bind fun counts' => bin_all_checked gamma_max edges gammas counts'

/-- The histogram part shared verbatim by `frc/thermodynamics/isometric/monte_carlo/mod.rs` lines 61-91,
`efjc` lines 40-70 and `efrc` lines 64-94, for a given list of sampled extensions. -/
def histogram_checked (gamma_max : α) (number_of_bins : Nat) (gammas : List α) : Option (List α × List α) :=
  (bin_all_checked gamma_max (bin_edges gamma_max number_of_bins) gammas (List.replicate number_of_bins 0)).map
    fun bin_counts =>
      (bin_centers gamma_max number_of_bins,
        bin_probabilities (gamma_max * (gammas.length : α) / (number_of_bins : α)) bin_counts)

/-! ### FJC -/

namespace fjc.thermodynamics.isometric.monte_carlo

/-- `fjc/thermodynamics/isometric/monte_carlo/mod.rs` lines 14-18: the increment of `position` from the
two random numbers drawn for this link. -/
def link (draw : α × α) : V3 α :=
  let phi : α := TWO_PI * draw.1
  let theta : α := Elem.acos (1.0 - 2.0 * draw.2)
  ⟨Elem.sin theta * Elem.cos phi, Elem.sin theta * Elem.sin phi, Elem.cos theta⟩

/-- `fjc/thermodynamics/isometric/monte_carlo/mod.rs` lines 13-22: the loop over the links from `position`. -/
def configuration_from : Nat → V3 α → (Nat → α × α) → List (V3 α)
  | 0, _, _ => []
  | n + 1, position, draw =>
    let position' := position.add (link (draw 0))
    position' :: configuration_from n position' (fun i => draw (i + 1))

/-- `fjc/thermodynamics/isometric/monte_carlo/mod.rs` lines 7-24. -/
def random_configuration (number_of_links : Nat) (draw : Nat → α × α) : List (V3 α) :=
  configuration_from number_of_links V3.zero draw

/-- `fjc/thermodynamics/isometric/monte_carlo/mod.rs` lines 26-29. -/
def random_nondimensional_end_to_end_length (number_of_links : Nat) (draw : Nat → α × α) : α :=
  last_norm (random_configuration number_of_links draw)

/-- `fjc/thermodynamics/isometric/monte_carlo/mod.rs` line 42: the extension of sample `sample`, which uses
the next `number_of_links` draws. -/
def sampled_gamma (number_of_links : Nat) (draw : Nat → α × α) (sample : Nat) : α :=
  random_nondimensional_end_to_end_length number_of_links (fun i => draw (sample * number_of_links + i))
    / (number_of_links : α)

/-- `fjc/thermodynamics/isometric/monte_carlo/mod.rs` lines 35-38. -/
def bin_edges (number_of_bins : Nat) : List α :=
  (List.range number_of_bins).map fun (bin_index : Nat) => ((bin_index : α) + 1.0) / (number_of_bins : α)

/-- `fjc/thermodynamics/isometric/monte_carlo/mod.rs` lines 57-60. -/
def bin_centers (number_of_bins : Nat) : List α :=
  (List.range number_of_bins).map fun (bin_index : Nat) => ((bin_index : α) + 0.5) / (number_of_bins : α)

/-- `fjc/thermodynamics/isometric/monte_carlo/mod.rs` lines 31-62. -/
def nondimensional_equilibrium_radial_distribution (number_of_bins number_of_links number_of_samples : Nat)
    (draw : Nat → α × α) : List α × List α :=
  let gammas : List α := (List.range number_of_samples).map (sampled_gamma number_of_links draw)
  let bin_counts : List Nat := bin_all (bin_edges number_of_bins) gammas (List.replicate number_of_bins 0)
  let normalization : α := (number_of_samples : α) / (number_of_bins : α)
  (bin_centers number_of_bins, bin_probabilities normalization bin_counts)

end fjc.thermodynamics.isometric.monte_carlo

/-! ### FRC -/

namespace frc.thermodynamics.isometric.monte_carlo

/-- `frc/thermodynamics/isometric/monte_carlo/mod.rs` lines 8-13. -/
def cross (u v : V3 α) : V3 α :=
  ⟨u.y * v.z - u.z * v.y, u.z * v.x - u.x * v.z, u.x * v.y - u.y * v.x⟩

/-- `frc/thermodynamics/isometric/monte_carlo/mod.rs` lines 30-40: the new link vector from the previous
one; `draw` is the number for `phi` and the three numbers for `t`. -/
def next_link (theta : α) (r : V3 α) (draw : α × V3 α) : V3 α :=
  let theta_cos : α := Elem.cos theta
  let theta_sin : α := Elem.sin theta
  let phi : α := TWO_PI * draw.1
  let phi_cos : α := Elem.cos phi
  let phi_sin : α := Elem.sin phi
  let t : V3 α := draw.2
  let u0 : V3 α := cross r t
  let u_normalization : α := u0.norm
  let u : V3 α := ⟨u0.x / u_normalization, u0.y / u_normalization, u0.z / u_normalization⟩
  let v : V3 α := cross r u
  ⟨(u.x * phi_cos + v.x * phi_sin) * theta_sin + r.x * theta_cos,
   (u.y * phi_cos + v.y * phi_sin) * theta_sin + r.y * theta_cos,
   (u.z * phi_cos + v.z * phi_sin) * theta_sin + r.z * theta_cos⟩

/-- `frc/thermodynamics/isometric/monte_carlo/mod.rs` lines 29-47: the loop over the links; the mutable
state is the last link vector `r` and `position`. -/
def configuration_from (theta : α) : Nat → V3 α → V3 α → (Nat → α × V3 α) → List (V3 α)
  | 0, _, _, _ => []
  | n + 1, r, position, draw =>
    let r' := next_link theta r (draw 0)
    let position' := position.add r'
    position' :: configuration_from theta n r' position' (fun i => draw (i + 1))

/-- `frc/thermodynamics/isometric/monte_carlo/mod.rs` lines 15-49. -/
def random_configuration (number_of_links : Nat) (theta : α) (draw : Nat → α × V3 α) : List (V3 α) :=
  configuration_from theta number_of_links ⟨1.0, 0.0, 0.0⟩ V3.zero draw

/-- `frc/thermodynamics/isometric/monte_carlo/mod.rs` lines 51-54. -/
def random_nondimensional_end_to_end_length (number_of_links : Nat) (theta : α) (draw : Nat → α × V3 α) : α :=
  last_norm (random_configuration number_of_links theta draw)

/-- `frc/thermodynamics/isometric/monte_carlo/mod.rs` line 68, for sample `sample`. -/
def sampled_gamma (number_of_links : Nat) (theta : α) (draw : Nat → α × V3 α) (sample : Nat) : α :=
  random_nondimensional_end_to_end_length number_of_links theta (fun i => draw (sample * number_of_links + i))
    / (number_of_links : α)

/-- `frc/thermodynamics/isometric/monte_carlo/mod.rs` line 60. -/
def gamma_max (theta : α) : α := Elem.sqrt (2.0 - 2.0 * Elem.cos (Elem.pi - theta)) / 2.0

/-- `frc/thermodynamics/isometric/monte_carlo/mod.rs` lines 56-92; `none` is the panic of line 73. -/
def nondimensional_equilibrium_radial_distribution (number_of_bins number_of_links : Nat) (theta : α)
    (number_of_samples : Nat) (draw : Nat → α × V3 α) : Option (List α × List α) :=
  histogram_checked (gamma_max theta) number_of_bins
    ((List.range number_of_samples).map (sampled_gamma number_of_links theta draw))

end frc.thermodynamics.isometric.monte_carlo

/-! ### EFJC -/

namespace efjc.thermodynamics.isometric.monte_carlo

/-- `efjc/thermodynamics/isometric/monte_carlo/mod.rs` lines 17-22: the increment of `position`; `draw` is the
sampled stretch `lambda` and the two uniform numbers. -/
def link (draw : α × α × α) : V3 α :=
  let lambda : α := draw.1
  let phi : α := TWO_PI * draw.2.1
  let theta : α := Elem.acos (1.0 - 2.0 * draw.2.2)
  ⟨lambda * (Elem.sin theta * Elem.cos phi), lambda * (Elem.sin theta * Elem.sin phi), lambda * Elem.cos theta⟩

/-- `efjc/thermodynamics/isometric/monte_carlo/mod.rs` lines 16-26. -/
def configuration_from : Nat → V3 α → (Nat → α × α × α) → List (V3 α)
  | 0, _, _ => []
  | n + 1, position, draw =>
    let position' := position.add (link (draw 0))
    position' :: configuration_from n position' (fun i => draw (i + 1))

/-- `efjc/thermodynamics/isometric/monte_carlo/mod.rs` lines 9-28. -/
def random_configuration (number_of_links : Nat) (draw : Nat → α × α × α) : List (V3 α) :=
  configuration_from number_of_links V3.zero draw

/-- `efjc/thermodynamics/isometric/monte_carlo/mod.rs` lines 30-33. -/
def random_nondimensional_end_to_end_length (number_of_links : Nat) (draw : Nat → α × α × α) : α :=
  last_norm (random_configuration number_of_links draw)

/-- `efjc/thermodynamics/isometric/monte_carlo/mod.rs` line 47, for sample `sample`. -/
def sampled_gamma (number_of_links : Nat) (draw : Nat → α × α × α) (sample : Nat) : α :=
  random_nondimensional_end_to_end_length number_of_links (fun i => draw (sample * number_of_links + i))
    / (number_of_links : α)

/-- `efjc/thermodynamics/isometric/monte_carlo/mod.rs` lines 35-71; `none` is the panic of line 52.  The stiffness
`kappa` enters only through the distribution of the stretches, that is through `draw`;
`Normal::new(1.0, 1.0/kappa.sqrt()).unwrap()` of line 38 fails unless `kappa` is positive. -/
def nondimensional_equilibrium_radial_distribution (number_of_bins number_of_links : Nat) (gamma_max kappa : α)
    (number_of_samples : Nat) (draw : Nat → α × α × α) : Option (List α × List α) :=
  if Elem.lt 0.0 kappa then
    histogram_checked gamma_max number_of_bins
      ((List.range number_of_samples).map (sampled_gamma number_of_links draw))
  else none

end efjc.thermodynamics.isometric.monte_carlo

/-! ### EFRC -/

namespace efrc.thermodynamics.isometric.monte_carlo

open frc.thermodynamics.isometric.monte_carlo (cross)

/-- `efrc/thermodynamics/isometric/monte_carlo/mod.rs` lines 29-43: the new link vector; `draw` is the
sampled stretch `lambda`, the number for `phi` and the three numbers for `t`. -/
def next_link (theta : α) (r : V3 α) (draw : α × α × V3 α) : V3 α :=
  let theta_cos : α := Elem.cos theta
  let theta_sin : α := Elem.sin theta
  let lambda : α := draw.1
  let r_normalization : α := r.norm
  let r_n : V3 α := ⟨r.x / r_normalization, r.y / r_normalization, r.z / r_normalization⟩
  let phi : α := TWO_PI * draw.2.1
  let phi_cos : α := Elem.cos phi
  let phi_sin : α := Elem.sin phi
  let t : V3 α := draw.2.2
  let u0 : V3 α := cross r_n t
  let u_normalization : α := u0.norm
  let u : V3 α := ⟨u0.x / u_normalization, u0.y / u_normalization, u0.z / u_normalization⟩
  let v : V3 α := cross r_n u
  ⟨lambda * ((u.x * phi_cos + v.x * phi_sin) * theta_sin + r_n.x * theta_cos),
   lambda * ((u.y * phi_cos + v.y * phi_sin) * theta_sin + r_n.y * theta_cos),
   lambda * ((u.z * phi_cos + v.z * phi_sin) * theta_sin + r_n.z * theta_cos)⟩

/-- `efrc/thermodynamics/isometric/monte_carlo/mod.rs` lines 28-50. -/
def configuration_from (theta : α) : Nat → V3 α → V3 α → (Nat → α × α × V3 α) → List (V3 α)
  | 0, _, _, _ => []
  | n + 1, r, position, draw =>
    let r' := next_link theta r (draw 0)
    let position' := position.add r'
    position' :: configuration_from theta n r' position' (fun i => draw (i + 1))

/-- `efrc/thermodynamics/isometric/monte_carlo/mod.rs` lines 11-52. -/
def random_configuration (number_of_links : Nat) (theta : α) (draw : Nat → α × α × V3 α) : List (V3 α) :=
  configuration_from theta number_of_links ⟨1.0, 0.0, 0.0⟩ V3.zero draw

/-- `efrc/thermodynamics/isometric/monte_carlo/mod.rs` lines 54-57. -/
def random_nondimensional_end_to_end_length (number_of_links : Nat) (theta : α) (draw : Nat → α × α × V3 α) : α :=
  last_norm (random_configuration number_of_links theta draw)

/-- `efrc/thermodynamics/isometric/monte_carlo/mod.rs` line 71, for sample `sample`. -/
def sampled_gamma (number_of_links : Nat) (theta : α) (draw : Nat → α × α × V3 α) (sample : Nat) : α :=
  random_nondimensional_end_to_end_length number_of_links theta (fun i => draw (sample * number_of_links + i))
    / (number_of_links : α)

/-- `efrc/thermodynamics/isometric/monte_carlo/mod.rs` lines 59-95; `none` is the panic of line 76.  The stiffness
`kappa` enters only through `draw`; `Normal::new(..).unwrap()` of line 62 fails unless `kappa` is positive. -/
def nondimensional_equilibrium_radial_distribution (number_of_bins number_of_links : Nat) (gamma_max kappa theta : α)
    (number_of_samples : Nat) (draw : Nat → α × α × V3 α) : Option (List α × List α) :=
  if Elem.lt 0.0 kappa then
    histogram_checked gamma_max number_of_bins
      ((List.range number_of_samples).map (sampled_gamma number_of_links theta draw))
  else none

end efrc.thermodynamics.isometric.monte_carlo

end Polymers
