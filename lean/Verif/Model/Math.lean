import Verif.Model.MathTables

/-! Model of `/repo/src/math/mod.rs`. -/

namespace Polymers.math

variable {α : Type} [Add α] [Sub α] [Mul α] [Div α] [Neg α] [OfScientific α] [NatCast α] [Elem α]

/-- `src/math/mod.rs` lines 3-16: the `while` loop of `inverse_newton_raphson_powered`.  The first
natural number is `max_iters - iters`, the iterations still allowed; `x` and `residual_rel` are the mutable
variables.  `power` (an `i32`) is a natural number here: every caller passes a positive literal. -/
def inverse_newton_raphson_powered_loop (y : α) (f fp : α → α) (rel_tol : α) (power : Nat) : Nat → α → α → α
  | 0, x, _ => x
  | remaining + 1, x, residual_rel =>
    if Elem.lt rel_tol residual_rel then
      let f_adj : α := f x - y
      let y_minus_f : α := -(Elem.powi f_adj (power : Int))
      inverse_newton_raphson_powered_loop y f fp rel_tol power remaining
        (x + y_minus_f / Elem.powi f_adj ((power : Int) - 1) / fp x / (power : α))
        (Elem.abs (f_adj / y))
    else x

/-- `src/math/mod.rs` lines 1-17. -/
def inverse_newton_raphson_powered (y : α) (f fp : α → α) (guess rel_tol : α) (max_iters power : Nat) : α :=
  inverse_newton_raphson_powered_loop y f fp rel_tol power max_iters guess 1.0

/-- `src/math/mod.rs` lines 21-32: the `while` loop of `inverse_newton_raphson`.  The first natural
number is `max_iters - iters`, the iterations still allowed. -/
def inverse_newton_raphson_loop (y : α) (f fp : α → α) (rel_tol : α) : Nat → α → α → α
  | 0, x, _ => x
  | remaining + 1, x, residual_rel =>
    if Elem.lt rel_tol residual_rel then
      let y_minus_f : α := y - f x
      inverse_newton_raphson_loop y f fp rel_tol remaining
        (x + y_minus_f / fp x) (Elem.abs (y_minus_f / y))
    else x

/-- `src/math/mod.rs` lines 19-33. -/
def inverse_newton_raphson (y : α) (f fp : α → α) (guess rel_tol : α) (max_iters : Nat) : α :=
  inverse_newton_raphson_loop y f fp rel_tol max_iters guess 1.0

/-- `src/math/mod.rs` lines 35-45. -/
def inverse_langevin (y : α) : α :=
  if Elem.le y 1e-3 then 3.0 * y
  else
    inverse_newton_raphson y (fun (x : α) => 1.0 / Elem.tanh x - 1.0 / x)
      (fun (x : α) => 1.0 / Elem.powi x 2 - 1.0 / Elem.powi (Elem.sinh x) 2)
      ((2.14234 * Elem.powi y 3 - 4.22785 * Elem.powi y 2 + 3.0 * y) / (1.0 - y)
        / (0.71716 * Elem.powi y 3 - 0.41103 * Elem.powi y 2 - 0.39165 * y + 1.0))
      1e-6 100

/-- `src/math/mod.rs` lines 47-51. -/
def integrate_1d (f : α → α) (x_min x_max : α) (num_points : Nat) : α :=
  let dx : α := (x_max - x_min) / (num_points : α)
  fsum ((List.range num_points).map fun (index : Nat) => f (x_min + (0.5 + (index : α)) * dx)) * dx

/-- `src/math/mod.rs` lines 53-56. -/
def integrate_1d_grid (f : α → α) (grid : List α) (dx : α) : α :=
  fsum (grid.map f) * dx

/-- `src/math/mod.rs` lines 58-65. -/
def integrate_2d (f : α → α → α) (x_min x_max y_min y_max : α) (num_points : Nat) : α :=
  let dx : α := (x_max - x_min) / (num_points : α)
  let dy : α := (y_max - y_min) / (num_points : α)
  let grid_x : List α := (List.range num_points).map fun (index : Nat) => x_min + (0.5 + (index : α)) * dx
  let grid_y : List α := (List.range num_points).map fun (index : Nat) => y_min + (0.5 + (index : α)) * dy
  fsum (grid_x.flatMap fun x => grid_y.map fun y => f x y) * dx * dy

/-- `src/math/mod.rs` lines 67-72. -/
def integrate_2d_symmetric (f : α → α → α) (x_min x_max : α) (num_points : Nat) : α :=
  let dx : α := (x_max - x_min) / (num_points : α)
  let grid : List α := (List.range num_points).map fun (index : Nat) => x_min + (0.5 + (index : α)) * dx
  fsum (grid.flatMap fun x => grid.map fun y => f x y) * Elem.powi dx 2

/-- `src/math/mod.rs` lines 74-77. -/
def integrate_2d_grid (f : α → α → α) (grid_x grid_y : List α) (da : α) : α :=
  fsum (grid_x.flatMap fun x => grid_y.map fun y => f x y) * da

/-- `src/math/mod.rs` lines 79-82. -/
def integrate_2d_symmetric_grid (f : α → α → α) (grid : List α) (da : α) : α :=
  fsum (grid.flatMap fun x => grid.map fun y => f x y) * da

/-- `src/math/mod.rs` lines 88-91: the body of the loop of `lambert_w` (one update of `w`). -/
def lambert_w_update (x w : α) : α :=
  w - (w * Elem.exp w - x)
    / (Elem.exp w * (w + 1.0) - (w + 2.0) * (w * Elem.exp w - x) / (2.0 * w + 2.0))

/-- `src/math/mod.rs` lines 88-92: `for _ in 0..n` around the update. -/
def lambert_w_loop (x : α) : Nat → α → α
  | 0, w => w
  | n + 1, w => lambert_w_loop x n (lambert_w_update x w)

/-- `src/math/mod.rs` line 86: the number of updates. -/
def lambert_w_amount_of_iterations (x : α) : Nat :=
  max (Elem.toNat 255 (Elem.ceil (Elem.log10 x / 3.0))) 4

/-- `src/math/mod.rs` lines 84-93. -/
def lambert_w (x : α) : α :=
  lambert_w_loop x (lambert_w_amount_of_iterations x) (0.75 * Elem.ln (x + 1.0))

/-- `coefficients.iter().enumerate().map(|(i, c)| c*t.powi(i)).sum()` of `src/math/mod.rs` line 133 (also lines 200
and 202). -/
def power_sum (coefficients : List α) (t : α) : α :=
  fsum (coefficients.mapIdx fun i c => c * Elem.powi t (i : Int))

/-- `coefficients.iter().enumerate().map(|(i, c)| c/x.powi(i)).sum()` of `src/math/mod.rs` line 161 (also lines 173,
230 and 242). -/
def inverse_power_sum (coefficients : List α) (x : α) : α :=
  fsum (coefficients.mapIdx fun i c => c / Elem.powi x (i : Int))

/-- `src/math/mod.rs` lines 111-175. -/
def bessel_i0 (x : α) : α :=
  if Elem.lt x 7.75 then
    let t : α := 0.25 * Elem.powi x 2
    1.0 + t * power_sum bessel_i0_small t
  else if Elem.lt x 500.0 then
    Elem.exp x / Elem.sqrt x * inverse_power_sum bessel_i0_medium x
  else
    let expf : α := Elem.exp (0.5 * x)
    (expf / Elem.sqrt x * inverse_power_sum bessel_i0_large x) * expf

/-- `src/math/mod.rs` lines 177-244. -/
def bessel_i1 (x : α) : α :=
  if Elem.lt x 7.75 then
    let t : α := 0.25 * Elem.powi x 2
    let more_coefficients : List α := [1.0, 0.5, power_sum bessel_i1_small t]
    0.5 * x * power_sum more_coefficients t
  else if Elem.lt x 500.0 then
    Elem.exp x / Elem.sqrt x * inverse_power_sum bessel_i1_medium x
  else
    let expf : α := Elem.exp (0.5 * x)
    (expf / Elem.sqrt x * inverse_power_sum bessel_i1_large x) * expf

/-- `src/math/mod.rs` lines 95-109. -/
def bessel_i (nu : Nat) (x : α) : α :=
  if nu == 0 then bessel_i0 x
  else if nu == 1 then bessel_i1 x
  else -1.0

/-- The nested expression `c0 + (c1 + (c2 + ... + c6*t)*t)*t` of each arm of `erfcx_helper`
(`src/math/mod.rs` line 297 and the 99 arms after it). -/
def horner (t : α) : List α → α
  | [] => 0.0
  | [c] => c
  | c :: cs => c + horner t cs * t

/-- `src/math/mod.rs` lines 290-800.  The hundred arms of the `match` are the rows of `erfcx_table`. -/
def erfcx_helper (z : α) : α :=
  match erfcx_table[Elem.toNat 255 z]? with
  | some (shift, coefficients) => horner (2.0 * z - shift) coefficients
  | none => 1.0

/-- `src/math/mod.rs` lines 256-288. -/
def erfcx (x : α) : α :=
  if Elem.le 0.0 x then
    if Elem.le 50.0 x then
      if Elem.lt 5e7 x then 0.5641895835477563 / x
      else
        0.5641895835477563 * (Elem.powi x 2 * (Elem.powi x 2 + 4.5) + 2.0)
          / (x * (Elem.powi x 2 * (Elem.powi x 2 + 5.0) + 3.75))
    else erfcx_helper (400.0 / (4.0 + x))
  else if Elem.lt x (-26.7) then Elem.maxFin
  else if Elem.lt x (-6.1) then 2.0 * Elem.exp (Elem.powi x 2)
  else 2.0 * Elem.exp (Elem.powi x 2) - erfcx_helper (400.0 / (4.0 - x))

/-- `src/math/mod.rs` lines 251-254. -/
def erfc (x : α) : α := erfcx x / Elem.exp (Elem.powi x 2)

/-- `src/math/mod.rs` lines 246-249. -/
def erf (x : α) : α := 1.0 - erfc x

end Polymers.math
