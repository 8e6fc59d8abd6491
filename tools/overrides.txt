=== Polymers.fjc.thermodynamics.treloar_sums
/-- Checked `u128` multiplication as in a debug build: `none` on overflow
(used by `.product::<u128>()` in `src/physics/single_chain/fjc/thermodynamics/mod.rs` lines 64 and 74). -/
def checked_mul (a b : Nat) : Option Nat := if a * b < 2 ^ 128 then some (a * b) else none

/-- `(1..=n).product::<u128>()` of `src/physics/single_chain/fjc/thermodynamics/mod.rs` lines 64 and 74;
`none` when the multiplication overflows (a panic in a debug build). -/
def product_u128 : Nat → Option Nat
  | 0 => some 1
  | n + 1 => (product_u128 n).bind fun p => Polymers.fjc.thermodynamics.checked_mul p (n + 1)

/-- `n.pow(n as u32)` of `src/physics/single_chain/fjc/thermodynamics/mod.rs` line 74 for `u128`;
`none` when it overflows. -/
def pow_u128 (n e : Nat) : Option Nat := if n ^ e < 2 ^ 128 then some (n ^ e) else none

/-- `(1..=n).product()/(1..=s).product()/(1..=n-s).product()` of
`src/physics/single_chain/fjc/thermodynamics/mod.rs` lines 64 and 74; `none` when a product overflows or `n - s`
underflows. -/
def treloar_coefficient (n s : Nat) : Option Nat :=
  if n < s then none
  else (Polymers.fjc.thermodynamics.product_u128 n).bind fun a => (Polymers.fjc.thermodynamics.product_u128 s).bind fun b => (Polymers.fjc.thermodynamics.product_u128 (n - s)).map fun c => a / b / c

/-- `(number_of_links_f64*m).ceil() as u128` of `src/physics/single_chain/fjc/thermodynamics/mod.rs`
lines 63 and 73, with `m` of lines 62 and 72. -/
def treloar_k (number_of_links : Nat) (nondimensional_end_to_end_length_per_link : α) : Nat :=
  Elem.toNat (2 ^ 128 - 1)
    (Elem.ceil ((number_of_links : α) * ((-nondimensional_end_to_end_length_per_link) * 0.5 + 0.5)))

/-- One sum over `s` of `src/physics/single_chain/fjc/thermodynamics/mod.rs` lines 64 and 74, with `exponent` the
argument of `powi`.  `0..=k-1` panics for `k = 0`; so does a failed coefficient. -/
def treloar_sum (number_of_links : Nat) (nondimensional_end_to_end_length_per_link : α) (exponent : Int) : α :=
  let m : α := (-nondimensional_end_to_end_length_per_link) * 0.5 + 0.5
  let k : Nat := Polymers.fjc.thermodynamics.treloar_k number_of_links nondimensional_end_to_end_length_per_link
  if k == 0 then Elem.panic
  else
    Polymers.fsum ((List.range k).map fun (s : Nat) =>
      match Polymers.fjc.thermodynamics.treloar_coefficient number_of_links s with
      | some c => Elem.powf (-1.0) (s : α) * (c : α) * Elem.powi (m - (s : α) / (number_of_links : α)) exponent
      | none => Elem.panic)

/-- @CITE@.  `number_of_links - 2` is a checked `u8` subtraction.  Debug-build semantics: a release build
would wrap around silently instead of panicking. -/
def treloar_sums (number_of_links : Nat) (nondimensional_end_to_end_length_per_link : α) (orders : List Int) : List α :=
  orders.map fun order =>
    if number_of_links < 2 then Elem.panic
    else Polymers.fjc.thermodynamics.treloar_sum number_of_links nondimensional_end_to_end_length_per_link ((number_of_links : Int) - 2 - order)
=== Polymers.fjc.thermodynamics.treloar_sum_0_with_prefactor
/-- @CITE@.  Debug-build semantics, as for `treloar_sums`. -/
def treloar_sum_0_with_prefactor (number_of_links : Nat) (nondimensional_end_to_end_length_per_link : α) : α :=
  if number_of_links < 2 then Elem.panic
  else
    match Polymers.fjc.thermodynamics.pow_u128 number_of_links number_of_links, Polymers.fjc.thermodynamics.product_u128 (number_of_links - 2) with
    | some q, some r =>
      0.125 / (Elem.pi : α) / nondimensional_end_to_end_length_per_link * (q : α) / (r : α)
        * Polymers.fjc.thermodynamics.treloar_sum number_of_links nondimensional_end_to_end_length_per_link ((number_of_links : Int) - 2)
    | _, _ => Elem.panic
