import Verif.Model.Efjc

/-! Model of `/repo/src/constitutive`.  A panic is `none`. Arrays of `NUMGRID` entries are lists. -/

namespace Polymers.constitutive

variable {α : Type} [Add α] [Sub α] [Mul α] [Div α] [Neg α] [OfScientific α] [NatCast α] [Elem α]

open Polymers.efjc.thermodynamics.isometric.asymptotic.reduced.legendre
  (nondimensional_force nondimensional_relative_helmholtz_free_energy)

/-- `array::from_fn` with `NUMGRID` entries (`src/constitutive/hyperelastic/buche_silberstein/mod.rs` lines 39-45). -/
def from_fn (n : Nat) (f : Nat → α) : List α := (List.range n).map f

/-- The common numerator of `element_ij`: `src/constitutive/hyperelastic/buche_silberstein/mod.rs` lines 49-51 up to
and including `/ (z_i.powi(2) + r_j.powi(2)).sqrt()`, and
`src/constitutive/hyperelastic_damage/buche_silberstein/mod.rs` lines 51-53 likewise. -/
def element_numerator (nondimensional_link_stiffness : α) (number_of_links : Nat) (z_i r_j : α) : α :=
  nondimensional_force nondimensional_link_stiffness (Elem.sqrt (Elem.powi z_i 2 + Elem.powi r_j 2))
    * (2.0 * Elem.powi z_i 2 - Elem.powi r_j 2) * 2.0 * (Elem.pi : α) * (number_of_links : α) * r_j
    / Elem.sqrt (Elem.powi z_i 2 + Elem.powi r_j 2)

/-- `factor` for method 3: `src/constitutive/hyperelastic/buche_silberstein/mod.rs` lines 66-68 and
`src/constitutive/hyperelastic_damage/buche_silberstein/mod.rs` lines 68-70. -/
def method_3_factor (nondimensional_link_stiffness : α) (number_of_links : Nat) : α :=
  1.5 * (number_of_links : α) * nondimensional_link_stiffness * (nondimensional_link_stiffness + 1.0)
    / (Elem.powi nondimensional_link_stiffness 2 + 6.0 * nondimensional_link_stiffness + 3.0)

namespace hyperelastic.buche_silberstein

/-- `src/constitutive/hyperelastic/buche_silberstein/mod.rs` line 18. -/
def NUMGRID : Nat := 256

/-- `src/constitutive/hyperelastic/buche_silberstein/mod.rs` lines 38-41: `w`. -/
def w : List α :=
  let num_grid : α := (NUMGRID : α) + 1.0
  from_fn NUMGRID fun (i : Nat) => ((i + 1 : Nat) : α) / num_grid

/-- `src/constitutive/hyperelastic/buche_silberstein/mod.rs` line 42: `dw`. -/
def dw : α := (w : List α).getD 1 Elem.panic - (w : List α).getD 0 Elem.panic

/-- `src/constitutive/hyperelastic/buche_silberstein/mod.rs` lines 43-45: `grid`. -/
def grid : List α := from_fn NUMGRID fun (i : Nat) => Elem.atanh ((w : List α).getD i Elem.panic)

/-- `src/constitutive/hyperelastic/buche_silberstein/mod.rs` lines 21-34: struct `BucheSilberstein`. -/
structure BucheSilberstein (α : Type) where
  /-- field `element` -/
  element : List (List α)
  /-- field `factor` -/
  factor : α
  /-- field `grid` -/
  grid : List α
  /-- field `method` -/
  method : Nat
  /-- field `normalization` -/
  normalization : α
  /-- field `nondimensional_link_stiffness` -/
  nondimensional_link_stiffness : α
  /-- field `number_of_links` -/
  number_of_links : Nat

/-- `src/constitutive/hyperelastic/buche_silberstein/mod.rs` lines 46-53: `element`. -/
def element (nondimensional_link_stiffness : α) (number_of_links : Nat) : List (List α) :=
  ((grid : List α).zip w).map fun zw_i =>
    ((grid : List α).zip w).map fun rw_j =>
      element_numerator nondimensional_link_stiffness number_of_links zw_i.1 rw_j.1
        / (1.0 - Elem.powi zw_i.2 2) / (1.0 - Elem.powi rw_j.2 2) * Elem.powi (dw : α) 2

/-- `src/constitutive/hyperelastic/buche_silberstein/mod.rs` lines 36-77. -/
def init (method : Nat) (nondimensional_link_stiffness : α) (number_of_links : Nat) :
    Option (List (List α) × α × List α × α) :=
  match method with
  | 1 => none
  | 2 =>
    some (element nondimensional_link_stiffness number_of_links, 0.0, grid,
      fsum (((grid : List α).zip w).map fun gw =>
        Elem.powi gw.1 2 / (1.0 - Elem.powi gw.2 2)
          / Elem.exp (nondimensional_relative_helmholtz_free_energy number_of_links nondimensional_link_stiffness gw.1))
        * 4.0 * (Elem.pi : α) * dw)
  | 3 =>
    let factor : α := method_3_factor nondimensional_link_stiffness number_of_links
    some (element nondimensional_link_stiffness number_of_links, factor, grid,
      fsum (((grid : List α).zip w).map fun gw =>
        Elem.powi gw.1 2 / (1.0 - Elem.powi gw.2 2) / Elem.exp (factor * Elem.powi gw.1 2))
        * 4.0 * (Elem.pi : α) * dw)
  | _ => none

/-- `src/constitutive/hyperelastic/buche_silberstein/mod.rs` lines 80-102. -/
def uniaxial_tension (element : List (List α)) (factor : α) (grid : List α) (normalization : α) (method : Nat)
    (nondimensional_link_stiffness : α) (number_of_links : Nat) (stretch : α) : Option α :=
  match method with
  | 1 => none
  | 2 =>
    some (fsum ((element.zip grid).flatMap fun ez =>
      (ez.1.zip grid).map fun er =>
        er.1 / Elem.exp (nondimensional_relative_helmholtz_free_energy number_of_links nondimensional_link_stiffness
          (Elem.sqrt (Elem.powi (ez.2 / stretch) 2 + stretch * Elem.powi er.2 2)))) / normalization)
  | 3 =>
    some (fsum ((element.zip grid).flatMap fun ez =>
      (ez.1.zip grid).map fun er =>
        er.1 / Elem.exp (factor * (Elem.powi (ez.2 / stretch) 2 + stretch * Elem.powi er.2 2))) / normalization)
  | _ => none

/-- `src/constitutive/hyperelastic/buche_silberstein/mod.rs` lines 105-127. -/
def equibiaxial_tension (element : List (List α)) (factor : α) (grid : List α) (normalization : α) (method : Nat)
    (nondimensional_link_stiffness : α) (number_of_links : Nat) (stretch : α) : Option α :=
  match method with
  | 1 => none
  | 2 =>
    some (fsum ((element.zip grid).flatMap fun ez =>
      (ez.1.zip grid).map fun er =>
        (-er.1) / Elem.exp (nondimensional_relative_helmholtz_free_energy number_of_links nondimensional_link_stiffness
          (Elem.sqrt (Elem.powi (ez.2 * Elem.powi stretch 2) 2 + Elem.powi (er.2 / stretch) 2)))) / normalization)
  | 3 =>
    some (fsum ((element.zip grid).flatMap fun ez =>
      (ez.1.zip grid).map fun er =>
        (-er.1) / Elem.exp (factor * (Elem.powi (ez.2 * Elem.powi stretch 2) 2 + Elem.powi (er.2 / stretch) 2)))
        / normalization)
  | _ => none

/-- `src/constitutive/hyperelastic/buche_silberstein/mod.rs` lines 136-149. -/
def BucheSilberstein.init (method : Nat) (nondimensional_link_stiffness : α) (number_of_links : Nat) :
    Option (BucheSilberstein α) :=
  (buche_silberstein.init method nondimensional_link_stiffness number_of_links).map fun e =>
    { element := e.1, factor := e.2.1, grid := e.2.2.1, method := method, normalization := e.2.2.2,
      nondimensional_link_stiffness := nondimensional_link_stiffness, number_of_links := number_of_links }

/-- `src/constitutive/hyperelastic/buche_silberstein/mod.rs` lines 151-154. -/
def BucheSilberstein.uniaxial_tension (self : BucheSilberstein α) (stretch : α) : Option α :=
  buche_silberstein.uniaxial_tension self.element self.factor self.grid self.normalization self.method
    self.nondimensional_link_stiffness self.number_of_links stretch

/-- `src/constitutive/hyperelastic/buche_silberstein/mod.rs` lines 156-159. -/
def BucheSilberstein.equibiaxial_tension (self : BucheSilberstein α) (stretch : α) : Option α :=
  buche_silberstein.equibiaxial_tension self.element self.factor self.grid self.normalization self.method
    self.nondimensional_link_stiffness self.number_of_links stretch

end hyperelastic.buche_silberstein

namespace hyperelastic_damage.buche_silberstein

/-- `src/constitutive/hyperelastic_damage/buche_silberstein/mod.rs` line 18. -/
def NUMGRID : Nat := 256

/-- `src/constitutive/hyperelastic_damage/buche_silberstein/mod.rs` lines 44-46: `grid`. -/
def grid (nondimensional_critical_extension : α) : List α :=
  from_fn NUMGRID fun (i : Nat) => nondimensional_critical_extension * ((i + 1 : Nat) : α) / (NUMGRID : α)

/-- `src/constitutive/hyperelastic_damage/buche_silberstein/mod.rs` line 47: `dz` (also `grid[1] - grid[0]` of lines
110 and 128). -/
def spacing (grid : List α) : α := grid.getD 1 Elem.panic - grid.getD 0 Elem.panic

/-- `src/constitutive/hyperelastic_damage/buche_silberstein/mod.rs` lines 21-40: struct `BucheSilberstein`. -/
structure BucheSilberstein (α : Type) where
  /-- field `element` -/
  element : List (List α)
  /-- field `factor` -/
  factor : α
  /-- field `grid` -/
  grid : List α
  /-- field `method` -/
  method : Nat
  /-- field `normalization` -/
  normalization : α
  /-- field `nondimensional_critical_extension` -/
  nondimensional_critical_extension : α
  /-- field `nondimensional_link_stiffness` -/
  nondimensional_link_stiffness : α
  /-- field `number_of_links` -/
  number_of_links : Nat
  /-- field `swelling_ratio` -/
  swelling_ratio : α

/-- `src/constitutive/hyperelastic_damage/buche_silberstein/mod.rs` lines 48-55: `element`. -/
def element (nondimensional_critical_extension nondimensional_link_stiffness : α) (number_of_links : Nat)
    (swelling_ratio : α) : List (List α) :=
  (grid nondimensional_critical_extension).map fun z_i =>
    (grid nondimensional_critical_extension).map fun r_j =>
      element_numerator nondimensional_link_stiffness number_of_links z_i r_j
        * Elem.powi (spacing (grid nondimensional_critical_extension)) 2 / Elem.powi swelling_ratio 3

/-- `src/constitutive/hyperelastic_damage/buche_silberstein/mod.rs` lines 42-79. -/
def init (method : Nat) (nondimensional_critical_extension nondimensional_link_stiffness : α) (number_of_links : Nat)
    (swelling_ratio : α) : Option (List (List α) × α × List α × α) :=
  let g : List α := grid nondimensional_critical_extension
  let dz : α := spacing g
  match method with
  | 1 => none
  | 2 =>
    some (element nondimensional_critical_extension nondimensional_link_stiffness number_of_links swelling_ratio, 0.0, g,
      fsum (g.map fun gamma_i =>
        Elem.powi gamma_i 2
          / Elem.exp (nondimensional_relative_helmholtz_free_energy number_of_links nondimensional_link_stiffness gamma_i))
        * 4.0 * (Elem.pi : α) * dz / swelling_ratio)
  | 3 =>
    let factor : α := method_3_factor nondimensional_link_stiffness number_of_links
    some (element nondimensional_critical_extension nondimensional_link_stiffness number_of_links swelling_ratio, factor, g,
      fsum (g.map fun gamma_i => Elem.powi gamma_i 2 / Elem.exp (factor * Elem.powi gamma_i 2))
        * 4.0 * (Elem.pi : α) * dz / swelling_ratio)
  | _ => none

/-- The survival test of `src/constitutive/hyperelastic_damage/buche_silberstein/mod.rs` lines 95-98 (also 105-108,
115-118 and 123-126): the boolean cast through `u8` to `f64`. -/
def survives (nondimensional_critical_extension stretch maximum_previous_stretch z_i r_j : α) : α :=
  ((if Elem.le
      (Elem.sqrt (Elem.powi (z_i * maximum_previous_stretch / stretch) 2
        + stretch / maximum_previous_stretch * Elem.powi r_j 2))
      nondimensional_critical_extension then 1 else 0 : Nat) : α)

/-- `src/constitutive/hyperelastic_damage/buche_silberstein/mod.rs` lines 82-133: the pair
`[cauchy_stress, total_probability]`; `none` is a failed assertion or a panic. -/
def uniaxial_tension (element : List (List α)) (factor : α) (grid : List α) (normalization : α) (method : Nat)
    (nondimensional_critical_extension nondimensional_link_stiffness : α) (number_of_links : Nat)
    (swelling_ratio stretch maximum_previous_stretch : α) : Option (α × α) :=
  if Elem.le 1.0 stretch then
    let j_1_3 : α := Elem.powf swelling_ratio (1.0 / 3.0)
    match method with
    | 1 => none
    | 2 =>
      let weight : α → α → α := fun z_i r_j =>
        Elem.exp (nondimensional_relative_helmholtz_free_energy number_of_links nondimensional_link_stiffness
          (Elem.sqrt (Elem.powi (z_i / stretch) 2 + stretch * Elem.powi r_j 2)))
      some
        (fsum ((element.zip grid).flatMap fun ez =>
          (ez.1.zip grid).map fun er =>
            er.1 / weight ez.2 er.2
              * survives nondimensional_critical_extension stretch maximum_previous_stretch ez.2 er.2) / normalization,
         fsum (grid.flatMap fun z_i =>
          grid.map fun r_j =>
            r_j / weight z_i r_j
              * survives nondimensional_critical_extension stretch maximum_previous_stretch z_i r_j)
          / normalization * 4.0 * (Elem.pi : α) * Elem.powi (spacing grid / swelling_ratio) 2)
    | 3 =>
      let weight : α → α → α := fun z_i r_j =>
        Elem.exp (factor * (Elem.powi (z_i / stretch) 2 + stretch * Elem.powi r_j 2) / Elem.powi j_1_3 2)
      some
        (fsum ((element.zip grid).flatMap fun ez =>
          (ez.1.zip grid).map fun er =>
            er.1 / weight ez.2 er.2
              * survives nondimensional_critical_extension stretch maximum_previous_stretch ez.2 er.2) / normalization,
         fsum (grid.flatMap fun z_i =>
          grid.map fun r_j =>
            r_j / weight z_i r_j
              * survives nondimensional_critical_extension stretch maximum_previous_stretch z_i r_j)
          / normalization * 4.0 * (Elem.pi : α) * Elem.powi (spacing grid / swelling_ratio) 2)
    | _ => none
  else none

/-- `src/constitutive/hyperelastic_damage/buche_silberstein/mod.rs` lines 142-157. -/
def BucheSilberstein.init (method : Nat) (nondimensional_critical_extension nondimensional_link_stiffness : α)
    (number_of_links : Nat) (swelling_ratio : α) : Option (BucheSilberstein α) :=
  (buche_silberstein.init method nondimensional_critical_extension nondimensional_link_stiffness number_of_links
      swelling_ratio).map fun e =>
    { element := e.1, factor := e.2.1, grid := e.2.2.1, method := method, normalization := e.2.2.2,
      nondimensional_critical_extension := nondimensional_critical_extension,
      nondimensional_link_stiffness := nondimensional_link_stiffness, number_of_links := number_of_links,
      swelling_ratio := swelling_ratio }

/-- `src/constitutive/hyperelastic_damage/buche_silberstein/mod.rs` lines 162-170: the closure given to `from_fn`, run
over the stretches in order with the mutable `maximum_previous_stretch`. -/
def BucheSilberstein.uniaxial_tension_loop (self : BucheSilberstein α) : α → List α → Option (List (α × α))
  | _, [] => some []
  | maximum_previous_stretch, stretch :: rest =>
    let maximum_previous_stretch' : α :=
      if Elem.lt maximum_previous_stretch stretch then stretch else maximum_previous_stretch
    (buche_silberstein.uniaxial_tension self.element self.factor self.grid self.normalization self.method
        self.nondimensional_critical_extension self.nondimensional_link_stiffness self.number_of_links
        self.swelling_ratio stretch maximum_previous_stretch').bind fun out =>
      (self.uniaxial_tension_loop maximum_previous_stretch' rest).map fun outs => out :: outs

/-- `src/constitutive/hyperelastic_damage/buche_silberstein/mod.rs` lines 159-171.  `L` is the const
generic; `stretch[i]` fails when `L` exceeds the number of stretches. -/
def BucheSilberstein.uniaxial_tension (L : Nat) (self : BucheSilberstein α) (stretch : List α) :
    Option (List (α × α)) :=
  if stretch.length < L then none else self.uniaxial_tension_loop 1.0 (stretch.take L)

end hyperelastic_damage.buche_silberstein

end Polymers.constitutive
