import Verif.Model.Constitutive
import Verif.Model.PythonBase

/-! Model of the Python classes and the C functions of `/repo/src/constitutive`.  As in `Verif/Model/Constitutive.lean` a panic is
`none`; a `numpy` array is its shape and its entries. -/

namespace Polymers.Python.constitutive.hyperelastic.buche_silberstein

open Polymers.constitutive.hyperelastic

variable {α : Type} [Add α] [Sub α] [Mul α] [Div α] [Neg α] [OfScientific α] [NatCast α] [Elem α]

/-- `src/constitutive/hyperelastic/buche_silberstein/py.rs` lines 26-41: class `BucheSilberstein`. -/
structure BucheSilberstein (α : Type) where
  /-- field `element` -/
  element : List (List α)
  /-- field `factor` -/
  factor : α
  /-- field `grid` -/
  grid : List α
  /-- field `method` -/
  method : Nat
  /-- field `normalization` -/
  normalization : α
  /-- field `nondimensional_link_stiffness` -/
  nondimensional_link_stiffness : α
  /-- field `number_of_links` -/
  number_of_links : Nat

/-- `src/constitutive/hyperelastic/buche_silberstein/py.rs` lines 47-60. -/
def BucheSilberstein.init (method : Nat) (nondimensional_link_stiffness : α) (number_of_links : Nat) :
    Option (BucheSilberstein α) :=
  (buche_silberstein.init method nondimensional_link_stiffness number_of_links).map fun e =>
    { element := e.1, factor := e.2.1, grid := e.2.2.1, method := method, normalization := e.2.2.2,
      nondimensional_link_stiffness := nondimensional_link_stiffness, number_of_links := number_of_links }

/-- `src/constitutive/hyperelastic/buche_silberstein/py.rs` lines 74-82. -/
def BucheSilberstein.uniaxial_tension (self : BucheSilberstein α) (stretch : NdArray α) : Option (NdArray α) :=
  stretch.mapvM fun stretch =>
    buche_silberstein.uniaxial_tension self.element self.factor self.grid self.normalization self.method
      self.nondimensional_link_stiffness self.number_of_links stretch

/-- `src/constitutive/hyperelastic/buche_silberstein/py.rs` lines 96-104. -/
def BucheSilberstein.equibiaxial_tension (self : BucheSilberstein α) (stretch : NdArray α) : Option (NdArray α) :=
  stretch.mapvM fun stretch =>
    buche_silberstein.equibiaxial_tension self.element self.factor self.grid self.normalization self.method
      self.nondimensional_link_stiffness self.number_of_links stretch

end Polymers.Python.constitutive.hyperelastic.buche_silberstein

namespace Polymers.Python.constitutive.hyperelastic_damage.buche_silberstein

open Polymers.constitutive.hyperelastic_damage

variable {α : Type} [Add α] [Sub α] [Mul α] [Div α] [Neg α] [OfScientific α] [NatCast α] [Elem α]

/-- `src/constitutive/hyperelastic_damage/buche_silberstein/py.rs` lines 26-49: class `BucheSilberstein`. -/
structure BucheSilberstein (α : Type) where
  /-- field `element` -/
  element : List (List α)
  /-- field `factor` -/
  factor : α
  /-- field `grid` -/
  grid : List α
  /-- field `method` -/
  method : Nat
  /-- field `normalization` -/
  normalization : α
  /-- field `nondimensional_critical_extension` -/
  nondimensional_critical_extension : α
  /-- field `nondimensional_link_stiffness` -/
  nondimensional_link_stiffness : α
  /-- field `number_of_links` -/
  number_of_links : Nat
  /-- field `swelling_ratio` -/
  swelling_ratio : α

/-- `src/constitutive/hyperelastic_damage/buche_silberstein/py.rs` lines 55-70. -/
def BucheSilberstein.init (method : Nat) (nondimensional_critical_extension nondimensional_link_stiffness : α)
    (number_of_links : Nat) (swelling_ratio : α) : Option (BucheSilberstein α) :=
  (buche_silberstein.init method nondimensional_critical_extension nondimensional_link_stiffness number_of_links
      swelling_ratio).map fun e =>
    { element := e.1, factor := e.2.1, grid := e.2.2.1, method := method, normalization := e.2.2.2,
      nondimensional_critical_extension := nondimensional_critical_extension,
      nondimensional_link_stiffness := nondimensional_link_stiffness, number_of_links := number_of_links,
      swelling_ratio := swelling_ratio }

/-- `src/constitutive/hyperelastic_damage/buche_silberstein/py.rs` lines 99-112: the closure run over the stretches in order,
with the captured `maximum_previous_stretch`, together with the results collected so far (last first). -/
def BucheSilberstein.step (self : BucheSilberstein α) (state : Option (α × List (α × α))) (stretch : α) :
    Option (α × List (α × α)) :=
  state.bind fun st =>
    let maximum_previous_stretch : α := if Elem.lt st.1 stretch then stretch else st.1
    (buche_silberstein.uniaxial_tension self.element self.factor self.grid self.normalization self.method
      self.nondimensional_critical_extension self.nondimensional_link_stiffness self.number_of_links
      self.swelling_ratio stretch maximum_previous_stretch).map fun out => (maximum_previous_stretch, out :: st.2)

/-- `src/constitutive/hyperelastic_damage/buche_silberstein/py.rs` lines 96-116. -/
def BucheSilberstein.uniaxial_tension (self : BucheSilberstein α) (stretches : NdArray α) : Option (NdArray α × NdArray α) :=
  (stretches.data.foldl self.step (some (1.0, []))).map fun st =>
    let results := st.2.reverse
    (NdArray.from_vec (results.map Prod.fst), NdArray.from_vec (results.map Prod.snd))

end Polymers.Python.constitutive.hyperelastic_damage.buche_silberstein

namespace Polymers.C

open Polymers.constitutive.hyperelastic

variable {α : Type} [Add α] [Sub α] [Mul α] [Div α] [Neg α] [OfScientific α] [NatCast α] [Elem α]

/-- A block of memory handed to a C function: the numbers it holds, in order. -/
abbrev Memory (α : Type) := List α

/-- `std::slice::from_raw_parts(p, count)[0]` for `p` pointing at arrays of `size` numbers, as it is used in
`src/constitutive/hyperelastic/buche_silberstein/ex.rs`: the first array. The contract of `from_raw_parts` asks that all `count`
arrays lie in the block; otherwise the behaviour is undefined, which is `none`. -/
def firstOfRawParts (memory : Memory α) (size count : Nat) : Option (List α) :=
  if size * count ≤ memory.length then some (memory.take size) else none

/-- The rows of a matrix stored row after row, as `[[f64; columns]; rows]`. -/
def rows (columns : Nat) : Nat → List α → List (List α)
  | 0, _ => []
  | n + 1, l => l.take columns :: rows columns n (l.drop columns)

/-- `src/constitutive/hyperelastic/buche_silberstein/ex.rs` lines 2-7. -/
def constitutive_hyperelastic_buche_silberstein_uniaxial_tension (raw_element : Memory α) (factor : α) (raw_grid : Memory α)
    (normalization : α) (method : Nat) (nondimensional_link_stiffness : α) (number_of_links : Nat) (stretch : α) : Option α :=
  (firstOfRawParts raw_grid buche_silberstein.NUMGRID buche_silberstein.NUMGRID).bind fun grid =>
    (firstOfRawParts raw_element (buche_silberstein.NUMGRID * buche_silberstein.NUMGRID)
        (buche_silberstein.NUMGRID * buche_silberstein.NUMGRID)).bind fun element =>
      buche_silberstein.uniaxial_tension (rows buche_silberstein.NUMGRID buche_silberstein.NUMGRID element) factor grid
        normalization method nondimensional_link_stiffness number_of_links stretch

/-- `src/constitutive/hyperelastic/buche_silberstein/ex.rs` lines 9-14. -/
def constitutive_hyperelastic_buche_silberstein_equibiaxial_tension (raw_element : Memory α) (factor : α) (raw_grid : Memory α)
    (normalization : α) (method : Nat) (nondimensional_link_stiffness : α) (number_of_links : Nat) (stretch : α) : Option α :=
  (firstOfRawParts raw_grid buche_silberstein.NUMGRID buche_silberstein.NUMGRID).bind fun grid =>
    (firstOfRawParts raw_element (buche_silberstein.NUMGRID * buche_silberstein.NUMGRID)
        (buche_silberstein.NUMGRID * buche_silberstein.NUMGRID)).bind fun element =>
      buche_silberstein.equibiaxial_tension (rows buche_silberstein.NUMGRID buche_silberstein.NUMGRID element) factor grid
        normalization method nondimensional_link_stiffness number_of_links stretch

end Polymers.C
