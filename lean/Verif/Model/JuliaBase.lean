/- Generated by tools/jl2lean.py ; do not edit by hand. -/
import Verif.Model.Base

open Polymers

variable {α : Type} [Add α] [Sub α] [Mul α] [Div α] [Neg α] [OfScientific α] [NatCast α] [Elem α]

namespace Polymers.Julia

/-- `src/physics/mod.jl` line 8. -/
def BOLTZMANN_CONSTANT : α := 8.314462618

/-- `src/physics/mod.jl` line 13. -/
def PLANCK_CONSTANT : α := 0.06350779923502961

/-- `src/physics/single_chain/mod.jl` line 6. -/
def ONE : α := 1.0

/-- `src/physics/single_chain/mod.jl` line 7. -/
def ZERO : α := 1e-6

/-- `src/physics/single_chain/mod.jl` line 8. -/
def POINTS : Nat := 64

/-- `src/physics/single_chain/mod.jl` lines 10-19, with a count that is not zero: the points are
`lower_lim + (0.5 + i) * dx` for `i` in `range(0, num_points - 1)`; the order in which `sum` adds them is not modelled (they are
added from the left). -/
def integrate (fn : α → α) (lower_lim upper_lim : α) (num_points : Nat) : α :=
  let dx : α := (upper_lim - lower_lim) / (num_points : α)
  Polymers.fsum (List.map fn (List.map (fun (i : Nat) => lower_lim + (0.5 + (i : α)) * dx) (List.range num_points))) * dx

/-- A number or an array of Julia: its size in each dimension, and the entry at given indices.  A number has no dimensions.
Indices start at zero. -/
structure JArr (β : Type) where
  /-- `size` -/
  dims : List Nat
  /-- `getindex` -/
  get : List Nat → β

/-- A number. -/
def JArr.scalar {β : Type} (x : β) : JArr β := ⟨[], fun _ => x⟩

/-- `Base.Broadcast.broadcast_shape`: the size of the result; a missing dimension has size one, and dimensions of size one are
extended.  `none` is `DimensionMismatch`. -/
def JArr.shape : List Nat → List Nat → Option (List Nat)
  | [], e => some e
  | a :: d, [] => some (a :: d)
  | a :: d, b :: e =>
    (if a = b then some a else if a = 1 then some b else if b = 1 then some a else none).bind fun c =>
      (JArr.shape d e).map fun r => c :: r

/-- `Base.Broadcast.newindex`: the indices of the entry which is used; dimensions of size one are not indexed. -/
def JArr.clip : List Nat → List Nat → List Nat
  | [], _ => []
  | _ :: d, [] => 0 :: JArr.clip d []
  | a :: d, i :: r => (if a = 1 then 0 else i) :: JArr.clip d r

/-- `broadcast(f, x)`. -/
def JArr.map {β γ : Type} (f : β → γ) (x : JArr β) : Option (JArr γ) := some ⟨x.dims, fun i => f (x.get (JArr.clip x.dims i))⟩

/-- One more argument: `broadcast(f, x, y, z)` is `ap (ap (map f x) y) z`. -/
def JArr.ap {β γ : Type} (f : Option (JArr (β → γ))) (x : JArr β) : Option (JArr γ) :=
  f.bind fun g => (JArr.shape g.dims x.dims).map fun d => ⟨d, fun i => g.get (JArr.clip g.dims i) (x.get (JArr.clip x.dims i))⟩

/-- What a function on arrays returns for numbers. -/
def JArr.value (r : Option (JArr α)) : α :=
  match r with
  | some a => a.get []
  | none => Elem.panic

/-- `x / y` for a number `x`.  If `y` is not a number, this is a method of `LinearAlgebra`, not of the package: `other`. -/
def JArr.quotient (other : α → JArr α → Option (JArr α)) (x : α) (y : JArr α) : Option (JArr α) :=
  match y.dims with
  | [] => some (JArr.scalar (x / y.get []))
  | _ :: _ => other x y

/-- An argument of a foreign call. -/
inductive CArg (α : Type) where
  /-- `UInt8` -/
  | int (n : Nat)
  /-- `Float64` -/
  | float (x : α)

/-- The argument registers when a foreign function starts. -/
structure Registers (α : Type) where
  /-- integer registers -/
  int : Nat → Nat
  /-- floating-point registers -/
  float : Nat → α

/-- Passing at most four arguments under the System V AMD64 and the AAPCS64 convention: integers and floating-point numbers are
numbered separately, each in its own registers; registers without an argument keep their `old` contents. Not code of the
repository; used only for the two calls of `src/physics/single_chain/wlc/thermodynamics/isometric/mod.jl` whose argument types
differ from the exported function. -/
def separate (old : Registers α) (args : List (CArg α)) : Registers α where
  int i := ((args.filterMap fun | CArg.int n => some n | CArg.float _ => none)[i]?).getD (old.int i)
  float i := ((args.filterMap fun | CArg.int _ => none | CArg.float x => some x)[i]?).getD (old.float i)

/-- Passing at most four arguments under the Microsoft x64 convention: the position in the list of all arguments selects the
register, the type selects the register file. See `separate`. -/
def positional (old : Registers α) (args : List (CArg α)) : Registers α where
  int i := match args[i]? with | some (CArg.int n) => n | _ => old.int i
  float i := match args[i]? with | some (CArg.float x) => x | _ => old.float i

end Polymers.Julia
