/-! Arrays of `numpy`, as the Python classes see them. -/

namespace Polymers

/-- An array of `numpy` (`PyReadonlyArrayDyn<f64>`, `PyArrayDyn<f64>`): its shape, and its entries in the order of the indices, where
the last index varies first.  The layout in memory (order and strides) is not modelled. -/
structure NdArray (α : Type) where
  /-- the shape -/
  shape : List Nat
  /-- the entries -/
  data : List α

/-- `mapv` of the crate `ndarray`, used in all `src/physics/single_chain/**/py.rs`: the array of the same shape with the values at the
entries. -/
def NdArray.mapv {α : Type} (a : NdArray α) (f : α → α) : NdArray α := ⟨a.shape, a.data.map f⟩

/-- The same when a call of the function may fail (panic): the first failure ends the call. -/
def NdArray.mapvM {α : Type} (a : NdArray α) (f : α → Option α) : Option (NdArray α) := (a.data.mapM f).map fun d => ⟨a.shape, d⟩

/-- `PyArray::from_vec` and `to_dyn` of the crate `numpy`: an array with one dimension. -/
def NdArray.from_vec {α : Type} (v : List α) : NdArray α := ⟨[v.length], v⟩

end Polymers
