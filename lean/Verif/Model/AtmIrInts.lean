import Verif.Model.AtmIr
import Verif.Model.Integers
/-
The limb correction (pyspectral/atm_correction_ir.py) of arrays of integers.  Arrays carry their element type; `a + b` has the
element type both can be converted to, and `a += b` keeps the one of `a` (TypeError when that loses a fraction).
-/
namespace Verif.AtmIr
open PyNum Model
variable {α : Type} [PyNum α]

/-- an array and the type of its elements (the numbers of an integer array are given as numbers) -/
structure TypedArr (α : Type) where
  dtype : Dtype
  arr : Arr α

/-- the element type numpy gives a result of two arrays -/
def resultType : Dtype → Dtype → Dtype
  | .int64, .int64 => .int64
  | _, _ => .float64

/-- `f(a, b)` element by element; the result is stored with the common element type -/
def TypedArr.bcast (nanInt : Int) (f : α → α → α) (a b : TypedArr α) : Py (TypedArr α) := do
  let d := resultType a.dtype b.dtype
  return ⟨d, ← a.arr.bcast (fun x y => asType nanInt d (f x y)) b.arr⟩

/-- a function made of floating point constants (`tau0`, `tau`, `delta`): the result has floats, whatever the argument -/
def TypedArr.mapFloat (f : α → α) (a : TypedArr α) : TypedArr α := ⟨.float64, a.arr.map f⟩

/-- `da.where(cond, x, y)` -/
def TypedArr.whereThen (nanInt : Int) (cond : Arr Bool) (x y : TypedArr α) : Py (TypedArr α) := do
  let d := resultType x.dtype y.dtype
  let cx ← cond.bcast (fun c p => (c, p)) x.arr
  return ⟨d, ← cx.bcast (fun c v => asType nanInt d (if c.1 then c.2 else v)) y.arr⟩

/-- models pyspectral/atm_correction_ir.py:114-122 (`viewzen_corr` for dask arrays) for any element types -/
def viewzenCorrDaskTyped (nanInt : Int) (data view_zen : TypedArr α) : Py (TypedArr α) := do
  let data_tau0 ← data.bcast nanInt (· + ·) (data.mapFloat tau0)
  let td ← (data.mapFloat tau).bcast nanInt (· * ·) (view_zen.mapFloat delta)
  let data_tau_delta ← data.bcast nanInt (· + ·) td
  let inner ← TypedArr.whereThen nanInt (view_zen.arr.map fun z => PyNum.gt z 0 && PyNum.lt z 90) data_tau_delta data
  TypedArr.whereThen nanInt (view_zen.arr.map fun z => PyNum.eq z 0) data_tau0 inner

/-- `a += b` for floats `b`, given its result among floats: numpy refuses to store floats in an array of integers (TypeError,
also when there is nothing to add) -/
def storeIn : Dtype → Py (NdArr α) → Py (NdArr α)
  | .float64, r => r
  | .int64, .ok _ => .error .typeError
  | .int64, .error e => .error e

/-- models pyspectral/atm_correction_ir.py:82-129 (`viewzen_corr` for numpy arrays) for an array with elements of type `d` -/
def viewzenCorrTyped (d : Dtype) (data : Nat) (view_zen : Arr (Masked α)) : PySt (Heap α) Nat := do
  let h ← PySt.get
  let a ← PySt.lift (storeIn d (nadirStep view_zen (h.cell data)))
  PySt.modify fun h => h.set data a
  let a' ← PySt.lift (storeIn d (limbStep view_zen a))
  PySt.modify fun h => h.set data a'
  return data

/-- models pyspectral/atm_correction_ir.py:74-79 (`get_correction`) for numpy arrays with elements of type `d` -/
def getCorrectionTyped (d : Dtype) (sat_zenith : Arr (Masked α)) (data : Nat) : PySt (Heap α) Nat := do
  let h ← PySt.get
  let copy ← Heap.alloc (h.cell data)
  viewzenCorrTyped d copy sat_zenith

end Verif.AtmIr
