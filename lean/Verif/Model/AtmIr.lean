import Verif.Base.Arr
import Verif.Base.State
/-
pyspectral/atm_correction_ir.py: the limb correction of infrared window channels.

Numpy arrays are cells of a heap, so that in-place changes and copies are visible.  A masked
array is an array of elements with a mask bit (`np.ma.nomask` is: nothing masked).  Elements are
floats (integer arrays are in Model/AtmIrInts.lean).
-/
namespace Verif.AtmIr
open PyNum

variable {α : Type} [PyNum α]

/-! ### numpy.ma, element by element -/

/-- One element of a masked array. -/
structure Masked (β : Type) where
  val : β
  mask : Bool
  deriving DecidableEq

namespace Masked

/-- numpy.ma `a - b` for a number `b`: masked elements keep their value -/
def sub (a : Masked α) (b : α) : Masked α := ⟨if a.mask then a.val else a.val - b, a.mask⟩

/-- numpy.ma `a / b` for a number `b` of ordinary size: non-finite quotients become masked, masked
elements keep their value -/
def div (a : Masked α) (b : α) : Masked α :=
  let m := a.mask || !isFinite (a.val / b)
  ⟨if m then a.val else a.val / b, m⟩

/-- numpy.ma `a * b`; masked elements keep the value of `a` -/
def mul (a b : Masked α) : Masked α := ⟨if a.mask || b.mask then a.val else a.val * b.val, a.mask || b.mask⟩

/-- numpy.ma `power(a, b)` given both values: non-finite results become masked.  (Their value is
set to the fill value, here 0; it is never used.) -/
def power (p : α) (base : α) (m : Bool) : Masked α :=
  ⟨if m then base else if isFinite p then p else 0, m || !isFinite p⟩

/-- numpy.ma `a += b`: nothing is added where either is masked -/
def iadd (a b : Masked α) : Masked α := ⟨a.val + (if a.mask || b.mask then 0 else b.val), a.mask || b.mask⟩

/-- `filled(0)` of a condition -/
def filled (c : Masked Bool) : Bool := !c.mask && c.val

end Masked

/-! ### The formulas -/

/-- models pyspectral/atm_correction_ir.py:92-93 (`ratio`) -/
def ratio (value v_null v_ref : α) : α := (value - v_null) / (v_ref - v_null)

/-- models pyspectral/atm_correction_ir.py:95-99 (`tau0`) -/
def tau0 (t : α) : α := pow (1 + 9.85) (ratio t 210.0 320.0) - 1

/-- models pyspectral/atm_correction_ir.py:101-106 (`tau`) -/
def tau (t : α) : α := 1.0 * powNat (ratio t 170.0 295.0) 4

/-- models pyspectral/atm_correction_ir.py:108-112 (`delta`) -/
def delta (z : α) : α := pow (1 + 6.2) (ratio z 0.0 70.0) - 1

/-- models pyspectral/atm_correction_ir.py:92-93 (`ratio`) on a masked array -/
def ratioM (value : Masked α) (v_null v_ref : α) : Masked α := (value.sub v_null).div (v_ref - v_null)

/-- models pyspectral/atm_correction_ir.py:95-99 (`tau0`) on a masked array -/
def tau0M (t : Masked α) : Masked α :=
  let r := ratioM t 210.0 320.0
  (Masked.power (pow (1 + 9.85) r.val) (1 + 9.85) r.mask).sub 1

/-- models pyspectral/atm_correction_ir.py:101-106 (`tau`) on a masked array -/
def tauM (t : Masked α) : Masked α :=
  let r := ratioM t 170.0 295.0
  let p := Masked.power (powNat r.val 4) r.val r.mask
  ⟨if p.mask then p.val else 1.0 * p.val, p.mask⟩

/-- models pyspectral/atm_correction_ir.py:108-112 (`delta`) on a masked array -/
def deltaM (z : Masked α) : Masked α :=
  let r := ratioM z 0.0 70.0
  (Masked.power (pow (1 + 6.2) r.val) (1 + 6.2) r.mask).sub 1

/-! ### Dask arrays -/

/-- models pyspectral/atm_correction_ir.py:114-122 (`viewzen_corr` for dask arrays; the chunks are
plain arrays) -/
def viewzenCorrDask (data view_zen : Arr α) : Py (Arr α) := do
  let data_tau0 ← data.bcast (· + ·) (data.map tau0)
  let td ← (data.map tau).bcast (· * ·) (view_zen.map delta)
  let data_tau_delta ← data.bcast (· + ·) td
  let limb ← (view_zen.map fun z => PyNum.gt z 0 && PyNum.lt z 90).bcast (fun c p => (c, p)) data_tau_delta
  let inner ← limb.bcast (fun c d => if c.1 then c.2 else d) data
  let nadir ← (view_zen.map fun z => PyNum.eq z 0).bcast (fun c p => (c, p)) data_tau0
  nadir.bcast (fun c d => if c.1 then c.2 else d) inner

/-! ### Numpy arrays -/

/-- A numpy array object. -/
inductive NdArr (α : Type) where
  | plain (a : Arr α)
  | masked (a : Arr (Masked α))

/-- Array objects by reference, and the next free reference. -/
structure Heap (α : Type) where
  cell : Nat → NdArr α
  next : Nat

namespace Heap

/-- change one array object -/
def set (h : Heap α) (r : Nat) (a : NdArr α) : Heap α := { h with cell := fun q => if q = r then a else h.cell q }

/-- a new array object -/
def alloc (a : NdArr α) : PySt (Heap α) Nat := fun h =>
  (.ok h.next, { cell := fun q => if q = h.next then a else h.cell q, next := h.next + 1 })

end Heap

/-- `y, x = np.ma.where(cond)`: the index pairs in row-major order; ValueError unless two axes -/
def where2 (c : Arr Bool) : Py (List (Nat × Nat)) :=
  match c.shape with
  | [m, n] => .ok (((List.range (m * n)).filter fun k => c.data.getD k false).map fun k => (k / n, k % n))
  | _ => .error .valueError

/-- `a[y, x]`: IndexError outside.  (Arrays with more than two axes are outside this model.) -/
def take2 {β : Type} (a : Arr β) (idx : List (Nat × Nat)) : Py (List β) :=
  match a.shape with
  | [m, n] => idx.mapM fun p =>
      if p.1 < m ∧ p.2 < n then
        match a.data[p.1 * n + p.2]? with
        | some v => .ok v
        | none => .error .indexError
      else .error .indexError
  | _ => .error .indexError

/-- `a[y, x] = values`, for indices already used for reading -/
def put2 {β : Type} (a : Arr β) (idx : List (Nat × Nat)) (values : List β) : Arr β :=
  match a.shape with
  | [_, n] => { a with data := (idx.zip values).foldl (fun d p => d.set (p.1.1 * n + p.1.2) p.2) a.data }
  | _ => a

/-- models pyspectral/atm_correction_ir.py:124-125: the pixels with zenith 0; `a[y, x] += ...` -/
def nadirStep (view_zen : Arr (Masked α)) : NdArr α → Py (NdArr α)
  | .plain a => do
    let idx ← where2 (view_zen.map fun z => (Masked.filled ⟨PyNum.eq z.val 0, z.mask⟩))
    let xs ← take2 a idx
    return .plain (put2 a idx (xs.map fun t => t + tau0 t))
  | .masked a => do
    let idx ← where2 (view_zen.map fun z => (Masked.filled ⟨PyNum.eq z.val 0, z.mask⟩))
    let xs ← take2 a idx
    return .masked (put2 a idx (xs.map fun t => t.iadd (tau0M t)))

/-- models pyspectral/atm_correction_ir.py:127-128: the other pixels; AttributeError for an array
without a mask.  (Both comparisons are evaluated first, and cannot fail.) -/
def limbStep (view_zen : Arr (Masked α)) : NdArr α → Py (NdArr α)
  | .plain _ => .error .attributeError
  | .masked a => do
    let cond ← (view_zen.map fun z => Masked.filled ⟨PyNum.gt z.val 0 && PyNum.lt z.val 90, z.mask⟩).bcast (· && ·)
      (a.map fun t => !t.mask)
    let idx ← where2 cond
    let zs ← take2 view_zen idx
    let xs ← take2 a idx
    return .masked (put2 a idx (List.zipWith (fun t z => t.iadd ((tauM t).mul (deltaM z))) xs zs))

/-- models pyspectral/atm_correction_ir.py:82-129 (`viewzen_corr` for numpy arrays): changes the array
object `data` and returns it.  A plain `view_zen` is one with nothing masked: for the angles selected
both kinds of arithmetic agree. -/
def viewzenCorr (data : Nat) (view_zen : Arr (Masked α)) : PySt (Heap α) Nat := do
  let h ← PySt.get
  let a ← PySt.lift (nadirStep view_zen (h.cell data))
  PySt.modify fun h => h.set data a
  let a' ← PySt.lift (limbStep view_zen a)
  PySt.modify fun h => h.set data a'
  return data

/-! ### The class -/

/-- The value of the keyword `atmosphere`: `None`, a string, or anything else with its truth value. -/
inductive AtmArg where
  | none
  | str (s : String)
  | other (truthy : Bool)
  deriving DecidableEq

/-- `bool(x)` -/
def AtmArg.truthy : AtmArg → Bool
  | .none => false
  | .str s => s ≠ ""
  | .other b => b

/-- models pyspectral/atm_correction_ir.py:50-62: the attributes of an object -/
structure AtmosphericalCorrection where
  platform_name : String
  sensor : String
  coeff_filename : Option String
  deriving DecidableEq

/-- models pyspectral/atm_correction_ir.py:58-72 (`AtmosphericalCorrection.__init__`); other keyword
arguments are ignored -/
def AtmosphericalCorrection.new (platform_name sensor : String) (kwargs : Dict String AtmArg) :
    Py AtmosphericalCorrection :=
  let atm_type := if kwargs.contains "atmosphere" then kwargs.get? "atmosphere" else none
  match atm_type with
  | some a => if a.truthy then .error .attributeError else .ok ⟨platform_name, sensor, none⟩
  | none => .ok ⟨platform_name, sensor, none⟩

/-- models pyspectral/atm_correction_ir.py:74-79 (`get_correction`) for numpy arrays: works on a copy -/
def getCorrection (sat_zenith : Arr (Masked α)) (data : Nat) : PySt (Heap α) Nat := do
  let h ← PySt.get
  let copy ← Heap.alloc (h.cell data)
  viewzenCorr copy sat_zenith

/-- models pyspectral/atm_correction_ir.py:74-79 (`get_correction`) for dask arrays -/
def getCorrectionDask (sat_zenith data : Arr α) : Py (Arr α) := viewzenCorrDask data sat_zenith

end Verif.AtmIr
