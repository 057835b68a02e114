import Verif.Base.NumPy
/-
Numpy/dask arrays with a shape (row-major data), and broadcasting.
-/
namespace Verif

/-- An array: shape and row-major data. -/
structure Arr (α : Type) where
  shape : List Nat
  data : List α
  deriving DecidableEq

namespace Arr
variable {α β γ : Type}

/-- number of elements of a shape -/
def size (s : List Nat) : Nat := s.foldr (· * ·) 1

/-- an array whose data fit its shape -/
def WF (a : Arr α) : Prop := a.data.length = size a.shape

/-- a 0-dimensional value -/
def scalar (x : α) : Arr α := ⟨[], [x]⟩

/-- element-wise function -/
def map (f : α → β) (a : Arr α) : Arr β := ⟨a.shape, a.data.map f⟩

/-- common shape of two reversed shapes under numpy's broadcasting rules -/
def bshape : List Nat → List Nat → Option (List Nat)
  | [], t => some t
  | s, [] => some s
  | m :: s, n :: t =>
    match bshape s t with
    | none => none
    | some r => if m = n then some (m :: r) else if m = 1 then some (n :: r)
      else if n = 1 then some (m :: r) else none

/-- repeat data of shape `s` along its axes of length 1 up to shape `t` (same number of axes) -/
def expand : List Nat → List Nat → List α → List α
  | m :: s, n :: t, xs =>
    (List.range n).flatMap fun i =>
      expand s t ((xs.drop ((if m = 1 then 0 else i) * size s)).take (size s))
  | _, _, xs => xs

/-- `a` as an array of shape `t`, leading axes added -/
def broadcastTo (t : List Nat) (a : Arr α) : List α :=
  expand (List.replicate (t.length - a.shape.length) 1 ++ a.shape) t a.data

/-- `f(a, b)` element-wise with numpy broadcasting; ValueError for incompatible shapes.  (The
first three cases are special cases of the last.) -/
def bcast (f : α → β → γ) (a : Arr α) (b : Arr β) : Py (Arr γ) :=
  if a.shape = b.shape then .ok ⟨a.shape, List.zipWith f a.data b.data⟩
  else match a, b with
    | ⟨[], [x]⟩, b => .ok (b.map (f x))
    | a, ⟨[], [y]⟩ => .ok (a.map (f · y))
    | a, b => match bshape a.shape.reverse b.shape.reverse with
      | none => .error .valueError
      | some r => .ok ⟨r.reverse, List.zipWith f (a.broadcastTo r.reverse) (b.broadcastTo r.reverse)⟩

/-- `f(a, b, out=b)`: the result must have the shape of `b` -/
def bcastOut (f : α → β → β) (a : Arr α) (b : Arr β) : Py (Arr β) := do
  let r ← a.bcast f b
  if r.shape = b.shape then return r else .error .valueError

/-- `np.where(mask, x, y)` with a scalar `x` -/
def whereScalar (x : α) (mask : Arr Bool) (y : Arr α) : Py (Arr α) :=
  mask.bcast (fun m v => if m then x else v) y

end Arr

/-- `np.isfinite` -/
def isFinite {α : Type} [PyNum α] (x : α) : Bool := !(PyNum.isNaN (x - x))

end Verif
