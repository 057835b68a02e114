import Verif.Base.Num
/-
One-dimensional numpy arrays as lists, and the numpy/scipy functions used.
-/
namespace Verif
open PyNum
namespace NP
variable {α β γ : Type}

/-- Element-wise binary operation with numpy broadcasting of 1-D arrays:
equal lengths, or one of the lengths is 1; otherwise ValueError. -/
def bcast2 (f : α → β → γ) (xs : List α) (ys : List β) : Py (List γ) :=
  if xs.length = ys.length then .ok (List.zipWith f xs ys)
  else match xs, ys with
    | [x], ys => .ok (ys.map (f x))
    | xs, [y] => .ok (xs.map (f · y))
    | _, _ => .error .valueError

/-- `xs[1:] op xs[:-1]`. -/
def adj (f : α → α → β) : List α → List β
  | [] => []
  | [_] => []
  | a :: b :: rest => f b a :: adj f (b :: rest)

variable [PyNum α]

/-- `np.diff`. -/
def diff (xs : List α) : List α := adj (· - ·) xs

/-- `np.sum` -/
def sum (xs : List α) : α := PyNum.sum xs

/-- `scipy.integrate.trapezoid(y, x)`: `sum(diff(x) * (y[1:] + y[:-1]) / 2.0)`. -/
def trapezoid (y x : List α) : Py α := do
  let t ← bcast2 (fun d s => d * s / 2.0) (diff x) (adj (· + ·) y)
  return sum t

/-- `np.cumsum` with a running total. -/
def cumsumFrom (acc : α) : List α → List α
  | [] => []
  | x :: xs => (acc + x) :: cumsumFrom (acc + x) xs

/-- `np.cumsum`. -/
def cumsum : List α → List α
  | [] => []
  | x :: xs => x :: cumsumFrom x xs

/-- `np.max` (NaN-propagating; ValueError on an empty array). -/
def amax : List α → Py α
  | [] => .error .valueError
  | x :: xs => .ok (xs.foldl maximum x)

/-- `np.min` (NaN-propagating; ValueError on an empty array). -/
def amin : List α → Py α
  | [] => .error .valueError
  | x :: xs => .ok (xs.foldl minimum x)

omit [PyNum α] in
/-- Indices (from `i`) at which `p` holds: `np.where(p(xs))[0]`. -/
def whereIdxFrom (p : α → Bool) : Nat → List α → List Nat
  | _, [] => []
  | i, x :: xs => if p x then i :: whereIdxFrom p (i + 1) xs else whereIdxFrom p (i + 1) xs

/-- `np.where(p(xs))[0]`. -/
def whereIdx (p : α → Bool) (xs : List α) : List Nat := whereIdxFrom p 0 xs

/-- `xs[i]` for a non-negative index. -/
def getIdx (xs : List α) (i : Nat) : Py α :=
  match xs[i]? with
  | some v => .ok v
  | none => .error .indexError

/-- `np.linspace(start, stop, n)`: `arange(n) * (stop-start)/(n-1) + start`, with the
last point set to `stop` exactly. -/
def linspace (start stop : α) (n : Nat) : List α :=
  if n = 1 then [start]
  else (List.range n).map fun (i : Nat) =>
    if i + 1 = n then stop
    else ofInt (i : Int) * ((stop - start) / ofInt ((n : Int) - 1)) + start

/-- `ceil` as an integer; `none` for NaN and infinities. -/
def ceilI (x : α) : Option Int :=
  match trunc x with
  | some i => if lt (ofInt i) x then some (i + 1) else some i
  | none => none

/-- `np.arange(start, stop, step)`: `ceil((stop-start)/step)` values `start + i*step`
(ValueError when the count is not finite). -/
def arange (start stop step : α) : Py (List α) :=
  match ceilI ((stop - start) / step) with
  | some n => .ok ((List.range n.toNat).map fun (i : Nat) => start + ofInt (i : Int) * step)
  | none => .error .valueError

/-- Python sequence indexing with a possibly negative index. -/
def pyIndex {β : Type} (xs : List β) (i : Int) : Py β :=
  let j := if i < 0 then i + xs.length else i
  if j < 0 then .error .indexError
  else match xs[j.toNat]? with
    | some v => .ok v
    | none => .error .indexError

/-- Two's-complement wrap-around to 16 bits. -/
def wrap16 (i : Int) : Int := (i + 32768) % 65536 - 32768

/-- `.astype('int16')` of a float: truncation, then wrap-around (x86-64 behaviour for values
that fit in 32 bits).  `nanCast` is the platform-dependent value for NaN and infinities. -/
def castInt16 (nanCast : Int) (x : α) : Int :=
  match trunc x with
  | some i => wrap16 i
  | none => nanCast

end NP
end Verif
