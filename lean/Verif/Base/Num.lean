import Verif.Base.Py
/-
The number interface.  Model functions are polymorphic in the number type.
-/
namespace Verif

/-- Operations of numpy floating point scalars used by the modelled code. -/
class PyNum (α : Type) extends Add α, Sub α, Mul α, Div α, Neg α where
  /-- decimal literal `m * 10^±e` -/
  ofSci : Nat → Bool → Nat → α
  /-- Python int to float -/
  ofInt : Int → α
  /-- `np.nan` -/
  nan : α
  /-- `np.pi` -/
  pi : α
  /-- `a < b` (False on NaN) -/
  lt : α → α → Bool
  /-- `a <= b` (False on NaN) -/
  le : α → α → Bool
  /-- `a == b` (False on NaN) -/
  eq : α → α → Bool
  /-- `np.isnan` -/
  isNaN : α → Bool
  /-- `np.abs` -/
  abs : α → α
  /-- `np.exp` -/
  exp : α → α
  /-- `np.log` -/
  log : α → α
  /-- `np.cos` -/
  cos : α → α
  /-- `np.arccos` -/
  arccos : α → α
  /-- `a ** b` for float `b` -/
  pow : α → α → α
  /-- `a ** n` for a non-negative integer literal `n` -/
  powNat : α → Nat → α
  /-- `np.sum` (numpy adds in an order of its own) -/
  sum : List α → α
  /-- `int(a)`: truncation toward zero; `none` for NaN and infinities -/
  trunc : α → Option Int
  /-- `int(np.round(a))`: round half to even; `none` for NaN and infinities -/
  rint : α → Option Int

namespace PyNum

scoped instance {α : Type} [PyNum α] : OfScientific α := ⟨PyNum.ofSci⟩
scoped instance {α : Type} [PyNum α] {n : Nat} : OfNat α n := ⟨PyNum.ofInt n⟩

variable {α : Type} [PyNum α]

/-- `a > b`. -/
def gt (a b : α) : Bool := lt b a
/-- `a >= b`. -/
def ge (a b : α) : Bool := le b a

/-- `np.maximum` (NaN-propagating). -/
def maximum (a b : α) : α := if isNaN a then a else if isNaN b then b else if lt a b then b else a
/-- `np.minimum` (NaN-propagating). -/
def minimum (a b : α) : α := if isNaN a then a else if isNaN b then b else if lt b a then b else a
/-- `np.clip(a, lo, hi)`: `minimum(maximum(a, lo), hi)`. -/
def clip (a lo hi : α) : α := minimum (maximum a lo) hi

end PyNum

/-- Degrees to radians, `np.deg2rad`. -/
def deg2rad {α : Type} [PyNum α] (d : α) : α := d * (PyNum.pi / PyNum.ofInt 180)
/-- Radians to degrees, `np.rad2deg`. -/
def rad2deg {α : Type} [PyNum α] (r : α) : α := r * (PyNum.ofInt 180 / PyNum.pi)

/-- Truncation of a Float toward zero. -/
def floatTrunc (x : Float) : Option Int :=
  if x.isNaN || x.isInf then none
  else if x < 0 then some (-(Float.floor (-x)).toUInt64.toNat) else some (Float.floor x).toUInt64.toNat

/-- Round half to even of a Float (assumes |x| < 2^63). -/
def floatRint (x : Float) : Option Int :=
  if x.isNaN || x.isInf then none
  else
    let f := Float.floor x
    let d := x - f
    let fi : Int := if f < 0 then -((-f).toUInt64.toNat : Int) else (f.toUInt64.toNat : Int)
    some (if d < 0.5 then fi else if 0.5 < d then fi + 1 else if fi % 2 = 0 then fi else fi + 1)

/-- Executable instance (sanity checks only; not used in proofs). -/
instance : PyNum Float where
  ofSci := fun m s e => OfScientific.ofScientific m s e
  ofInt := Float.ofInt
  nan := 0.0 / 0.0
  pi := 3.141592653589793
  lt := fun a b => decide (a < b)
  le := fun a b => decide (a ≤ b)
  eq := fun a b => a == b
  isNaN := Float.isNaN
  abs := Float.abs
  exp := Float.exp
  log := Float.log
  cos := Float.cos
  arccos := Float.acos
  pow := Float.pow
  powNat := fun a n => Float.pow a n.toFloat
  sum := fun xs => xs.foldl (· + ·) 0
  trunc := floatTrunc
  rint := floatRint

end Verif
