import Verif.Base.NumPy
import Mathlib.Analysis.SpecialFunctions.Log.Basic
import Mathlib.Analysis.SpecialFunctions.Pow.Real
import Mathlib.Analysis.SpecialFunctions.Trigonometric.Inverse
import Mathlib.Algebra.Order.Floor.Ring
import Mathlib.Tactic.NormNum
import Mathlib.Tactic.Linarith
import Mathlib.Tactic.Positivity
import Mathlib.Tactic.FieldSimp
import Mathlib.Tactic.Ring
/-
Extended reals with the IEEE special values and exact arithmetic on finite values.
-/
namespace Verif
open Classical

/-- A floating point value: NaN, an infinity, or a finite value (an exact real). -/
inductive XF where
  | nan
  | ninf
  | fin (x : ℝ)
  | pinf

namespace XF

noncomputable section

/-- infinity with the sign of `x`; NaN for `x = 0` (as in `0 * inf`) -/
def signInf (x : ℝ) : XF := if 0 < x then pinf else if x < 0 then ninf else nan

def neg : XF → XF
  | nan => nan | ninf => pinf | pinf => ninf | fin x => fin (-x)

def add : XF → XF → XF
  | nan, _ => nan | _, nan => nan
  | fin x, fin y => fin (x + y)
  | pinf, ninf => nan | ninf, pinf => nan
  | pinf, _ => pinf | _, pinf => pinf
  | ninf, _ => ninf | _, ninf => ninf

def sub (a b : XF) : XF := add a (neg b)

def mul : XF → XF → XF
  | nan, _ => nan | _, nan => nan
  | fin x, fin y => fin (x * y)
  | pinf, pinf => pinf | ninf, ninf => pinf
  | pinf, ninf => ninf | ninf, pinf => ninf
  | pinf, fin y => signInf y | ninf, fin y => signInf (-y)
  | fin x, pinf => signInf x | fin x, ninf => signInf (-x)

/-- division; a zero divisor counts as `+0.0` -/
def div : XF → XF → XF
  | nan, _ => nan | _, nan => nan
  | fin x, fin y => if y = 0 then signInf x else fin (x / y)
  | fin _, pinf => fin 0 | fin _, ninf => fin 0
  | pinf, fin y => if y < 0 then ninf else pinf
  | ninf, fin y => if y < 0 then pinf else ninf
  | pinf, pinf => nan | pinf, ninf => nan | ninf, pinf => nan | ninf, ninf => nan

def ltb : XF → XF → Bool
  | nan, _ => false | _, nan => false
  | fin x, fin y => decide (x < y)
  | ninf, ninf => false | ninf, _ => true
  | _, ninf => false
  | pinf, _ => false
  | fin _, pinf => true

def leb : XF → XF → Bool
  | nan, _ => false | _, nan => false
  | fin x, fin y => decide (x ≤ y)
  | ninf, _ => true
  | fin _, ninf => false | pinf, ninf => false
  | _, pinf => true
  | pinf, fin _ => false

def eqb : XF → XF → Bool
  | fin x, fin y => decide (x = y)
  | pinf, pinf => true | ninf, ninf => true
  | _, _ => false

def isNaNb : XF → Bool
  | nan => true | _ => false

def absx : XF → XF
  | nan => nan | ninf => pinf | pinf => pinf | fin x => fin |x|

def expx : XF → XF
  | nan => nan | ninf => fin 0 | pinf => pinf | fin x => fin (Real.exp x)

def logx : XF → XF
  | nan => nan | ninf => nan | pinf => pinf
  | fin x => if x < 0 then nan else if x = 0 then ninf else fin (Real.log x)

def cosx : XF → XF
  | fin x => fin (Real.cos x) | _ => nan

def arccosx : XF → XF
  | fin x => if -1 ≤ x ∧ x ≤ 1 then fin (Real.arccos x) else nan
  | _ => nan

/-- `x ** y` (C99 `pow`; negative infinite base only for exponent 0). -/
def powx : XF → XF → XF
  | fin x, fin y =>
      if y = 0 then fin 1
      else if 0 < x then fin (x ^ y)
      else if x = 0 then (if 0 < y then fin 0 else pinf)
      else if ∃ n : ℤ, (n : ℝ) = y then fin (x ^ y) else nan
  | pinf, fin y => if 0 < y then pinf else if y = 0 then fin 1 else fin 0
  | ninf, fin y => if y = 0 then fin 1 else nan
  | nan, fin y => if y = 0 then fin 1 else nan
  | fin x, pinf => if 1 < x then pinf else if x = 1 then fin 1 else if 0 ≤ x then fin 0 else nan
  | fin x, ninf => if 1 < x then fin 0 else if x = 1 then fin 1 else if 0 ≤ x then pinf else nan
  | fin x, nan => if x = 1 then fin 1 else nan
  | pinf, pinf => pinf
  | pinf, ninf => fin 0
  | _, _ => nan

/-- `x ** n` by repeated multiplication -/
def powNatx (a : XF) : Nat → XF
  | 0 => fin 1
  | n + 1 => mul (powNatx a n) a

/-- truncation toward zero -/
def truncR (x : ℝ) : ℤ := if 0 ≤ x then ⌊x⌋ else ⌈x⌉

/-- round half to even -/
def rintR (x : ℝ) : ℤ :=
  if x - ⌊x⌋ < 1 / 2 then ⌊x⌋
  else if 1 / 2 < x - ⌊x⌋ then ⌊x⌋ + 1
  else if ⌊x⌋ % 2 = 0 then ⌊x⌋ else ⌊x⌋ + 1

def truncx : XF → Option Int
  | fin x => some (truncR x) | _ => none

def rintx : XF → Option Int
  | fin x => some (rintR x) | _ => none

instance instPyNum : PyNum XF where
  add := add
  sub := sub
  mul := mul
  div := div
  neg := neg
  ofSci := fun m s e => fin (OfScientific.ofScientific m s e)
  ofInt := fun i => fin (i : ℝ)
  nan := nan
  pi := fin Real.pi
  lt := ltb
  le := leb
  eq := eqb
  isNaN := isNaNb
  abs := absx
  exp := expx
  log := logx
  cos := cosx
  arccos := arccosx
  pow := powx
  powNat := powNatx
  sum := fun xs => xs.foldr add (fin 0)
  trunc := truncx
  rint := rintx

end

open PyNum

section simp
variable (x y : ℝ) (n : ℕ)

@[simp] theorem fin_add : (fin x + fin y : XF) = fin (x + y) := rfl
@[simp] theorem fin_sub : (fin x - fin y : XF) = fin (x - y) := by
  show fin (x + -y) = _; rw [sub_eq_add_neg]
@[simp] theorem fin_mul : (fin x * fin y : XF) = fin (x * y) := rfl
@[simp] theorem fin_neg : (-(fin x) : XF) = fin (-x) := rfl
theorem fin_div' : (fin x / fin y : XF) = if y = 0 then signInf x else fin (x / y) := rfl
theorem fin_div {y : ℝ} (h : y ≠ 0) : (fin x / fin y : XF) = fin (x / y) := by
  rw [fin_div', if_neg h]
@[simp] theorem lt_fin : PyNum.lt (fin x) (fin y) = decide (x < y) := rfl
@[simp] theorem le_fin : PyNum.le (fin x) (fin y) = decide (x ≤ y) := rfl
@[simp] theorem eq_fin : PyNum.eq (fin x) (fin y) = decide (x = y) := rfl
@[simp] theorem gt_fin : PyNum.gt (fin x) (fin y) = decide (y < x) := rfl
@[simp] theorem ge_fin : PyNum.ge (fin x) (fin y) = decide (y ≤ x) := rfl
@[simp] theorem isNaN_fin : PyNum.isNaN (fin x) = false := rfl
@[simp] theorem isNaN_nan : PyNum.isNaN (nan : XF) = true := rfl
@[simp] theorem isNaN_pinf : PyNum.isNaN (pinf : XF) = false := rfl
@[simp] theorem isNaN_ninf : PyNum.isNaN (ninf : XF) = false := rfl
@[simp] theorem nan_eq : (PyNum.nan : XF) = nan := rfl
@[simp] theorem pi_eq : (PyNum.pi : XF) = fin Real.pi := rfl
@[simp] theorem abs_fin : PyNum.abs (fin x) = fin |x| := rfl
@[simp] theorem exp_fin : PyNum.exp (fin x) = fin (Real.exp x) := rfl
theorem log_fin' : PyNum.log (fin x) =
    if x < 0 then nan else if x = 0 then ninf else fin (Real.log x) := rfl
theorem log_fin {x : ℝ} (h : 0 < x) : PyNum.log (fin x) = fin (Real.log x) := by
  rw [log_fin', if_neg (not_lt.2 h.le), if_neg h.ne']
@[simp] theorem cos_fin : PyNum.cos (fin x) = fin (Real.cos x) := rfl
@[simp] theorem trunc_fin : PyNum.trunc (fin x) = some (truncR x) := rfl
@[simp] theorem rint_fin : PyNum.rint (fin x) = some (rintR x) := rfl
@[simp] theorem ofInt_eq (i : ℤ) : (PyNum.ofInt i : XF) = fin (i : ℝ) := rfl
@[simp] theorem ofSci_eq (m : ℕ) (s : Bool) (e : ℕ) :
    (OfScientific.ofScientific m s e : XF) = fin (OfScientific.ofScientific m s e) := rfl
@[simp] theorem ofNat_zero : (0 : XF) = fin 0 := by
  show fin (((0 : ℕ) : ℤ) : ℝ) = _; norm_num
@[simp] theorem ofNat_one : (1 : XF) = fin 1 := by
  show fin (((1 : ℕ) : ℤ) : ℝ) = _; norm_num
@[simp] theorem ofNat_two (n : ℕ) [n.AtLeastTwo] : (OfNat.ofNat n : XF) = fin (OfNat.ofNat n) := by
  show fin (((n : ℕ) : ℤ) : ℝ) = _; norm_num [Nat.cast_ofNat]; rfl
@[simp] theorem powNat_fin : PyNum.powNat (fin x) n = fin (x ^ n) := by
  induction n with
  | zero => show fin 1 = _; rw [pow_zero]
  | succ n ih => show PyNum.powNat (fin x) n * fin x = _; rw [ih, fin_mul, pow_succ]
theorem sum_eq (xs : List XF) : PyNum.sum xs = xs.foldr (· + ·) 0 := by rw [ofNat_zero]; rfl

@[simp] theorem fin_inj : (fin x = fin y) ↔ x = y := ⟨fun h => by injection h, fun h => h ▸ rfl⟩

@[simp] theorem nan_add (a : XF) : nan + a = nan := by cases a <;> rfl
@[simp] theorem add_nan (a : XF) : a + nan = nan := by cases a <;> rfl
@[simp] theorem nan_sub (a : XF) : nan - a = nan := by cases a <;> rfl
@[simp] theorem sub_nan (a : XF) : a - nan = nan := by cases a <;> rfl
@[simp] theorem nan_mul (a : XF) : nan * a = nan := by cases a <;> rfl
@[simp] theorem mul_nan (a : XF) : a * nan = nan := by cases a <;> rfl
@[simp] theorem nan_div (a : XF) : nan / a = nan := by cases a <;> rfl
@[simp] theorem div_nan (a : XF) : a / nan = nan := by cases a <;> rfl
@[simp] theorem exp_nan : PyNum.exp (nan : XF) = nan := rfl
@[simp] theorem log_nan : PyNum.log (nan : XF) = nan := rfl
@[simp] theorem cos_nan : PyNum.cos (nan : XF) = nan := rfl
@[simp] theorem abs_nan : PyNum.abs (nan : XF) = nan := rfl
@[simp] theorem nan_lt (a : XF) : PyNum.lt nan a = false := by cases a <;> rfl
@[simp] theorem lt_nan (a : XF) : PyNum.lt a nan = false := by cases a <;> rfl
@[simp] theorem nan_le (a : XF) : PyNum.le nan a = false := by cases a <;> rfl
@[simp] theorem le_nan (a : XF) : PyNum.le a nan = false := by cases a <;> rfl
@[simp] theorem nan_gt (a : XF) : PyNum.gt nan a = false := by cases a <;> rfl
@[simp] theorem gt_nan (a : XF) : PyNum.gt a nan = false := by cases a <;> rfl
@[simp] theorem nan_ge (a : XF) : PyNum.ge nan a = false := by cases a <;> rfl
@[simp] theorem ge_nan (a : XF) : PyNum.ge a nan = false := by cases a <;> rfl

theorem isNaN_iff (a : XF) : PyNum.isNaN a = true ↔ a = nan := by
  cases a <;> simp

/-- The value is finite. -/
def IsFin (a : XF) : Prop := ∃ x : ℝ, a = fin x

theorem maximum_fin : PyNum.maximum (fin x) (fin y) = fin (max x y) := by
  simp only [PyNum.maximum, isNaN_fin, lt_fin]
  by_cases h : x < y
  · simp [h, max_eq_right h.le]
  · simp [h, max_eq_left (not_lt.1 h)]
theorem minimum_fin : PyNum.minimum (fin x) (fin y) = fin (min x y) := by
  simp only [PyNum.minimum, isNaN_fin, lt_fin]
  by_cases h : y < x
  · simp [h, min_eq_right h.le]
  · simp [h, min_eq_left (not_lt.1 h)]
theorem clip_fin (z : ℝ) : PyNum.clip (fin x) (fin y) (fin z) = fin (min (max x y) z) := by
  rw [PyNum.clip, maximum_fin, minimum_fin]

end simp

end XF
end Verif
