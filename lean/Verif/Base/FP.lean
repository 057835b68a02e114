import Verif.Base.XF
/-
Floating point arithmetic with the range and precision of IEEE double: every result is rounded,
and results out of range overflow.  The mathematical library is only known to be accurate and
monotone.
-/
namespace Verif
open XF

/-- rounding of any number of moderate size, from the rounding of positive numbers -/
theorem rounding_any (rnd : ℝ → XF) (mono : ∀ x y, x ≤ y → leb (rnd x) (rnd y) = true)
    (odd : ∀ x, rnd (-x) = neg (rnd x)) (zero : rnd 0 = fin 0)
    (near : ∀ x, 1e-200 ≤ x → x ≤ 1e200 → ∃ y, rnd x = fin y ∧ |y - x| ≤ x / 2 ^ 52) (x : ℝ) (h : |x| ≤ 1e200) :
    ∃ y, rnd x = fin y ∧ |y - x| ≤ |x| / 2 ^ 52 + 2e-200 := by
  have key : ∀ x, 0 ≤ x → x ≤ 1e200 → ∃ y, rnd x = fin y ∧ |y - x| ≤ x / 2 ^ 52 + 2e-200 := by
    intro x h0 h1
    rcases le_total 1e-200 x with h2 | h2
    · obtain ⟨y, e, h3⟩ := near x h2 h1
      exact ⟨y, e, h3.trans (by linarith [show (0:ℝ) ≤ 2e-200 by norm_num])⟩
    · obtain ⟨b, eb, hb⟩ := near 1e-200 le_rfl (by norm_num)
      have hb' : b ≤ 2e-200 := by
        have := (abs_le.1 hb).2
        have h5 : (1e-200 : ℝ) / 2 ^ 52 ≤ 1e-200 := div_le_self (by norm_num) (by norm_num)
        have h6 : (2e-200 : ℝ) = 1e-200 + 1e-200 := by norm_num
        linarith
      have l0 := mono 0 x h0
      have l1 := mono x _ h2
      rw [zero] at l0
      rw [eb] at l1
      cases e : rnd x with
      | nan => rw [e] at l0; simp [leb] at l0
      | ninf => rw [e] at l0; simp [leb] at l0
      | pinf => rw [e] at l1; simp [leb] at l1
      | fin y =>
        rw [e] at l0 l1
        simp [leb] at l0 l1
        refine ⟨y, rfl, ?_⟩
        have hq : 0 ≤ x / 2 ^ 52 := by positivity
        have h6 : (2e-200 : ℝ) = 1e-200 + 1e-200 := by norm_num
        have h7 : (0 : ℝ) ≤ 1e-200 := by norm_num
        rw [abs_le]
        constructor <;> linarith
  rcases le_total 0 x with h0 | h0
  · rw [abs_of_nonneg h0] at h ⊢
    exact key x h0 h
  · rw [abs_of_nonpos h0] at h ⊢
    obtain ⟨y, e, h1⟩ := key (-x) (by linarith) h
    refine ⟨-y, ?_, ?_⟩
    · have := odd (-x)
      rw [neg_neg] at this
      rw [this, e]; rfl
    · rw [show -y - x = -(y - -x) by ring, abs_neg]; exact h1

/-- What is assumed of a floating point arithmetic: how exact results are rounded (`rnd`), and
what the library functions return.  Python and numpy floats on common machines satisfy this, with
any of the IEEE rounding directions toward or away from zero or to nearest. -/
structure FP where
  /-- the floating point number (or infinity) for an exact result -/
  rnd : ℝ → XF
  rnd_ne_nan : ∀ x, rnd x ≠ nan
  rnd_mono : ∀ x y, x ≤ y → leb (rnd x) (rnd y) = true
  rnd_neg : ∀ x, rnd (-x) = neg (rnd x)
  rnd_int : ∀ n : ℤ, |n| ≤ 2 ^ 53 → rnd n = fin n
  rnd_half : rnd (1 / 2) = fin (1 / 2)
  rnd_idem : ∀ x y, rnd x = fin y → rnd y = fin y
  /-- the difference of two numbers within a factor of two is exact -/
  rnd_sub : ∀ x y, rnd x = fin x → rnd y = fin y → 0 < y → y ≤ x → x ≤ 2 * y → rnd (x - y) = fin (x - y)
  rnd_near : ∀ x, 1e-200 ≤ x → x ≤ 1e200 → ∃ y, rnd x = fin y ∧ |y - x| ≤ x / 2 ^ 52
  exp : XF → XF
  exp_nan : exp nan = nan
  exp_ninf : exp ninf = fin 0
  exp_pinf : exp pinf = pinf
  exp_zero : exp (fin 0) = fin 1
  exp_mono : ∀ a b : XF, leb a b = true → leb (exp a) (exp b) = true
  exp_near : ∀ x : ℝ, |x| ≤ 400 → ∃ y, exp (fin x) = fin y ∧ |y - Real.exp x| ≤ Real.exp x / 2 ^ 50
  log : XF → XF
  log_nan : log nan = nan
  log_ninf : log ninf = nan
  log_pinf : log pinf = pinf
  log_zero : log (fin 0) = ninf
  log_neg : ∀ x : ℝ, x < 0 → log (fin x) = nan
  log_one : log (fin 1) = fin 0
  log_mono : ∀ a b : XF, leb (fin 0) a = true → leb a b = true → leb (log a) (log b) = true
  log_near : ∀ x : ℝ, 1.5 ≤ x → x ≤ 1e200 →
    ∃ y, log (fin x) = fin y ∧ |y - Real.log x| ≤ |Real.log x| / 2 ^ 50
  cos : XF → XF
  cos_near : ∀ x : ℝ, |x| ≤ 2 → ∃ y, cos (fin x) = fin y ∧ |y - Real.cos x| ≤ 1 / 2 ^ 50
  arccos : XF → XF
  pow : XF → XF → XF
  /-- integer powers -/
  powNat : XF → Nat → XF
  powNat_near : ∀ (x : ℝ) (n : Nat), 0 < x → 1e-200 ≤ x ^ n → x ^ n ≤ 1e200 →
    ∃ y, powNat (fin x) n = fin y ∧ |y - x ^ n| ≤ x ^ n / 2 ^ 50
  powNat_nan : ∀ n : Nat, powNat nan (n + 1) = nan
  powNat_even : ∀ (a : XF) (n : Nat), a ≠ nan → leb (fin 0) (powNat a (2 * n)) = true
  /-- the sum of an array, in whatever order -/
  sum : List XF → XF
  sum_mono : ∀ xs ys : List XF,
    List.Forall₂ (fun a b => leb (fin 0) a = true ∧ leb a b = true) xs ys →
    leb (fin 0) (sum xs) = true ∧ leb (sum xs) (sum ys) = true
  sum_near : ∀ xs : List ℝ, (∀ x ∈ xs, x = 0 ∨ (1e-199 ≤ x ∧ x ≤ 1e150)) → xs.length ≤ 2 ^ 20 →
    ∃ y, sum (xs.map fin) = fin y ∧ |y - xs.sum| ≤ xs.sum * (xs.length / 2 ^ 51)

namespace FP

/-- rounding of an exact result; NaN and infinities stay -/
def rd (F : FP) : XF → XF
  | .fin x => F.rnd x
  | a => a

end FP

/-- Numbers of a floating point arithmetic. -/
def RF (_ : FP) : Type := XF

namespace RF
variable {F : FP}

/-- a finite number (the inputs of a computation) -/
def of (x : ℝ) : RF F := XF.fin x

/-- `a ≤ b`; both are numbers -/
def Le (a b : RF F) : Prop := leb a b = true

noncomputable instance instPyNum (F : FP) : PyNum (RF F) where
  add := fun a b => F.rd (XF.add a b)
  sub := fun a b => F.rd (XF.sub a b)
  mul := fun a b => F.rd (XF.mul a b)
  div := fun a b => F.rd (XF.div a b)
  neg := XF.neg
  ofSci := fun m s e => F.rnd (OfScientific.ofScientific m s e)
  ofInt := fun i => F.rnd (i : ℝ)
  nan := XF.nan
  pi := F.rnd Real.pi
  lt := ltb
  le := leb
  eq := eqb
  isNaN := isNaNb
  abs := absx
  exp := F.exp
  log := F.log
  cos := F.cos
  arccos := F.arccos
  pow := F.pow
  powNat := F.powNat
  sum := F.sum
  trunc := truncx
  rint := rintx

end RF
end Verif
