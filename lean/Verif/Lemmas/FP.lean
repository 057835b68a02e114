import Verif.Base.FP
import Verif.Lemmas.Planck
import Mathlib.Analysis.Complex.ExponentialBounds
/-
Lemmas about rounded arithmetic: order, and relative error kept as a bound on the logarithm.
-/
namespace Verif.Lemmas
open XF

/-! ### Order -/

/-- `a ≤ b` on extended numbers, neither NaN -/
def Lx (a b : XF) : Prop := leb a b = true

theorem Lx.trans {a b c : XF} (h : Lx a b) (h' : Lx b c) : Lx a c := by
  unfold Lx at *
  cases a <;> cases b <;> cases c <;> simp_all [leb]
  linarith

theorem lx_fin {x y : ℝ} : Lx (fin x) (fin y) ↔ x ≤ y := by simp [Lx, leb]

theorem lx_refl {a : XF} (h : a ≠ nan) : Lx a a := by
  cases a <;> simp_all [Lx, leb]

theorem lx_pinf {a : XF} (h : a ≠ nan) : Lx a pinf := by cases a <;> simp_all [Lx, leb]

theorem Lx.ne_nan_left {a b : XF} (h : Lx a b) : a ≠ nan := by
  rintro rfl; simp [Lx, leb] at h

theorem Lx.ne_nan_right {a b : XF} (h : Lx a b) : b ≠ nan := by
  rintro rfl; cases a <;> simp [Lx, leb] at h

/-- a number that is not negative -/
theorem nonneg_cases {a : XF} (h : Lx (fin 0) a) : a = pinf ∨ ∃ x, a = fin x ∧ 0 ≤ x := by
  cases a with
  | nan => exact absurd rfl h.ne_nan_right
  | ninf => simp [Lx, leb] at h
  | pinf => exact Or.inl rfl
  | fin x => exact Or.inr ⟨x, rfl, lx_fin.1 h⟩

/-- a finite bound above -/
theorem fin_of_le {a : XF} {x y : ℝ} (h : Lx (fin x) a) (h' : Lx a (fin y)) :
    ∃ z, a = fin z ∧ x ≤ z ∧ z ≤ y := by
  cases a with
  | nan => exact absurd rfl h.ne_nan_right
  | ninf => simp [Lx, leb] at h
  | pinf => simp [Lx, leb] at h'
  | fin z => exact ⟨z, rfl, lx_fin.1 h, lx_fin.1 h'⟩

section
variable (F : FP)

theorem rnd_zero : F.rnd 0 = fin 0 := by simpa using F.rnd_int 0 (by simp)
theorem rnd_one : F.rnd 1 = fin 1 := by simpa using F.rnd_int 1 (by norm_num)

theorem rd_mono {a b : XF} (h : Lx a b) : Lx (F.rd a) (F.rd b) := by
  cases a with
  | nan => exact absurd rfl h.ne_nan_left
  | ninf =>
    cases b with
    | nan => exact absurd rfl h.ne_nan_right
    | fin y =>
      show leb ninf (F.rnd y) = true
      have := F.rnd_ne_nan y
      cases hy : F.rnd y <;> simp_all [leb]
    | ninf => exact h
    | pinf => exact h
  | pinf =>
    cases b with
    | pinf => exact h
    | _ => simp [Lx, leb] at h
  | fin x =>
    cases b with
    | nan => exact absurd rfl h.ne_nan_right
    | ninf => simp [Lx, leb] at h
    | pinf => exact lx_pinf (F.rnd_ne_nan x)
    | fin y => exact F.rnd_mono x y (lx_fin.1 h)

theorem rd_nonneg {a : XF} (h : Lx (fin 0) a) : Lx (fin 0) (F.rd a) := by
  have := rd_mono F h
  rwa [show F.rd (fin 0) = fin 0 from rnd_zero F] at this

theorem exp_nonneg {a : XF} (h : a ≠ nan) : Lx (fin 0) (F.exp a) := by
  have := F.exp_mono ninf a (by cases a <;> simp_all [leb])
  rwa [F.exp_ninf] at this

theorem exp_ge_one {a : XF} (h : Lx (fin 0) a) : Lx (fin 1) (F.exp a) := by
  have := F.exp_mono _ _ h
  rwa [F.exp_zero] at this

theorem log_ge_zero {a : XF} (h : Lx (fin 1) a) : Lx (fin 0) (F.log a) := by
  have := F.log_mono _ _ (lx_fin.2 zero_le_one) h
  rwa [F.log_one] at this

end

/-! exact operations -/

theorem mul_mono_left {c : ℝ} (hc : 0 < c) {a b : XF} (ha : Lx (fin 0) a) (h : Lx a b) :
    Lx (XF.mul (fin c) a) (XF.mul (fin c) b) := by
  rcases nonneg_cases ha with rfl | ⟨x, rfl, hx⟩
  · cases b <;> simp_all [Lx, leb, XF.mul, signInf]
  · rcases nonneg_cases (ha.trans h) with rfl | ⟨y, rfl, hy⟩
    · simp [Lx, leb, XF.mul, signInf, hc]
    · exact lx_fin.2 (mul_le_mul_of_nonneg_left (lx_fin.1 h) hc.le)

theorem mul_nonneg_left {c : ℝ} (hc : 0 < c) {a : XF} (ha : Lx (fin 0) a) :
    Lx (fin 0) (XF.mul (fin c) a) := by
  have := mul_mono_left hc (lx_fin.2 le_rfl) ha
  rwa [show XF.mul (fin c) (fin 0) = fin 0 from congrArg fin (mul_zero c)] at this

theorem div_anti {c : ℝ} (hc : 0 < c) {a b : XF} (ha : Lx (fin 0) a) (h : Lx a b) :
    Lx (XF.div (fin c) b) (XF.div (fin c) a) := by
  rcases nonneg_cases ha with rfl | ⟨x, rfl, hx⟩
  · cases b <;> simp_all [Lx, leb, XF.div]
  · rcases nonneg_cases (ha.trans h) with rfl | ⟨y, rfl, hy⟩
    · show Lx (fin 0) (if x = 0 then signInf c else fin (c / x))
      split
      · simp [signInf, hc, Lx, leb]
      · exact lx_fin.2 (div_nonneg hc.le hx)
    · have hxy := lx_fin.1 h
      show Lx (if y = 0 then signInf c else fin (c / y)) (if x = 0 then signInf c else fin (c / x))
      by_cases h0 : x = 0
      · rw [if_pos h0]
        apply (show signInf c = pinf by simp [signInf, hc]) ▸ lx_pinf _
        split <;> simp [signInf, hc]
      · have hx' : 0 < x := lt_of_le_of_ne hx (Ne.symm h0)
        rw [if_neg h0, if_neg (hx'.trans_le hxy).ne']
        exact lx_fin.2 (div_le_div_of_nonneg_left hc.le hx' hxy)

theorem div_nonneg' {c : ℝ} (hc : 0 < c) {a : XF} (ha : Lx (fin 0) a) :
    Lx (fin 0) (XF.div (fin c) a) := by
  have := div_anti hc ha (lx_pinf ha.ne_nan_right)
  exact this

theorem add_one_mono {a b : XF} (c : ℝ) (h : Lx a b) : Lx (XF.add a (fin c)) (XF.add b (fin c)) := by
  unfold Lx at *
  cases a <;> cases b <;> simp_all [leb, XF.add]

theorem sub_mono {a b : XF} (c : ℝ) (h : Lx a b) : Lx (XF.sub a (fin c)) (XF.sub b (fin c)) :=
  add_one_mono (-c) h

/-! ### Relative error -/

/-- `a` is finite and differs from the positive number `x` by at most a factor `e^δ` -/
def Near (δ : ℝ) (a : XF) (x : ℝ) : Prop :=
  0 < x ∧ ∃ y, a = fin y ∧ x * Real.exp (-δ) ≤ y ∧ y ≤ x * Real.exp δ

theorem near_refl {x : ℝ} (h : 0 < x) : Near 0 (fin x) x :=
  ⟨h, x, rfl, by simp, by simp⟩

theorem Near.mono {δ ε : ℝ} {a : XF} {x : ℝ} (h : Near δ a x) (hd : δ ≤ ε) : Near ε a x := by
  obtain ⟨h0, y, e, h1, h2⟩ := h
  refine ⟨h0, y, e, le_trans ?_ h1, le_trans h2 ?_⟩
  · exact mul_le_mul_of_nonneg_left (Real.exp_le_exp.2 (by linarith)) h0.le
  · exact mul_le_mul_of_nonneg_left (Real.exp_le_exp.2 hd) h0.le

theorem Near.pos {δ : ℝ} {a : XF} {x : ℝ} (h : Near δ a x) : ∃ y, a = fin y ∧ 0 < y := by
  obtain ⟨h0, y, e, h1, _⟩ := h
  exact ⟨y, e, lt_of_lt_of_le (mul_pos h0 (Real.exp_pos _)) h1⟩

/-- error bound as a factor, for small errors -/
theorem near_of_abs {x y u : ℝ} (hx : 0 < x) (hu : 0 ≤ u) (hu' : u ≤ 1 / 2) (h : |y - x| ≤ x * u) :
    Near (2 * u) (fin y) x := by
  obtain ⟨h1, h2⟩ := abs_le.1 h
  refine ⟨hx, y, rfl, ?_, ?_⟩
  · have : Real.exp (-(2 * u)) ≤ 1 - u := by
      have h3 : 1 ≤ (1 - u) * (1 + 2 * u) := by nlinarith
      have h4 := Real.add_one_le_exp (2 * u)
      rw [Real.exp_neg]
      rw [inv_le_comm₀ (Real.exp_pos _) (by linarith)]
      rw [inv_le_comm₀ (by linarith) (Real.exp_pos _)]
      rw [inv_le_iff_one_le_mul₀ (Real.exp_pos _)]
      nlinarith
    nlinarith
  · have := Real.add_one_le_exp (2 * u)
    nlinarith

/-- a rounding error as a factor -/
noncomputable def uu : ℝ := 2 / 2 ^ 52
/-- an error of a library function as a factor -/
noncomputable def ul : ℝ := 2 / 2 ^ 50

section
variable (F : FP)

theorem near_rnd {x : ℝ} (h1 : 1e-200 ≤ x) (h2 : x ≤ 1e200) : Near uu (F.rnd x) x := by
  obtain ⟨y, e, h⟩ := F.rnd_near x h1 h2
  have hx : 0 < x := lt_of_lt_of_le (by norm_num) h1
  rw [e]
  have := near_of_abs (u := 1 / 2 ^ 52) hx (by positivity) (by norm_num) (by rwa [mul_one_div])
  rwa [show 2 * (1 / 2 ^ 52 : ℝ) = uu by unfold uu; ring] at this

/-- rounding a number close to `x` -/
theorem Near.rd {δ : ℝ} {a : XF} {x : ℝ} (h : Near δ a x) (hd : δ ≤ 1)
    (h1 : 1e-199 ≤ x) (h2 : x ≤ 1e199) : Near (δ + uu) (F.rd a) x := by
  obtain ⟨h0, y, e, h3, h4⟩ := h
  have he : Real.exp 1 < 3 := lt_trans Real.exp_one_lt_d9 (by norm_num)
  have hen : (1 : ℝ) / 3 ≤ Real.exp (-1) := by
    rw [Real.exp_neg, ← one_div]
    exact one_div_le_one_div_of_le (Real.exp_pos _) he.le
  have h5 : x / 3 ≤ y := by
    have : Real.exp (-1) ≤ Real.exp (-δ) := Real.exp_le_exp.2 (by linarith)
    have := mul_le_mul_of_nonneg_left (hen.trans this) h0.le
    linarith
  have h6 : y ≤ x * 3 := by
    have : Real.exp δ ≤ Real.exp 1 := Real.exp_le_exp.2 hd
    have := mul_le_mul_of_nonneg_left (this.trans he.le) h0.le
    linarith
  obtain ⟨hy0, z, ez, h7, h8⟩ := near_rnd F (x := y) (by norm_num at h1 ⊢; linarith) (by norm_num at h2 ⊢; linarith)
  subst e
  refine ⟨h0, z, ez, ?_, ?_⟩
  · refine le_trans ?_ h7
    rw [neg_add, Real.exp_add, ← mul_assoc]
    exact mul_le_mul_of_nonneg_right h3 (Real.exp_pos _).le
  · refine le_trans h8 ?_
    rw [Real.exp_add, ← mul_assoc]
    exact mul_le_mul_of_nonneg_right h4 (Real.exp_pos _).le

theorem near_mul' {δ ε : ℝ} {a b : XF} {x y : ℝ} (h : Near δ a x) (h' : Near ε b y) :
    Near (δ + ε) (XF.mul a b) (x * y) := by
  obtain ⟨h0, p, rfl, h1, h2⟩ := h
  obtain ⟨h0', q, rfl, h1', h2'⟩ := h'
  refine ⟨mul_pos h0 h0', p * q, rfl, ?_, ?_⟩
  · rw [neg_add, Real.exp_add, mul_mul_mul_comm]
    exact mul_le_mul h1 h1' (mul_pos h0' (Real.exp_pos _)).le
      ((mul_pos h0 (Real.exp_pos _)).le.trans h1)
  · rw [Real.exp_add, mul_mul_mul_comm]
    have hq : 0 ≤ q := (mul_pos h0' (Real.exp_pos _)).le.trans h1'
    exact mul_le_mul h2 h2' hq (mul_pos h0 (Real.exp_pos _)).le

theorem near_inv {δ : ℝ} {y q : ℝ} (h : Near δ (fin q) y) : Near δ (fin q⁻¹) y⁻¹ := by
  obtain ⟨h0, p, e, h1, h2⟩ := h
  have := XF.fin.inj e
  subst this
  have hq := lt_of_lt_of_le (mul_pos h0 (Real.exp_pos _)) h1
  refine ⟨inv_pos.2 h0, q⁻¹, rfl, ?_, ?_⟩
  · rw [Real.exp_neg, ← mul_inv]
    exact inv_anti₀ hq h2
  · have := inv_anti₀ (mul_pos h0 (Real.exp_pos _)) h1
    rwa [mul_inv, ← Real.exp_neg, neg_neg] at this

theorem near_div' {δ ε : ℝ} {a b : XF} {x y : ℝ} (h : Near δ a x) (h' : Near ε b y) :
    Near (δ + ε) (XF.div a b) (x / y) := by
  obtain ⟨q, rfl, hq⟩ := h'.pos
  have h0 := h
  obtain ⟨_, p, rfl, _, _⟩ := h0
  have e : XF.div (fin p) (fin q) = XF.mul (fin p) (fin q⁻¹) := by
    show (if q = 0 then signInf p else fin (p / q)) = fin (p * q⁻¹)
    rw [if_neg hq.ne', div_eq_mul_inv]
  rw [e, div_eq_mul_inv]
  exact near_mul' h (near_inv h')

theorem near_mul {δ ε : ℝ} {a b : XF} {x y : ℝ} (h : Near δ a x) (h' : Near ε b y)
    (hd : δ + ε ≤ 1) (h1 : 1e-199 ≤ x * y) (h2 : x * y ≤ 1e199) :
    Near (δ + ε + uu) (F.rd (XF.mul a b)) (x * y) := (near_mul' h h').rd F hd h1 h2

theorem near_div {δ ε : ℝ} {a b : XF} {x y : ℝ} (h : Near δ a x) (h' : Near ε b y)
    (hd : δ + ε ≤ 1) (h1 : 1e-199 ≤ x / y) (h2 : x / y ≤ 1e199) :
    Near (δ + ε + uu) (F.rd (XF.div a b)) (x / y) := (near_div' h h').rd F hd h1 h2

end

end Verif.Lemmas
