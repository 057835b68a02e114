import Verif.Props.AtmIr
import Verif.Props.FloatNirAccuracy
import Verif.Base.Double
/-
Property C176: the limb correction of infrared temperatures in floating point.
-/
namespace Verif.Props
open Verif Verif.AtmIr Verif.Lemmas Verif.XF PyNum

/-- What is assumed of the power function: right up to a relative error of 2^-50. -/
def GoodPow (F : FP) : Prop := ∀ b x : ℝ, 1 ≤ b → b ≤ 100 → |x| ≤ 10 →
  ∃ y, F.pow (fin b) (fin x) = fin y ∧ |y - b ^ x| ≤ b ^ x / 2 ^ 50

/-- double precision has such a power function -/
theorem double_goodPow : GoodPow Double.fp := by
  intro b x hb hb' hx
  have h0 : 0 < b := by linarith
  have hp : 0 < b ^ x := Real.rpow_pos_of_pos h0 x
  obtain ⟨x1, x2⟩ := abs_le.1 hx
  have e : (powx (fin b) (fin x)) = fin (b ^ x) := pow_pos_base h0 x
  have hhi : b ^ x ≤ 1e200 := by
    have h1 : b ^ x ≤ b ^ (10 : ℝ) := Real.rpow_le_rpow_of_exponent_le hb x2
    have h2 : b ^ (10 : ℝ) = b ^ 10 := by exact_mod_cast Real.rpow_natCast b 10
    have h3 : b ^ 10 ≤ 100 ^ 10 := pow_le_pow_left₀ h0.le hb' 10
    rw [h2] at h1
    refine (h1.trans h3).trans ?_
    norm_num
  have hlo : 1e-200 ≤ b ^ x := by
    have h1 : b ^ (-10 : ℝ) ≤ b ^ x := Real.rpow_le_rpow_of_exponent_le hb x1
    have h2 : b ^ (-10 : ℝ) = (b ^ 10)⁻¹ := by
      rw [Real.rpow_neg h0.le]; congr 1; exact_mod_cast Real.rpow_natCast b 10
    have h3 : b ^ 10 ≤ 100 ^ 10 := pow_le_pow_left₀ h0.le hb' 10
    rw [h2] at h1
    refine le_trans ?_ h1
    refine le_trans ?_ (inv_anti₀ (by positivity) h3)
    norm_num
  obtain ⟨y, e', h⟩ := Double.rnd_near _ hlo hhi
  refine ⟨y, ?_, h.trans (div_le_div_of_nonneg_left hp.le (by positivity) (by norm_num))⟩
  show Double.rd (powx (fin b) (fin x)) = _
  rw [e]; exact e'

/-! ### Absolute errors -/

section
variable {F : FP}

/-- `a` is a number within `e` of `x` -/
def Val (e : ℝ) (a : XF) (x : ℝ) : Prop := ∃ y, a = fin y ∧ |y - x| ≤ e

theorem Val.mono {e e' : ℝ} {a : XF} {x : ℝ} (h : Val e a x) (he : e ≤ e') : Val e' a x := by
  obtain ⟨y, h1, h2⟩ := h
  exact ⟨y, h1, h2.trans he⟩

theorem val_self (x : ℝ) : Val 0 (fin x) x := ⟨x, rfl, by simp⟩

theorem Val.rd {e : ℝ} {a : XF} {x : ℝ} (h : Val e a x) (he : e ≤ 1) (hx : |x| ≤ 1000) :
    Val (e + 3e-13) (F.rd a) x := by
  obtain ⟨y, rfl, h2⟩ := h
  have hy : |y| ≤ 1001 := by
    have := abs_add_le (y - x) x
    rw [sub_add_cancel] at this
    linarith
  obtain ⟨w, e1, h3⟩ := rnd_any (F := F) y (hy.trans (by norm_num))
  refine ⟨w, e1, ?_⟩
  have h4 : |y| / 2 ^ 52 ≤ 2.5e-13 := by
    rw [div_le_iff₀ (by positivity)]
    refine hy.trans ?_
    norm_num
  have h5 : |w - x| ≤ |w - y| + |y - x| := abs_sub_le w y x
  have h6 : (2.5e-13 : ℝ) + 2e-200 ≤ 3e-13 := by norm_num
  linarith

theorem val_add {e e' : ℝ} {a b : XF} {x y : ℝ} (h : Val e a x) (h' : Val e' b y) : Val (e + e') (XF.add a b) (x + y) := by
  obtain ⟨p, rfl, h1⟩ := h
  obtain ⟨q, rfl, h2⟩ := h'
  refine ⟨p + q, rfl, ?_⟩
  rw [show p + q - (x + y) = (p - x) + (q - y) by ring]
  exact (abs_add_le _ _).trans (add_le_add h1 h2)

theorem val_sub {e e' : ℝ} {a b : XF} {x y : ℝ} (h : Val e a x) (h' : Val e' b y) : Val (e + e') (XF.sub a b) (x - y) := by
  obtain ⟨p, rfl, h1⟩ := h
  obtain ⟨q, rfl, h2⟩ := h'
  refine ⟨p - q, fin_sub p q, ?_⟩
  rw [show p - q - (x - y) = (p - x) - (q - y) by ring]
  exact (abs_sub _ _).trans (add_le_add h1 h2)

theorem val_mul {e e' X Y : ℝ} {a b : XF} {x y : ℝ} (h : Val e a x) (h' : Val e' b y) (he : e ≤ 1) (hX : |x| ≤ X)
    (hY : |y| ≤ Y) : Val (e * Y + (X + 1) * e') (XF.mul a b) (x * y) := by
  obtain ⟨p, rfl, h1⟩ := h
  obtain ⟨q, rfl, h2⟩ := h'
  refine ⟨p * q, fin_mul p q, ?_⟩
  have hp : |p| ≤ X + 1 := by
    have := abs_add_le (p - x) x
    rw [sub_add_cancel] at this
    linarith
  have e0 : 0 ≤ e := (abs_nonneg _).trans h1
  have e0' : 0 ≤ e' := (abs_nonneg _).trans h2
  rw [show p * q - x * y = (p - x) * y + p * (q - y) by ring]
  refine (abs_add_le _ _).trans (add_le_add ?_ ?_)
  · rw [abs_mul]; exact mul_le_mul h1 hY (abs_nonneg _) e0
  · rw [abs_mul]; exact mul_le_mul hp h2 (abs_nonneg _) ((abs_nonneg _).trans hp)

theorem val_div {e : ℝ} {a : XF} {x : ℝ} (h : Val e a x) (c : ℝ) (hc : 1 ≤ c) : Val e (XF.div a (fin c)) (x / c) := by
  obtain ⟨p, rfl, h1⟩ := h
  have hc0 : 0 < c := by linarith
  refine ⟨p / c, fin_div _ hc0.ne', ?_⟩
  rw [← sub_div, abs_div, abs_of_pos hc0]
  exact (div_le_self (abs_nonneg _) hc).trans h1

/-- constants that are whole numbers are exact -/
theorem sci_int (m : ℕ) (s : Bool) (e : ℕ) (n : ℕ) (hn : n ≤ 2 ^ 53) (h : (OfScientific.ofScientific m s e : ℝ) = n) :
    (OfScientific.ofScientific m s e : RF F) = RF.of (n : ℝ) := by
  show F.rnd (OfScientific.ofScientific m s e : ℝ) = _
  rw [h]; exact rnd_nat F n hn

theorem ratio_val (t v0 v1 : ℝ) (n0 n1 : ℕ) (ht : |t| ≤ 500) (h0 : v0 = n0) (h1 : v1 = n1) (hn0 : n0 + 1 ≤ n1) (hn : n1 ≤ 400) :
    Val 6e-13 (ratio (α := RF F) (RF.of t) (RF.of v0) (RF.of v1)) ((t - v0) / (v1 - v0)) := by
  subst h0 h1
  have r0 : (0 : ℝ) ≤ n0 := Nat.cast_nonneg _
  have r1 : (n0 : ℝ) + 1 ≤ n1 := by exact_mod_cast hn0
  have r2 : (n1 : ℝ) ≤ 400 := by exact_mod_cast hn
  have hd : (RF.of (n1 : ℝ) - RF.of (n0 : ℝ) : RF F) = RF.of ((n1 : ℝ) - n0) := by
    show F.rd (XF.sub (fin (n1 : ℝ)) (fin (n0 : ℝ))) = _
    rw [show XF.sub (fin (n1 : ℝ)) (fin (n0 : ℝ)) = fin ((n1 : ℝ) - n0) from fin_sub _ _]
    have : ((n1 - n0 : ℕ) : ℝ) = (n1 : ℝ) - n0 := Nat.cast_sub (by omega)
    show F.rnd _ = _
    rw [← this]
    exact rnd_nat F _ (by omega)
  have ha := abs_le.1 ht
  have h1 : Val 3e-13 (RF.of t - RF.of (n0 : ℝ) : RF F) (t - n0) := by
    have := (val_sub (val_self t) (val_self (n0 : ℝ))).rd (F := F) (by norm_num) (by rw [abs_le]; constructor <;> linarith)
    exact this.mono (by norm_num)
  unfold ratio
  rw [hd]
  have h2 := (val_div h1 ((n1 : ℝ) - n0) (by linarith)).rd (F := F) (by norm_num) (by
    rw [abs_div, abs_of_pos (show (0 : ℝ) < n1 - n0 by linarith)]
    refine (div_le_self (abs_nonneg _) (by linarith)).trans ?_
    rw [abs_le]; constructor <;> linarith)
  exact h2.mono (by norm_num)

/-- the power function at nearby arguments -/
theorem rpow_near {b c r x M : ℝ} (hc : 7 ≤ c) (hc' : c ≤ 11) (hb : |b - c| ≤ 1e-12) (hx : |x| ≤ 2) (hr : |r - x| ≤ 1e-12)
    (hM : c ^ x ≤ M) : |b ^ r - c ^ x| ≤ M * 1e-11 := by
  have hc0 : 0 < c := by linarith
  obtain ⟨b1, b2⟩ := abs_le.1 hb
  norm_num at b1 b2
  have hb0 : 6 ≤ b := by linarith
  have hb12 : b ≤ 12 := by linarith
  have hbp : 0 < b := by linarith
  have hcx : 0 < c ^ x := Real.rpow_pos_of_pos hc0 x
  have lb : Real.log b ≤ 3 := by
    rw [Real.log_le_iff_le_exp hbp]
    have h1 : (2.7 : ℝ) ≤ Real.exp 1 := by have := Real.exp_one_gt_d9; norm_num at this ⊢; linarith
    have h2 : Real.exp 3 = Real.exp 1 ^ 3 := by rw [← Real.exp_nat_mul]; norm_num
    have h3 := pow_le_pow_left₀ (by norm_num) h1 3
    rw [h2]
    norm_num at h3 ⊢
    linarith
  have lb0 : 0 ≤ Real.log b := Real.log_nonneg (by linarith)
  have hl : |Real.log b - Real.log c| ≤ 1e-12 := by
    rw [← Real.log_div hbp.ne' hc0.ne']
    have u1 : Real.log (b / c) ≤ b / c - 1 := Real.log_le_sub_one_of_pos (div_pos hbp hc0)
    have u2 : 1 - (b / c)⁻¹ ≤ Real.log (b / c) := Real.one_sub_inv_le_log_of_pos (div_pos hbp hc0)
    have v1 : b / c - 1 ≤ 1e-12 := by
      rw [show b / c - 1 = (b - c) / c by field_simp]
      rw [div_le_iff₀ hc0]; norm_num; linarith
    have v2 : -1e-12 ≤ 1 - (b / c)⁻¹ := by
      rw [inv_div, show 1 - c / b = (b - c) / b by field_simp]
      rw [le_div_iff₀ hbp]; norm_num; linarith
    rw [abs_le]; constructor <;> linarith
  obtain ⟨d, hd⟩ : ∃ d, d = Real.log b * r - Real.log c * x := ⟨_, rfl⟩
  have hdd : |d| ≤ 5e-12 := by
    rw [hd, show Real.log b * r - Real.log c * x = Real.log b * (r - x) + (Real.log b - Real.log c) * x by ring]
    refine (abs_add_le _ _).trans ?_
    rw [abs_mul, abs_mul, abs_of_nonneg lb0]
    have a1 : Real.log b * |r - x| ≤ 3 * 1e-12 := mul_le_mul lb hr (abs_nonneg _) (by norm_num)
    have a2 : |Real.log b - Real.log c| * |x| ≤ 1e-12 * 2 := mul_le_mul hl hx (abs_nonneg _) (by norm_num)
    norm_num at a1 a2 ⊢
    linarith
  have e1 : b ^ r = c ^ x * Real.exp d := by
    rw [Real.rpow_def_of_pos hbp, Real.rpow_def_of_pos hc0, ← Real.exp_add, hd]
    congr 1; ring
  rw [e1, show c ^ x * Real.exp d - c ^ x = c ^ x * (Real.exp d - 1) by ring, abs_mul, abs_of_pos hcx]
  have h5 : |Real.exp d - 1| ≤ 1e-11 := by
    have := Real.abs_exp_sub_one_le (x := d) (hdd.trans (by norm_num))
    refine this.trans ?_
    norm_num at hdd ⊢; linarith
  exact mul_le_mul hM h5 (abs_nonneg _) (hcx.le.trans hM)

/-- the power function as computed -/
theorem pow_val (hF : GoodPow F) {b r : XF} {c x M : ℝ} (hc : 7 ≤ c) (hc' : c ≤ 11) (hb : Val 1e-12 b c) (hx : |x| ≤ 2)
    (hr : Val 1e-12 r x) (hM : c ^ x ≤ M) : Val (M * 2e-11) (F.pow b r) (c ^ x) := by
  obtain ⟨b, rfl, hb⟩ := hb
  obtain ⟨r, rfl, hr⟩ := hr
  have h := rpow_near hc hc' hb hx hr hM
  have hcx : 0 < c ^ x := Real.rpow_pos_of_pos (by linarith) x
  have hM0 : 0 < M := hcx.trans_le hM
  obtain ⟨b1, b2⟩ := abs_le.1 hb
  obtain ⟨r1, r2⟩ := abs_le.1 hr
  obtain ⟨x1, x2⟩ := abs_le.1 hx
  norm_num at b1 b2 r1 r2
  obtain ⟨y, e, hy⟩ := hF b r (by linarith) (by linarith) (by rw [abs_le]; constructor <;> linarith)
  refine ⟨y, e, ?_⟩
  have h6 : b ^ r ≤ 2 * M := by
    have := (abs_le.1 h).2
    norm_num at this ⊢
    linarith
  have h7 : b ^ r / 2 ^ 50 ≤ M * 1e-11 := by
    rw [div_le_iff₀ (by positivity)]
    refine h6.trans ?_
    norm_num
    linarith
  have := abs_sub_le y (b ^ r) (c ^ x)
  norm_num at this h7 h ⊢
  linarith

theorem one_val : (1 : RF F) = RF.of 1 := by
  show F.rnd ((1 : ℤ) : ℝ) = _
  have := rnd_nat F 1 (by norm_num)
  rw [Nat.cast_one] at this
  rw [Int.cast_one]; exact this

theorem zero_val : (0 : RF F) = RF.of 0 := by
  show F.rnd ((0 : ℤ) : ℝ) = _
  have := rnd_nat F 0 (by norm_num)
  rw [Nat.cast_zero] at this
  rw [Int.cast_zero]; exact this

/-- `1 + 6.2`, `1 + 9.85` -/
theorem base_val (m : ℕ) (s : Bool) (e : ℕ) (c : ℝ) (h : (OfScientific.ofScientific m s e : ℝ) = c) (h0 : 0 ≤ c) (h1 : c ≤ 10) :
    Val 1e-12 (1 + OfScientific.ofScientific m s e : RF F) (1 + c) := by
  rw [one_val]
  have a : Val (0 + 3e-13) (OfScientific.ofScientific m s e : RF F) c := by
    have := (val_self c).rd (F := F) (by norm_num) (by rw [abs_of_nonneg h0]; linarith)
    show Val _ (F.rnd (OfScientific.ofScientific m s e : ℝ)) c
    rw [h]; exact this
  have := (val_add (val_self 1) a).rd (F := F) (by norm_num) (by rw [abs_of_nonneg (by linarith)]; linarith)
  exact this.mono (by norm_num)

/-- factor of the zenith angle -/
theorem delta_val (hF : GoodPow F) (z : ℝ) (h0 : 0 ≤ z) (h1 : z ≤ 90) :
    Val 5e-10 (delta (α := RF F) (RF.of z)) ((7.2 : ℝ) ^ (z / 70) - 1) ∧ (7.2 : ℝ) ^ (z / 70) ≤ 20 := by
  have hM : (7.2 : ℝ) ^ (z / 70) ≤ 20 := by
    have a : (7.2 : ℝ) ^ (z / 70) ≤ 7.2 ^ (3 / 2 : ℝ) :=
      Real.rpow_le_rpow_of_exponent_le (by norm_num) (by rw [div_le_iff₀ (by norm_num)]; linarith)
    refine a.trans ?_
    have b : ((7.2 : ℝ) ^ (3 / 2 : ℝ)) ^ 2 = 7.2 ^ 3 := by
      rw [← Real.rpow_natCast, ← Real.rpow_mul (by norm_num), ← Real.rpow_natCast]; norm_num
    have c : (0 : ℝ) ≤ 7.2 ^ (3 / 2 : ℝ) := Real.rpow_nonneg (by norm_num) _
    by_contra hlt
    push Not at hlt
    have : (20 : ℝ) ^ 2 < ((7.2 : ℝ) ^ (3 / 2 : ℝ)) ^ 2 := pow_lt_pow_left₀ hlt (by norm_num) (by norm_num)
    rw [b] at this
    norm_num at this
  refine ⟨?_, hM⟩
  have hr := ratio_val (F := F) z 0 70 0 70 (by rw [abs_of_nonneg h0]; linarith) (by norm_num) (by norm_num) (by norm_num)
    (by norm_num)
  rw [sub_zero, sub_zero] at hr
  have hp := pow_val hF (c := 7.2) (x := z / 70) (by norm_num) (by norm_num)
    ((base_val (F := F) 62 true 1 6.2 rfl (by norm_num) (by norm_num)).mono le_rfl |> fun h => by
      rw [show (7.2 : ℝ) = 1 + 6.2 by norm_num]; exact h)
    (by rw [abs_of_nonneg (by positivity), div_le_iff₀ (by norm_num)]; linarith) (hr.mono (by norm_num)) hM
  have hpos : 0 < (7.2 : ℝ) ^ (z / 70) := Real.rpow_pos_of_pos (by norm_num) _
  have hs := (val_sub hp (val_self 1)).rd (F := F) (by norm_num) (by rw [abs_le]; constructor <;> linarith)
  unfold delta
  rw [sci_int (F := F) 0 true 1 0 (by norm_num) (by norm_num), sci_int (F := F) 700 true 1 70 (by norm_num) (by norm_num)]
  rw [one_val] at *
  simp only [Nat.cast_zero, Nat.cast_ofNat]
  exact hs.mono (by norm_num)

/-- the correction at nadir -/
theorem tau0_val (hF : GoodPow F) (t : ℝ) (h0 : 171 ≤ t) (h1 : t ≤ 400) :
    Val 3e-9 (tau0 (α := RF F) (RF.of t)) ((10.85 : ℝ) ^ ((t - 210) / 110) - 1) ∧ (10.85 : ℝ) ^ ((t - 210) / 110) ≤ 121 := by
  have hM : (10.85 : ℝ) ^ ((t - 210) / 110) ≤ 121 := by
    have a : (10.85 : ℝ) ^ ((t - 210) / 110) ≤ 10.85 ^ ((2 : ℕ) : ℝ) :=
      Real.rpow_le_rpow_of_exponent_le (by norm_num) (by rw [div_le_iff₀ (by norm_num)]; push_cast; linarith)
    refine a.trans ?_
    rw [Real.rpow_natCast]; norm_num
  refine ⟨?_, hM⟩
  have hr := ratio_val (F := F) t 210 320 210 320 (by rw [abs_of_nonneg (by linarith)]; linarith) (by norm_num) (by norm_num)
    (by norm_num) (by norm_num)
  rw [show (320 : ℝ) - 210 = 110 by norm_num] at hr
  have hp := pow_val hF (c := 10.85) (x := (t - 210) / 110) (by norm_num) (by norm_num)
    ((base_val (F := F) 985 true 2 9.85 rfl (by norm_num) (by norm_num)).mono le_rfl |> fun h => by
      rw [show (10.85 : ℝ) = 1 + 9.85 by norm_num]; exact h)
    (by rw [abs_le, le_div_iff₀ (by norm_num), div_le_iff₀ (by norm_num)]; constructor <;> linarith)
    (hr.mono (by norm_num)) hM
  have hpos : 0 < (10.85 : ℝ) ^ ((t - 210) / 110) := Real.rpow_pos_of_pos (by norm_num) _
  have hs := (val_sub hp (val_self 1)).rd (F := F) (by norm_num) (by rw [abs_le]; constructor <;> linarith)
  unfold tau0
  rw [sci_int (F := F) 2100 true 1 210 (by norm_num) (by norm_num), sci_int (F := F) 3200 true 1 320 (by norm_num) (by norm_num)]
  rw [one_val] at *
  simp only [Nat.cast_ofNat]
  exact hs.mono (by norm_num)

/-- factor of the temperature -/
theorem tau_val (t : ℝ) (h0 : 171 ≤ t) (h1 : t ≤ 400) :
    Val 1.1e-10 (tau (α := RF F) (RF.of t)) (((t - 170) / 125) ^ 4) ∧ ((t - 170) / 125) ^ 4 ≤ 12 ∧
      (∃ y, ratio (α := RF F) (RF.of t) 170.0 295.0 = RF.of y) ∧
      ∃ y, powNat (α := RF F) (ratio (RF.of t) 170.0 295.0) 4 = RF.of y := by
  have hr := ratio_val (F := F) t 170 295 170 295 (by rw [abs_of_nonneg (by linarith)]; linarith) (by norm_num) (by norm_num)
    (by norm_num) (by norm_num)
  rw [show (295 : ℝ) - 170 = 125 by norm_num] at hr
  obtain ⟨x, hx⟩ : ∃ x, x = (t - 170) / 125 := ⟨_, rfl⟩
  have x0 : 0.008 ≤ x := by rw [hx, le_div_iff₀ (by norm_num)]; norm_num; linarith
  have x1 : x ≤ 1.84 := by rw [hx, div_le_iff₀ (by norm_num)]; norm_num; linarith
  have hM : x ^ 4 ≤ 12 := (pow_le_pow_left₀ (by linarith) x1 4).trans (by norm_num)
  rw [← hx] at hr ⊢
  rw [sci_int (F := F) 1700 true 1 170 (by norm_num) (by norm_num), sci_int (F := F) 2950 true 1 295 (by norm_num) (by norm_num)]
  simp only [Nat.cast_ofNat]
  obtain ⟨r, er, hrr⟩ := hr
  obtain ⟨r1, r2⟩ := abs_le.1 hrr
  norm_num at r1 r2 x0 x1
  have r0 : 0.007 ≤ r := by norm_num; linarith
  have r3 : r ≤ 1.9 := by norm_num; linarith
  have q0 : (0.007 : ℝ) ^ 4 ≤ r ^ 4 := pow_le_pow_left₀ (by norm_num) r0 4
  have q1 : r ^ 4 ≤ 14 := (pow_le_pow_left₀ (by linarith) r3 4).trans (by norm_num)
  obtain ⟨y, ey, hy⟩ := F.powNat_near r 4 (by linarith) (le_trans (by norm_num) q0) (q1.trans (by norm_num))
  have epow : powNat (α := RF F) (ratio (RF.of t) (RF.of 170) (RF.of 295)) 4 = RF.of y := by
    rw [show ratio (α := RF F) (RF.of t) (RF.of 170) (RF.of 295) = RF.of r from er]
    exact ey
  refine ⟨?_, hM, ⟨r, er⟩, ⟨y, epow⟩⟩
  unfold tau
  rw [sci_int (F := F) 1700 true 1 170 (by norm_num) (by norm_num), sci_int (F := F) 2950 true 1 295 (by norm_num) (by norm_num),
    sci_int (F := F) 10 true 1 1 (by norm_num) (by norm_num)]
  simp only [Nat.cast_ofNat, Nat.cast_one]
  rw [epow]
  have h4 : |r ^ 4 - x ^ 4| ≤ 3e-11 := by
    rw [show r ^ 4 - x ^ 4 = (r - x) * (r ^ 3 + r ^ 2 * x + r * x ^ 2 + x ^ 3) by ring, abs_mul]
    have p0 : 0 ≤ r ^ 3 + r ^ 2 * x + r * x ^ 2 + x ^ 3 := by
      have : 0 ≤ r := by linarith
      have : 0 ≤ x := by linarith
      positivity
    have p1 : r ^ 3 + r ^ 2 * x + r * x ^ 2 + x ^ 3 ≤ 32 := by
      have a0 : 0 ≤ r := by linarith
      have b0 : 0 ≤ x := by linarith
      have a : r ≤ 2 := by linarith
      have b : x ≤ 2 := by linarith
      have c1 : r ^ 2 ≤ 4 := by nlinarith
      have c2 : x ^ 2 ≤ 4 := by nlinarith
      have d1 : r ^ 3 ≤ 8 := by nlinarith
      have d2 : x ^ 3 ≤ 8 := by nlinarith
      have e1 : r ^ 2 * x ≤ 8 := by nlinarith
      have e2 : r * x ^ 2 ≤ 8 := by nlinarith
      linarith
    rw [abs_of_nonneg p0]
    refine (mul_le_mul hrr p1 p0 (by norm_num)).trans ?_
    norm_num
  have hy2 : Val 5e-11 (fin y : XF) (x ^ 4) := by
    refine ⟨y, rfl, ?_⟩
    have := abs_sub_le y (r ^ 4) (x ^ 4)
    have h5 : r ^ 4 / 2 ^ 50 ≤ 1.5e-14 * 1 := by
      rw [div_le_iff₀ (by positivity)]
      refine q1.trans ?_
      norm_num
    norm_num at this h4 h5 ⊢
    linarith
  have hm := (val_mul (val_self 1) hy2 (X := 1) (Y := 12) (by norm_num) (by norm_num) (by rw [abs_of_nonneg (by positivity)]; exact hM)).rd
    (F := F) (by norm_num) (by rw [one_mul, abs_of_nonneg (by positivity)]; linarith)
  rw [one_mul] at hm
  exact hm.mono (by norm_num)

/-- a pixel of a dask array as computed -/
theorem dask_val (hF : GoodPow F) (t z : ℝ) (h0 : 171 ≤ t) (h1 : t ≤ 400) (z0 : 0 ≤ z) (z1 : z < 90) :
    Val 1e-8 (pixDask (α := RF F) (RF.of t) (RF.of z)) (t + limbCorrection t z) := by
  unfold pixDask limbCorrection
  have hz : (PyNum.eq (RF.of z : RF F) 0 = true) ↔ z = 0 := by
    rw [zero_val]
    show (eqb (fin z) (fin 0) = true) ↔ _
    simp [eqb]
  by_cases hz0 : z = 0
  · rw [if_pos (hz.2 hz0), if_pos hz0]
    obtain ⟨a, b⟩ := tau0_val hF t h0 h1
    have hpos : 0 < (10.85 : ℝ) ^ ((t - 210) / 110) := Real.rpow_pos_of_pos (by norm_num) _
    have := (val_add (val_self t) a).rd (F := F) (by norm_num) (by rw [abs_le]; constructor <;> linarith)
    exact this.mono (by norm_num)
  · rw [if_neg (fun h => hz0 (hz.1 h)), if_neg hz0]
    have hz2 : 0 < z := lt_of_le_of_ne z0 (Ne.symm hz0)
    have hc : (PyNum.gt (RF.of z : RF F) 0 && PyNum.lt (RF.of z : RF F) 90) = true := by
      rw [zero_val]
      have e90 : (90 : RF F) = RF.of 90 := by
        show F.rnd ((90 : ℤ) : ℝ) = _
        have := rnd_nat F 90 (by norm_num)
        rw [Nat.cast_ofNat] at this
        rw [Int.cast_ofNat]; exact this
      rw [e90]
      show (ltb (fin 0) (fin z) && ltb (fin z) (fin 90)) = true
      simp [ltb, hz2, z1]
    rw [if_pos hc, if_pos ⟨hz2, z1⟩]
    obtain ⟨a, b⟩ := delta_val hF z z0 z1.le
    obtain ⟨c, d, _⟩ := tau_val (F := F) t h0 h1
    have hpos : 1 ≤ (7.2 : ℝ) ^ (z / 70) := Real.one_le_rpow (by norm_num) (by positivity)
    have c0 : 0 ≤ ((t - 170) / 125) ^ 4 := by positivity
    have e0 : 0 ≤ (7.2 : ℝ) ^ (z / 70) - 1 := by linarith
    have hp : ((t - 170) / 125) ^ 4 * ((7.2 : ℝ) ^ (z / 70) - 1) ≤ 12 * 19 :=
      mul_le_mul d (by linarith) e0 (by norm_num)
    have hp0 := mul_nonneg c0 e0
    have hm := (val_mul c a (X := 12) (Y := 19) (by norm_num) (by rw [abs_of_nonneg c0]; exact d)
      (by rw [abs_of_nonneg e0]; linarith)).rd (F := F) (by norm_num) (by rw [abs_of_nonneg hp0]; linarith)
    have := (val_add (val_self t) hm).rd (F := F) (by norm_num) (by rw [abs_of_nonneg (by linarith)]; linarith)
    exact this.mono (by norm_num)

end

/-! ### Masked arrays -/

section
variable {α : Type} [PyNum α]

theorem ratioM_ok (t a b : α) (h : isFinite (ratio t a b) = true) : ratioM ⟨t, false⟩ a b = ⟨ratio t a b, false⟩ := by
  unfold ratio at h ⊢
  simp [ratioM, Masked.sub, Masked.div, h]

theorem tau0M_ok (t : α) (h : isFinite (ratio t 210.0 320.0) = true)
    (h2 : isFinite (pow (1 + 9.85 : α) (ratio t 210.0 320.0)) = true) : tau0M ⟨t, false⟩ = ⟨tau0 t, false⟩ := by
  simp [tau0M, ratioM_ok _ _ _ h, Masked.power, Masked.sub, h2, tau0]

theorem deltaM_ok (z : α) (h : isFinite (ratio z 0.0 70.0) = true)
    (h2 : isFinite (pow (1 + 6.2 : α) (ratio z 0.0 70.0)) = true) : deltaM ⟨z, false⟩ = ⟨delta z, false⟩ := by
  simp [deltaM, ratioM_ok _ _ _ h, Masked.power, Masked.sub, h2, delta]

theorem tauM_ok (t : α) (h : isFinite (ratio t 170.0 295.0) = true)
    (h2 : isFinite (powNat (ratio t 170.0 295.0) 4) = true) : tauM ⟨t, false⟩ = ⟨tau t, false⟩ := by
  simp [tauM, ratioM_ok _ _ _ h, Masked.power, h2, tau]

end

section
variable {F : FP}

theorem finite_of (y : ℝ) : isFinite (RF.of y : RF F) = true := by
  have : (RF.of y - RF.of y : RF F) = RF.of 0 := by
    show F.rd (XF.sub (fin y) (fin y)) = _
    rw [show XF.sub (fin y) (fin y) = fin (y - y) from fin_sub y y, sub_self]
    exact rnd_zero F
  unfold isFinite
  rw [this]; rfl

theorem finite_val {e x : ℝ} {a : RF F} (h : Val e a x) : isFinite a = true := by
  obtain ⟨y, rfl, _⟩ := h
  exact finite_of y

/-- the pixel of a masked array is computed like that of a dask array -/
theorem masked_val (hF : GoodPow F) (t z : ℝ) (h0 : 171 ≤ t) (h1 : t ≤ 400) (z0 : 0 ≤ z) (z1 : z < 90) :
    pixLimb (pixNadir (α := RF F) ⟨RF.of t, false⟩ ⟨RF.of z, false⟩) ⟨RF.of z, false⟩ =
      ⟨pixDask (RF.of t) (RF.of z), false⟩ := by
  have hz : PyNum.eq (RF.of z : RF F) 0 = decide (z = 0) := by rw [zero_val]; rfl
  have hg : PyNum.gt (RF.of z : RF F) 0 = decide (0 < z) := by rw [zero_val]; rfl
  have hl : PyNum.lt (RF.of z : RF F) 90 = true := by
    have e90 : (90 : RF F) = RF.of 90 := by
      show F.rnd ((90 : ℤ) : ℝ) = _
      have := rnd_nat F 90 (by norm_num)
      rw [Nat.cast_ofNat] at this
      rw [Int.cast_ofNat]; exact this
    rw [e90]
    show ltb (fin z) (fin 90) = true
    simp [ltb, z1]
  unfold pixDask pixLimb pixNadir
  simp only [hz, hg, hl, Masked.filled]
  by_cases hz0 : z = 0
  · have hM : (10.85 : ℝ) ^ ((t - 210) / 110) ≤ 121 := (tau0_val hF t h0 h1).2
    have hr := ratio_val (F := F) t 210 320 210 320 (by rw [abs_of_nonneg (by linarith)]; linarith) (by norm_num)
      (by norm_num) (by norm_num) (by norm_num)
    rw [show (320 : ℝ) - 210 = 110 by norm_num] at hr
    have hp := pow_val hF (c := 10.85) (x := (t - 210) / 110) (by norm_num) (by norm_num)
      ((base_val (F := F) 985 true 2 9.85 rfl (by norm_num) (by norm_num)).mono le_rfl |> fun h => by
        rw [show (10.85 : ℝ) = 1 + 9.85 by norm_num]; exact h)
      (by rw [abs_le, le_div_iff₀ (by norm_num), div_le_iff₀ (by norm_num)]; constructor <;> linarith)
      (hr.mono (by norm_num)) hM
    have e : ratio (α := RF F) (RF.of t) 210.0 320.0 = ratio (RF.of t) (RF.of 210) (RF.of 320) := by
      rw [sci_int (F := F) 2100 true 1 210 (by norm_num) (by norm_num),
        sci_int (F := F) 3200 true 1 320 (by norm_num) (by norm_num)]
      simp only [Nat.cast_ofNat]
    have k := tau0M_ok (RF.of t : RF F) (by rw [e]; exact finite_val hr) (by rw [e]; exact finite_val hp)
    simp [hz0, k, Masked.iadd]
  · have hz2 : 0 < z := lt_of_le_of_ne z0 (Ne.symm hz0)
    have hM := (delta_val hF z z0 z1.le).2
    have hr := ratio_val (F := F) z 0 70 0 70 (by rw [abs_of_nonneg z0]; linarith) (by norm_num) (by norm_num) (by norm_num)
      (by norm_num)
    rw [sub_zero, sub_zero] at hr
    have hp := pow_val hF (c := 7.2) (x := z / 70) (by norm_num) (by norm_num)
      ((base_val (F := F) 62 true 1 6.2 rfl (by norm_num) (by norm_num)).mono le_rfl |> fun h => by
        rw [show (7.2 : ℝ) = 1 + 6.2 by norm_num]; exact h)
      (by rw [abs_of_nonneg (by positivity), div_le_iff₀ (by norm_num)]; linarith) (hr.mono (by norm_num)) hM
    have e : ratio (α := RF F) (RF.of z) 0.0 70.0 = ratio (RF.of z) (RF.of 0) (RF.of 70) := by
      rw [sci_int (F := F) 0 true 1 0 (by norm_num) (by norm_num), sci_int (F := F) 700 true 1 70 (by norm_num) (by norm_num)]
      simp only [Nat.cast_ofNat, Nat.cast_zero]
    have k := deltaM_ok (RF.of z : RF F) (by rw [e]; exact finite_val hr) (by rw [e]; exact finite_val hp)
    obtain ⟨_, _, ⟨y, hy⟩, ⟨w, hw⟩⟩ := tau_val (F := F) t h0 h1
    have k2 := tauM_ok (RF.of t : RF F) (by rw [hy]; exact finite_of y) (by rw [hw]; exact finite_of w)
    simp [hz0, hz2, k, k2, Masked.iadd, Masked.mul]

/-- C176: in floating point, `viewzen_corr` on masked arrays and on dask arrays computes the same numbers, within
1e-8 kelvin of the documented correction, for images of temperatures between 171 and 400 kelvin seen under zenith
angles from 0 to 90 degrees. -/
theorem C176_limb_correction_accuracy (hF : GoodPow F) (m n : Nat) (temps angles : List ℝ)
    (hlt : temps.length = m * n) (hla : angles.length = m * n) (ht : ∀ t ∈ temps, 171 ≤ t ∧ t ≤ 400)
    (hz : ∀ z ∈ angles, 0 ≤ z ∧ z < 90) :
    ∃ out : List ℝ,
      (∀ (h : Heap (RF F)) (r : Nat), h.cell r = .masked ⟨[m, n], temps.map fun t => ⟨RF.of t, false⟩⟩ →
        ∃ h', viewzenCorr r ⟨[m, n], angles.map fun z => ⟨RF.of z, false⟩⟩ h = (.ok r, h') ∧
          h'.cell r = .masked ⟨[m, n], out.map fun y => ⟨RF.of y, false⟩⟩ ∧ ∀ q, q ≠ r → h'.cell q = h.cell q) ∧
      viewzenCorrDask (α := RF F) ⟨[m, n], temps.map RF.of⟩ ⟨[m, n], angles.map RF.of⟩ = .ok ⟨[m, n], out.map RF.of⟩ ∧
      out.length = m * n ∧
      ∀ (i : Nat) (t z : ℝ), temps[i]? = some t → angles[i]? = some z →
        ∃ y, out[i]? = some y ∧ |y - (t + limbCorrection t z)| ≤ 1e-8 := by
  have hex : ∀ t z : ℝ, ∃ y : ℝ, t ∈ temps → z ∈ angles → pixDask (α := RF F) (RF.of t) (RF.of z) = RF.of y ∧
      |y - (t + limbCorrection t z)| ≤ 1e-8 := by
    intro t z
    by_cases h : t ∈ temps ∧ z ∈ angles
    · obtain ⟨y, h1, h2⟩ := dask_val hF t z (ht t h.1).1 (ht t h.1).2 (hz z h.2).1 (hz z h.2).2
      exact ⟨y, fun _ _ => ⟨h1, h2⟩⟩
    · exact ⟨0, fun h1 h2 => absurd ⟨h1, h2⟩ h⟩
  choose f hf using hex
  have hzip : ∀ (β : Type) (g h : ℝ → ℝ → β), (∀ t ∈ temps, ∀ z ∈ angles, g t z = h t z) →
      List.zipWith g temps angles = List.zipWith h temps angles := by
    intro β g h hgh
    apply List.ext_getElem?
    intro i
    rw [List.getElem?_zipWith, List.getElem?_zipWith]
    cases e1 : temps[i]? with
    | none => rfl
    | some t =>
      cases e2 : angles[i]? with
      | none => rfl
      | some z => simp only [hgh t (List.mem_of_getElem? e1) z (List.mem_of_getElem? e2)]
  refine ⟨List.zipWith f temps angles, ?_, ?_, by simp [hlt, hla], ?_⟩
  · intro h r hr
    obtain ⟨h', h1, _, h2, h3⟩ := viewzenCorr_masked (v := ⟨[m, n], angles.map fun z => ⟨RF.of z, false⟩⟩) rfl rfl
      (by simpa using hlt) (by simpa using hla) r h hr
    refine ⟨h', h1, ?_, h2⟩
    rw [h3, List.zipWith_map, List.map_zipWith]
    congr 2
    refine hzip _ _ _ fun t ht' z hz' => ?_
    rw [masked_val hF t z (ht t ht').1 (ht t ht').2 (hz z hz').1 (hz z hz').2, (hf t z ht' hz').1]
  · rw [viewzenCorrDask_eq (a := ⟨[m, n], temps.map RF.of⟩) (v := ⟨[m, n], angles.map RF.of⟩) rfl (by simp [hlt, hla]), List.zipWith_map, List.map_zipWith]
    congr 2
    exact hzip _ _ _ fun t ht' z hz' => (hf t z ht' hz').1
  · intro i t z h1 h2
    refine ⟨f t z, by rw [List.getElem?_zipWith, h1, h2], ?_⟩
    exact (hf t z (List.mem_of_getElem? h1) (List.mem_of_getElem? h2)).2

/-- the example: double precision, two pixels, one of them at nadir -/
example : ∃ out : List ℝ,
    viewzenCorrDask (α := RF Double.fp) ⟨[1, 2], [RF.of 280, RF.of 300]⟩ ⟨[1, 2], [RF.of 60, RF.of 0]⟩ =
      .ok ⟨[1, 2], out.map RF.of⟩ ∧
    ∃ y, out[1]? = some y ∧ |y - (300 + ((10.85 : ℝ) ^ (((300 : ℝ) - 210) / 110) - 1))| ≤ 1e-8 := by
  obtain ⟨out, _, h1, _, h2⟩ := C176_limb_correction_accuracy double_goodPow 1 2 [280, 300] [60, 0] rfl rfl (by norm_num)
    (by norm_num)
  refine ⟨out, h1, ?_⟩
  obtain ⟨y, h3, h4⟩ := h2 1 300 0 rfl rfl
  refine ⟨y, h3, ?_⟩
  rwa [limbCorrection, if_pos rfl] at h4

end
end Verif.Props
