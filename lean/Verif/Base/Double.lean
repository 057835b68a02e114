import Verif.Lemmas.FP
import Mathlib.Data.Int.Log
/-
IEEE 754 double precision with rounding to nearest, ties to even, and correctly rounded library
functions, as an instance of the assumptions in `FP`.
-/
namespace Verif
open XF Lemmas

namespace Double

noncomputable section

/-- exponent of the spacing of the doubles around `x` -/
def expo (x : ℝ) : ℤ := max (Int.log 2 x) (-1022) - 52

/-- the multiple of the spacing nearest to `x`, ties to even -/
def nearest (x : ℝ) : ℝ := (rintR (x / 2 ^ expo x) : ℝ) * 2 ^ expo x

/-- rounding of a number that is not negative; overflow to infinity -/
def rndPos (x : ℝ) : XF := if nearest x < 2 ^ (1024 : ℕ) then fin (nearest x) else pinf

/-- rounding to nearest -/
def rnd (x : ℝ) : XF := if 0 ≤ x then rndPos x else neg (rndPos (-x))

theorem rintR_near (x : ℝ) : |(rintR x : ℝ) - x| ≤ 1 / 2 := by
  have h1 := Int.floor_le x
  have h2 := Int.lt_floor_add_one x
  unfold rintR
  split_ifs with a b c <;> push_cast <;> rw [abs_le] <;> constructor <;> linarith

theorem rintR_int (n : ℤ) : rintR n = n := by
  simp [rintR]

theorem rintR_mono {x y : ℝ} (h : x ≤ y) : rintR x ≤ rintR y := by
  have hf : ⌊x⌋ ≤ ⌊y⌋ := Int.floor_le_floor h
  rcases hf.lt_or_eq with hlt | heq
  · have h1 : rintR x ≤ ⌊x⌋ + 1 := by unfold rintR; split_ifs <;> omega
    have h2 : ⌊y⌋ ≤ rintR y := by unfold rintR; split_ifs <;> omega
    omega
  · unfold rintR
    rw [heq]
    have : x - ⌊y⌋ ≤ y - ⌊y⌋ := by linarith
    split_ifs with a b c d e <;> first | omega | (exfalso; linarith) | skip

theorem rintR_le_int {x : ℝ} {n : ℤ} (h : x ≤ n) : rintR x ≤ n := by
  have := rintR_mono h
  rwa [rintR_int] at this

theorem int_le_rintR {x : ℝ} {n : ℤ} (h : n ≤ x) : n ≤ rintR x := by
  have := rintR_mono h
  rwa [rintR_int] at this

theorem two_zpow_pos (e : ℤ) : (0 : ℝ) < 2 ^ e := zpow_pos two_pos e

theorem nearest_zero : nearest 0 = 0 := by
  unfold nearest
  rw [zero_div]
  have := rintR_int 0
  simp only [Int.cast_zero] at this
  rw [this]; simp

theorem nearest_nonneg {x : ℝ} (h : 0 ≤ x) : 0 ≤ nearest x := by
  apply mul_nonneg _ (two_zpow_pos _).le
  have : (0 : ℤ) ≤ rintR (x / 2 ^ expo x) := int_le_rintR (by
    simpa using div_nonneg h (two_zpow_pos _).le)
  exact_mod_cast this

/-- a power of two times the spacing is an integer power of two -/
theorem zpow_split {E e : ℤ} (h : e ≤ E) : ∃ n : ℤ, (2 : ℝ) ^ E = n * 2 ^ e := by
  refine ⟨2 ^ (E - e).toNat, ?_⟩
  have : ((E - e).toNat : ℤ) = E - e := Int.toNat_of_nonneg (by omega)
  push_cast
  rw [← zpow_natCast, this, ← zpow_add₀ two_ne_zero]
  congr 1; omega

theorem nearest_mono {x y : ℝ} (hx : 0 ≤ x) (h : x ≤ y) : nearest x ≤ nearest y := by
  rcases hx.lt_or_eq with hx | rfl
  swap
  · rw [nearest_zero]; exact nearest_nonneg h
  have hlog : Int.log 2 x ≤ Int.log 2 y := Int.log_mono_right hx h
  have he : expo x ≤ expo y := by unfold expo; omega
  rcases he.lt_or_eq with hlt | heq
  · have hE : Int.log 2 x < Int.log 2 y ∧ -1022 < Int.log 2 y ∧ expo y = Int.log 2 y - 52 := by
      unfold expo at hlt ⊢; omega
    obtain ⟨h1, h2, h3⟩ := hE
    have hy0 := hx.trans_le h
    have hyE : (2 : ℝ) ^ Int.log 2 y ≤ y := by
      have := Int.zpow_log_le_self (b := 2) one_lt_two hy0
      simpa using this
    have hxE : x ≤ (2 : ℝ) ^ Int.log 2 y := by
      have := (Int.lt_zpow_iff_log_lt (b := 2) one_lt_two hx).2 h1
      simpa using this.le
    trans (2 : ℝ) ^ Int.log 2 y
    · obtain ⟨n, hn⟩ := zpow_split (E := Int.log 2 y) (e := expo x) (by omega)
      unfold nearest
      rw [hn]
      apply mul_le_mul_of_nonneg_right _ (two_zpow_pos _).le
      have : rintR (x / 2 ^ expo x) ≤ n := rintR_le_int (by
        rw [div_le_iff₀ (two_zpow_pos _), ← hn]; exact hxE)
      exact_mod_cast this
    · obtain ⟨n, hn⟩ := zpow_split (E := Int.log 2 y) (e := expo y) (by omega)
      unfold nearest
      nth_rewrite 1 [hn]
      apply mul_le_mul_of_nonneg_right _ (two_zpow_pos _).le
      have : n ≤ rintR (y / 2 ^ expo y) := int_le_rintR (by
        rw [le_div_iff₀ (two_zpow_pos _), ← hn]; exact hyE)
      exact_mod_cast this
  · unfold nearest
    rw [heq]
    apply mul_le_mul_of_nonneg_right _ (two_zpow_pos _).le
    have : rintR (x / 2 ^ expo y) ≤ rintR (y / 2 ^ expo y) :=
      rintR_mono (div_le_div_of_nonneg_right h (two_zpow_pos _).le)
    exact_mod_cast this

theorem nearest_near {x : ℝ} (h1 : 1e-200 ≤ x) : |nearest x - x| ≤ x / 2 ^ 53 := by
  have hx : 0 < x := lt_of_lt_of_le (by norm_num) h1
  have hlog : -1022 ≤ Int.log 2 x := by
    rw [← Int.zpow_le_iff_le_log (b := 2) one_lt_two hx]
    refine le_trans ?_ h1
    have e : ((2 : ℕ) : ℝ) ^ (-1022 : ℤ) = 1 / (2 ^ 146) ^ 7 := by
      rw [← pow_mul, zpow_neg, one_div]
      norm_cast
    have e2 : (1e-200 : ℝ) = 1 / (10 ^ 25) ^ 8 := by norm_num
    rw [e, e2]
    have h3 : ((10 : ℝ) ^ 25) ^ 8 ≤ (2 ^ 146) ^ 7 := by
      have : ((10 : ℝ) ^ 25) ^ 8 ≤ (2 ^ 84) ^ 8 := by
        apply pow_le_pow_left₀ <;> norm_num
      refine this.trans ?_
      rw [← pow_mul, ← pow_mul]
      apply pow_le_pow_right₀ <;> norm_num
    exact one_div_le_one_div_of_le (by positivity) h3
  have he : expo x = Int.log 2 x - 52 := by unfold expo; omega
  have hq : (2 : ℝ) ^ expo x ≤ x / 2 ^ 52 := by
    have := Int.zpow_log_le_self (b := 2) one_lt_two hx
    rw [he, zpow_sub₀ two_ne_zero]
    rw [show (52 : ℤ) = ((52 : ℕ) : ℤ) by rfl, zpow_natCast]
    exact div_le_div_of_nonneg_right (by simpa using this) (by positivity)
  have h3 := rintR_near (x / 2 ^ expo x)
  have h4 : nearest x - x = ((rintR (x / 2 ^ expo x) : ℝ) - x / 2 ^ expo x) * 2 ^ expo x := by
    unfold nearest
    rw [sub_mul, div_mul_cancel₀ _ (two_zpow_pos _).ne']
  rw [h4, abs_mul, abs_of_pos (two_zpow_pos _)]
  calc _ ≤ 1 / 2 * (x / 2 ^ 52) := mul_le_mul h3 hq (two_zpow_pos _).le (by norm_num)
    _ = x / 2 ^ 53 := by ring

theorem nearest_nat {n : ℕ} (h : n ≤ 2 ^ 53) : nearest (n : ℝ) = n := by
  rcases Nat.eq_zero_or_pos n with rfl | hn
  · simpa using nearest_zero
  have hlog : Int.log 2 (n : ℝ) = Nat.log 2 n := Int.log_natCast 2 n
  have key : ∃ m : ℤ, (n : ℝ) / 2 ^ expo (n : ℝ) = m := by
    rcases Nat.lt_or_ge n (2 ^ 53) with h1 | h1
    · have : Nat.log 2 n < 53 := Nat.log_lt_of_lt_pow hn.ne' h1
      have he : expo (n : ℝ) ≤ 0 := by unfold expo; omega
      refine ⟨n * 2 ^ (-expo (n : ℝ)).toNat, ?_⟩
      have e : (((-expo (n : ℝ)).toNat : ℕ) : ℤ) = -expo (n : ℝ) := Int.toNat_of_nonneg (by omega)
      push_cast
      rw [← zpow_natCast, e, zpow_neg, div_eq_mul_inv]
    · have : n = 2 ^ 53 := le_antisymm h h1
      refine ⟨2 ^ 52, ?_⟩
      have he : expo (n : ℝ) = 1 := by
        unfold expo
        rw [hlog, this, Nat.log_pow (by norm_num)]; norm_num
      rw [he, this]; norm_num
  obtain ⟨m, hm⟩ := key
  unfold nearest
  rw [hm, rintR_int, ← hm, div_mul_cancel₀ _ (two_zpow_pos _).ne']

/-- a number that has been rounded stays -/
theorem nearest_idem {x : ℝ} (hx : 0 ≤ x) : nearest (nearest x) = nearest x := by
  rcases hx.lt_or_eq with hx | rfl
  swap
  · rw [nearest_zero, nearest_zero]
  obtain ⟨m, hm⟩ : ∃ m : ℤ, rintR (x / 2 ^ expo x) = m := ⟨_, rfl⟩
  obtain ⟨e, he⟩ : ∃ e : ℤ, expo x = e := ⟨_, rfl⟩
  have hy : nearest x = m * 2 ^ e := by unfold nearest; rw [hm, he]
  have he1 : -1074 ≤ e := by rw [← he]; unfold expo; omega
  have hm0 : 0 ≤ m := by
    rw [← hm]; exact int_le_rintR (by simpa using div_nonneg hx.le (two_zpow_pos _).le)
  have hm1 : m ≤ 2 ^ 53 := by
    rw [← hm]
    apply rintR_le_int
    rw [div_le_iff₀ (two_zpow_pos _)]
    have h1 : x < (2 : ℝ) ^ (Int.log 2 x + 1) := by
      have := Int.lt_zpow_succ_log_self (b := 2) one_lt_two x
      simpa using this
    refine h1.le.trans ?_
    rw [show (((2 ^ 53 : ℤ)) : ℝ) = 2 ^ (53 : ℤ) by norm_cast, ← zpow_add₀ two_ne_zero]
    apply zpow_le_zpow_right₀ one_le_two
    unfold expo; omega
  have key : ∃ k : ℤ, nearest x / 2 ^ expo (nearest x) = k := by
    rcases hm0.lt_or_eq with hm0 | hm0
    swap
    · exact ⟨0, by rw [hy, ← hm0]; simp⟩
    have hy0 : 0 < nearest x := by rw [hy]; exact mul_pos (by exact_mod_cast hm0) (two_zpow_pos _)
    have split : ∀ E d : ℤ, d ≤ E → ∃ k : ℤ, (2 : ℝ) ^ E / 2 ^ d = k := by
      intro E d h
      obtain ⟨n, hn⟩ := zpow_split h
      exact ⟨n, by rw [hn, mul_div_cancel_right₀ _ (two_zpow_pos _).ne']⟩
    rcases hm1.lt_or_eq with hm1 | hm1
    · have hlt : nearest x < ((2 : ℕ) : ℝ) ^ (53 + e) := by
        rw [hy]
        push_cast
        rw [zpow_add₀ two_ne_zero]
        apply mul_lt_mul_of_pos_right _ (two_zpow_pos _)
        exact_mod_cast hm1
      have := (Int.lt_zpow_iff_log_lt (b := 2) one_lt_two hy0).1 hlt
      obtain ⟨k, hk⟩ := split e (expo (nearest x)) (by unfold expo; omega)
      refine ⟨m * k, ?_⟩
      push_cast
      rw [← hk]
      nth_rewrite 1 [hy]
      rw [mul_div_assoc]
    · have h2 : nearest x = (2 : ℝ) ^ (53 + e) := by
        rw [hy, hm1, zpow_add₀ two_ne_zero]; norm_cast
      have : Int.log 2 (nearest x) = 53 + e := by
        rw [h2]
        have := Int.log_zpow (R := ℝ) (b := 2) one_lt_two (53 + e)
        simpa using this
      obtain ⟨k, hk⟩ := split (53 + e) (expo (nearest x)) (by unfold expo; omega)
      exact ⟨k, by rw [← hk, h2]⟩
  obtain ⟨k, hk⟩ := key
  conv_lhs => unfold nearest
  rw [show rintR (x / 2 ^ expo x) * 2 ^ expo x = nearest x from rfl, hk, rintR_int, ← hk,
    div_mul_cancel₀ _ (two_zpow_pos _).ne']

theorem rndPos_ne_nan (x : ℝ) : rndPos x ≠ nan := by unfold rndPos; split <;> simp

theorem rndPos_nonneg {x : ℝ} (h : 0 ≤ x) : Lx (fin 0) (rndPos x) := by
  unfold rndPos
  split
  · exact lx_fin.2 (nearest_nonneg h)
  · exact lx_pinf (by simp)

theorem rndPos_mono {x y : ℝ} (hx : 0 ≤ x) (h : x ≤ y) : Lx (rndPos x) (rndPos y) := by
  have := nearest_mono hx h
  unfold rndPos
  split_ifs with a b b
  · exact lx_fin.2 this
  · exact lx_pinf (by simp)
  · exact absurd (lt_of_le_of_lt this b) a
  · exact lx_pinf (by simp)

theorem neg_mono {a b : XF} (h : Lx a b) : Lx (neg b) (neg a) := by
  unfold Lx at *
  cases a <;> cases b <;> simp_all [leb, neg]

theorem rnd_mono (x y : ℝ) (h : x ≤ y) : Lx (rnd x) (rnd y) := by
  unfold rnd
  split_ifs with a b b
  · exact rndPos_mono a h
  · exact absurd (a.trans h) b
  · have h1 := neg_mono (rndPos_nonneg (x := -x) (by linarith))
    rw [show neg (fin 0) = fin 0 by simp [neg]] at h1
    exact h1.trans (rndPos_nonneg b)
  · exact neg_mono (rndPos_mono (by linarith) (by linarith))

theorem rndPos_zero : rndPos 0 = fin 0 := by
  unfold rndPos; rw [nearest_zero]; simp

theorem neg_neg' (a : XF) : neg (neg a) = a := by cases a <;> simp [neg]

theorem rnd_neg (x : ℝ) : rnd (-x) = neg (rnd x) := by
  unfold rnd
  rcases lt_trichotomy x 0 with h | rfl | h
  · rw [if_pos (by linarith), if_neg (by linarith), neg_neg']
  · simp [rndPos_zero, neg]
  · rw [if_neg (by linarith), if_pos h.le, neg_neg]

theorem rnd_nat {n : ℕ} (h : n ≤ 2 ^ 53) : rnd (n : ℝ) = fin n := by
  unfold rnd rndPos
  rw [if_pos (Nat.cast_nonneg n), nearest_nat h, if_pos]
  calc (n : ℝ) ≤ ((2 ^ 53 : ℕ) : ℝ) := by exact_mod_cast h
    _ = 2 ^ 53 := by norm_num
    _ < 2 ^ 1024 := pow_lt_pow_right₀ (by norm_num) (by norm_num)

theorem rnd_int (n : ℤ) (h : |n| ≤ 2 ^ 53) : rnd (n : ℝ) = fin n := by
  rcases le_total 0 n with hn | hn
  · obtain ⟨m, rfl⟩ := Int.eq_ofNat_of_zero_le hn
    have := rnd_nat (n := m) (by rw [abs_of_nonneg hn] at h; exact_mod_cast h)
    simpa using this
  · obtain ⟨m, hm⟩ := Int.eq_ofNat_of_zero_le (neg_nonneg.2 hn)
    have := rnd_nat (n := m) (by rw [abs_of_nonpos hn, hm] at h; exact_mod_cast h)
    have e : n = -(m : ℤ) := by omega
    rw [e]
    push_cast
    rw [rnd_neg, this]
    rfl

theorem rnd_near (x : ℝ) (h1 : 1e-200 ≤ x) (h2 : x ≤ 1e200) :
    ∃ y, rnd x = fin y ∧ |y - x| ≤ x / 2 ^ 53 := by
  have hx : 0 < x := lt_of_lt_of_le (by norm_num) h1
  have h3 := nearest_near h1
  refine ⟨nearest x, ?_, h3⟩
  unfold rnd rndPos
  rw [if_pos hx.le, if_pos]
  have h4 := (abs_le.1 h3).2
  have h5 : x / 2 ^ 53 ≤ x := div_le_self hx.le (by norm_num)
  have h6 : (2e200 : ℝ) < 2 ^ 1024 := by
    have : (2e200 : ℝ) < 2 ^ 250 * 2 ^ 250 * 2 ^ 250 := by norm_num
    refine this.trans_le ?_
    rw [← pow_add, ← pow_add]
    exact pow_le_pow_right₀ (by norm_num) (by norm_num)
  refine lt_of_le_of_lt ?_ h6
  norm_num at h2 ⊢
  linarith

theorem rnd_ne_nan (x : ℝ) : rnd x ≠ nan := (rnd_mono x x le_rfl).ne_nan_left

theorem rnd_idem (x y : ℝ) (h : rnd x = fin y) : rnd y = fin y := by
  have pos : ∀ x y : ℝ, 0 ≤ x → rndPos x = fin y → rnd y = fin y := by
    intro x y hx h
    unfold rndPos at h
    split at h
    · rename_i hb
      have e := XF.fin.inj h
      have h0 : 0 ≤ y := by rw [← e]; exact nearest_nonneg hx
      unfold rnd rndPos
      rw [if_pos h0, ← e, nearest_idem hx, if_pos hb]
    · simp at h
  unfold rnd at h
  split at h
  · rename_i h0
    exact pos x y h0 h
  · rename_i h0
    have h1 : rndPos (-x) = fin (-y) := by
      have := congrArg neg h
      rwa [neg_neg'] at this
    have h2 := pos (-x) (-y) (by linarith [not_le.1 h0]) h1
    have h3 := rnd_neg (-y)
    rw [neg_neg, h2] at h3
    rw [h3]
    simp [neg]

/-- a positive double is a multiple of its spacing, below the overflow threshold -/
theorem float_multiple {x : ℝ} (hx : 0 < x) (h : rnd x = fin x) : (∃ m : ℤ, x = m * 2 ^ expo x) ∧ x < 2 ^ (1024 : ℕ) := by
  unfold rnd rndPos at h
  rw [if_pos hx.le] at h
  split at h
  · rename_i hlt
    have e : nearest x = x := XF.fin.inj h
    rw [e] at hlt
    exact ⟨⟨_, e.symm⟩, hlt⟩
  · cases h

theorem rnd_of_multiple {x : ℝ} (hx : 0 ≤ x) (m : ℤ) (h : x = m * 2 ^ expo x) (hlt : x < 2 ^ (1024 : ℕ)) : rnd x = fin x := by
  have e : nearest x = x := by
    unfold nearest
    have : x / 2 ^ expo x = m := by rw [div_eq_iff (two_zpow_pos _).ne']; exact h
    rw [this, rintR_int, ← h]
  unfold rnd rndPos
  rw [if_pos hx, e, if_pos hlt]

theorem expo_mono {x y : ℝ} (hx : 0 < x) (h : x ≤ y) : expo x ≤ expo y := by
  have : Int.log 2 x ≤ Int.log 2 y := Int.log_mono_right hx h
  unfold expo
  omega

/-- Sterbenz: the difference of two doubles within a factor of two is a double -/
theorem rnd_sub (x y : ℝ) (hx : rnd x = fin x) (hy : rnd y = fin y) (h0 : 0 < y) (h1 : y ≤ x) (h2 : x ≤ 2 * y) :
    rnd (x - y) = fin (x - y) := by
  rcases h1.lt_or_eq with h1 | rfl
  swap
  · rw [sub_self]
    simpa using rnd_int 0 (by norm_num)
  have hd : 0 < x - y := by linarith
  obtain ⟨⟨m, hm⟩, -⟩ := float_multiple (h0.trans h1) hx
  obtain ⟨⟨n, hn⟩, hlt⟩ := float_multiple h0 hy
  obtain ⟨p, hp⟩ := zpow_split (expo_mono hd (show x - y ≤ x by linarith))
  obtain ⟨q, hq⟩ := zpow_split (expo_mono hd (show x - y ≤ y by linarith))
  refine rnd_of_multiple hd.le (m * p - n * q) ?_ (by linarith)
  push_cast
  rw [hp] at hm
  rw [hq] at hn
  linear_combination hm - hn

theorem rnd_half : rnd (1 / 2) = fin (1 / 2) := by
  have h : expo (1 / 2) = -53 := by
    have : Int.log 2 (1 / 2 : ℝ) = -1 := by
      have := Int.log_zpow (R := ℝ) (b := 2) one_lt_two (-1)
      rw [← this]
      norm_num
    unfold expo
    rw [this]; norm_num
  refine rnd_of_multiple (by norm_num) (2 ^ 52) ?_ (lt_of_lt_of_le (by norm_num) (one_le_pow₀ one_le_two))
  rw [h]
  norm_num

theorem rnd_one : rnd 1 = fin 1 := by simpa using rnd_int 1 (by norm_num)

/-- rounding; NaN and infinities stay -/
def rd : XF → XF
  | .fin x => rnd x
  | a => a

theorem rd_mono {a b : XF} (h : Lx a b) : Lx (rd a) (rd b) := by
  cases a with
  | nan => exact absurd rfl h.ne_nan_left
  | ninf =>
    cases b with
    | nan => exact absurd rfl h.ne_nan_right
    | fin y =>
      show leb ninf (rnd y) = true
      have := rnd_ne_nan y
      cases hy : rnd y <;> simp_all [leb]
    | ninf => exact h
    | pinf => exact h
  | pinf =>
    cases b with
    | pinf => exact h
    | _ => simp [Lx, leb] at h
  | fin x =>
    cases b with
    | nan => exact absurd rfl h.ne_nan_right
    | ninf => simp [Lx, leb] at h
    | pinf => exact lx_pinf (rnd_ne_nan x)
    | fin y => exact rnd_mono x y (lx_fin.1 h)

theorem rd_zero : rd (fin 0) = fin 0 := by
  show rnd 0 = _
  simpa using rnd_int 0 (by norm_num)

theorem expx_mono {a b : XF} (h : Lx a b) : Lx (expx a) (expx b) := by
  have : ∀ x : ℝ, 0 ≤ Real.exp x := fun x => (Real.exp_pos x).le
  unfold Lx at *
  cases a <;> cases b <;> simp_all [leb, expx]

theorem logx_mono {a b : XF} (h0 : Lx (fin 0) a) (h : Lx a b) : Lx (logx a) (logx b) := by
  rcases nonneg_cases h0 with rfl | ⟨x, rfl, hx⟩
  · cases b <;> simp_all [Lx, leb, logx]
  · rcases nonneg_cases (h0.trans h) with rfl | ⟨y, rfl, hy⟩
    · apply lx_pinf
      show (if x < 0 then nan else if x = 0 then ninf else fin (Real.log x)) ≠ nan
      rw [if_neg (not_lt.2 hx)]
      split <;> simp
    · have hxy := lx_fin.1 h
      show Lx (if x < 0 then nan else if x = 0 then ninf else fin (Real.log x))
        (if y < 0 then nan else if y = 0 then ninf else fin (Real.log y))
      rw [if_neg (not_lt.2 hx), if_neg (not_lt.2 hy)]
      split_ifs with a b b
      · simp [Lx, leb]
      · simp [Lx, leb]
      · exact absurd (le_antisymm (by linarith) hx) a
      · exact lx_fin.2 (Real.log_le_log (lt_of_le_of_ne hx (Ne.symm a)) hxy)

theorem add_mono {a a' b b' : XF} (ha : Lx (fin 0) a) (hb : Lx (fin 0) b) (h : Lx a a') (h' : Lx b b') :
    Lx (fin 0) (XF.add a b) ∧ Lx (XF.add a b) (XF.add a' b') := by
  have ha' := ha.trans h
  have hb' := hb.trans h'
  rcases nonneg_cases ha with rfl | ⟨x, rfl, hx⟩ <;> rcases nonneg_cases ha' with rfl | ⟨x', rfl, hx'⟩ <;>
    rcases nonneg_cases hb with rfl | ⟨y, rfl, hy⟩ <;> rcases nonneg_cases hb' with rfl | ⟨y', rfl, hy'⟩ <;>
    simp_all [Lx, leb, XF.add] <;> first | linarith | (constructor <;> linarith)

/-- summation from the end -/
def sum : List XF → XF
  | [] => fin 0
  | x :: xs => rd (XF.add x (sum xs))

theorem sum_mono (xs ys : List XF) (h : List.Forall₂ (fun a b => leb (fin 0) a = true ∧ leb a b = true) xs ys) :
    Lx (fin 0) (sum xs) ∧ Lx (sum xs) (sum ys) := by
  induction h with
  | nil => exact ⟨lx_fin.2 le_rfl, lx_fin.2 le_rfl⟩
  | cons h _ ih =>
    have := add_mono h.1 ih.1 h.2 ih.2
    refine ⟨?_, rd_mono this.2⟩
    have := rd_mono this.1
    rwa [rd_zero] at this

theorem sum_err (xs : List ℝ) (h : ∀ x ∈ xs, x = 0 ∨ (1e-199 ≤ x ∧ x ≤ 1e150)) (hn : xs.length ≤ 2 ^ 20) :
    ∃ y, sum (xs.map fin) = fin y ∧ xs.sum * (1 - xs.length / 2 ^ 52) ≤ y ∧
      y ≤ xs.sum * (1 + xs.length / 2 ^ 52) ∧ 0 ≤ xs.sum ∧ xs.sum ≤ 1e150 * xs.length ∧
      (xs.sum = 0 ∨ 1e-199 ≤ xs.sum) := by
  induction xs with
  | nil => exact ⟨0, rfl, by simp, by simp, by simp, by simp, by simp⟩
  | cons x xs ih =>
    simp only [List.length_cons] at hn
    obtain ⟨y, e, h1, h2, h3, h4, h5⟩ := ih (fun z hz => h z (List.mem_cons_of_mem _ hz)) (by omega)
    have hx := h x (List.mem_cons_self ..)
    have hx0 : 0 ≤ x := by rcases hx with rfl | hx; exact le_rfl; exact le_trans (by norm_num) hx.1
    have hx1 : x ≤ 1e150 := by rcases hx with rfl | hx; norm_num; exact hx.2
    have hm : (xs.length : ℝ) ≤ 2 ^ 20 := by exact_mod_cast (by omega : xs.length ≤ 2 ^ 20)
    have hm0 : (0 : ℝ) ≤ xs.length := Nat.cast_nonneg _
    simp only [List.map_cons, sum, e, List.sum_cons, List.length_cons, Nat.cast_succ]
    generalize (xs.length : ℝ) = m at *
    generalize xs.sum = S at *
    have hmm : m / 2 ^ 52 ≤ 1 / 2 ^ 32 := by
      rw [div_le_div_iff₀ (by positivity) (by positivity)]
      calc m * 2 ^ 32 ≤ 2 ^ 20 * 2 ^ 32 := mul_le_mul_of_nonneg_right hm (by positivity)
        _ = 1 * 2 ^ 52 := by norm_num
    have hmu0 : 0 ≤ m / 2 ^ 52 := by positivity
    have hs : (m + 1) / 2 ^ 52 = m / 2 ^ 52 + 1 / 2 ^ 52 := by ring
    rw [hs]
    generalize m / 2 ^ 52 = q at *
    have hy0 : 0 ≤ y := le_trans (mul_nonneg h3 (by norm_num at hmm; linarith)) h1
    have hbig : x + S ≤ 1e150 * (m + 1) := by linarith
    show ∃ y_1, rnd (x + y) = fin y_1 ∧ _
    by_cases hz : x + y = 0
    · have hx' : x = 0 := by linarith
      have hy' : y = 0 := by linarith
      have hS : S = 0 := by
        norm_num at hmm
        rw [hy'] at h1
        nlinarith
      refine ⟨0, by rw [hz]; exact rd_zero, ?_, ?_, ?_, ?_, ?_⟩ <;> simp [hx', hS]
      positivity
    · have hlo : 1e-199 ≤ x + S := by
        rcases hx with hx | hx
        · rcases h5 with h5 | h5
          · exfalso; apply hz
            rw [h5] at h1 h2
            rw [hx]; linarith
          · rw [hx]; linarith
        · linarith [hx.1]
      have hmm' : q ≤ 1 / 4 := hmm.trans (by norm_num)
      have a1 : (x + S) * (1 - q) ≤ x + y := by nlinarith
      have a2 : x + y ≤ (x + S) * (1 + q) := by nlinarith
      have b1 : 1e-200 ≤ x + y := by
        have : (x + S) * (3 / 4) ≤ (x + S) * (1 - q) :=
          mul_le_mul_of_nonneg_left (by linarith) (by linarith)
        norm_num at hlo ⊢; linarith
      have b2 : x + y ≤ 1e200 := by
        have : (x + S) * (1 + q) ≤ (x + S) * 2 :=
          mul_le_mul_of_nonneg_left (by linarith) (by linarith)
        norm_num at hbig hm ⊢; linarith
      obtain ⟨z, ez, hz'⟩ := rnd_near (x + y) b1 b2
      obtain ⟨c1, c2⟩ := abs_le.1 hz'
      have hp : 0 ≤ x + S := by linarith
      have hpq : 0 ≤ (x + S) * q := mul_nonneg hp hmu0
      refine ⟨z, ez, ?_, ?_, hp, hbig, Or.inr hlo⟩
      · have : (x + y) / 2 ^ 53 ≤ (x + S) * (1 + q) / 2 ^ 53 := by gcongr
        have e2 : (x + S) * (1 + q) / 2 ^ 53 ≤ (x + S) * (1 / 2 ^ 52) := by
          rw [mul_div_assoc]
          refine mul_le_mul_of_nonneg_left ?_ hp
          rw [div_le_div_iff₀ (by positivity) (by positivity)]
          norm_num at hmm' ⊢; linarith
        nlinarith
      · have : (x + y) / 2 ^ 53 ≤ (x + S) * (1 + q) / 2 ^ 53 := by gcongr
        have e2 : (x + S) * (1 + q) / 2 ^ 53 ≤ (x + S) * (1 / 2 ^ 52) := by
          rw [mul_div_assoc]
          refine mul_le_mul_of_nonneg_left ?_ hp
          rw [div_le_div_iff₀ (by positivity) (by positivity)]
          norm_num at hmm' ⊢; linarith
        nlinarith

theorem sum_near (xs : List ℝ) (h : ∀ x ∈ xs, x = 0 ∨ (1e-199 ≤ x ∧ x ≤ 1e150)) (hn : xs.length ≤ 2 ^ 20) :
    ∃ y, sum (xs.map fin) = fin y ∧ |y - xs.sum| ≤ xs.sum * (xs.length / 2 ^ 51) := by
  obtain ⟨y, e, h1, h2, h3, _⟩ := sum_err xs h hn
  refine ⟨y, e, ?_⟩
  have hm0 : (0 : ℝ) ≤ xs.length := Nat.cast_nonneg _
  have : xs.sum * (xs.length / 2 ^ 52) ≤ xs.sum * (xs.length / 2 ^ 51) :=
    mul_le_mul_of_nonneg_left (div_le_div_of_nonneg_left hm0 (by positivity) (by norm_num)) h3
  rw [abs_le]
  constructor <;> linarith

theorem exp_bounds {x : ℝ} (h : |x| ≤ 400) : 1e-200 ≤ Real.exp x ∧ Real.exp x ≤ 1e200 := by
  obtain ⟨h1, h2⟩ := abs_le.1 h
  have h3 : Real.exp 4 ≤ 81 := by
    have he : Real.exp 1 < 3 := lt_trans Real.exp_one_lt_d9 (by norm_num)
    have e : Real.exp 4 = Real.exp 1 ^ 4 := by rw [← Real.exp_nat_mul]; norm_num
    rw [e]
    have := pow_le_pow_left₀ (Real.exp_pos 1).le he.le 4
    norm_num at this ⊢; linarith
  have e : Real.exp 400 = Real.exp 4 ^ 100 := by rw [← Real.exp_nat_mul]; norm_num
  have h4 : Real.exp 400 ≤ 1e200 := by
    rw [e]
    refine (pow_le_pow_left₀ (Real.exp_pos 4).le h3 100).trans ?_
    norm_num
  constructor
  · refine le_trans ?_ (Real.exp_le_exp.2 h1)
    rw [Real.exp_neg]
    refine le_trans ?_ (inv_anti₀ (Real.exp_pos _) h4)
    norm_num
  · exact (Real.exp_le_exp.2 h2).trans h4

theorem powNatx_inf {a : XF} (ha : a = pinf ∨ a = ninf) (n : Nat) :
    powNatx a (2 * n) = fin 1 ∨ powNatx a (2 * n) = pinf := by
  induction n with
  | zero => exact Or.inl rfl
  | succ n ih =>
    right
    show mul (mul (powNatx a (2 * n)) a) a = _
    rcases ih with h | h <;> rw [h] <;> rcases ha with rfl | rfl <;>
      simp [mul, signInf, not_lt.2 (zero_le_one (α := ℝ))]

theorem powNatx_even (a : XF) (n : Nat) (ha : a ≠ nan) : Lx (fin 0) (powNatx a (2 * n)) := by
  have inf : a = pinf ∨ a = ninf → Lx (fin 0) (powNatx a (2 * n)) := by
    intro h
    rcases powNatx_inf h n with h | h <;> rw [h] <;> simp [Lx, leb]
  cases a with
  | nan => exact absurd rfl ha
  | fin x =>
    rw [show powNatx (fin x) (2 * n) = fin (x ^ (2 * n)) from powNat_fin x (2 * n)]
    exact lx_fin.2 (by rw [pow_mul]; positivity)
  | pinf => exact inf (Or.inl rfl)
  | ninf => exact inf (Or.inr rfl)

/-- Double precision satisfies what is assumed of a floating point arithmetic. -/
def fp : FP where
  rnd := rnd
  rnd_ne_nan := rnd_ne_nan
  rnd_mono := rnd_mono
  rnd_neg := rnd_neg
  rnd_int := rnd_int
  rnd_idem := rnd_idem
  rnd_half := rnd_half
  rnd_sub := rnd_sub
  rnd_near := fun x h1 h2 => by
    obtain ⟨y, e, h⟩ := rnd_near x h1 h2
    have hx : 0 < x := lt_of_lt_of_le (by norm_num) h1
    refine ⟨y, e, h.trans ?_⟩
    exact div_le_div_of_nonneg_left hx.le (by positivity) (by norm_num)
  exp := fun a => rd (expx a)
  exp_nan := rfl
  exp_ninf := rd_zero
  exp_pinf := rfl
  exp_zero := by
    show rnd (Real.exp 0) = _
    rw [Real.exp_zero, rnd_one]
  exp_mono := fun a b h => rd_mono (expx_mono h)
  exp_near := fun x h => by
    obtain ⟨h1, h2⟩ := exp_bounds h
    obtain ⟨y, e, h⟩ := rnd_near _ h1 h2
    refine ⟨y, e, h.trans ?_⟩
    exact div_le_div_of_nonneg_left (Real.exp_pos x).le (by positivity) (by norm_num)
  log := fun a => rd (logx a)
  log_nan := rfl
  log_ninf := rfl
  log_pinf := rfl
  log_zero := by
    show rd (if (0 : ℝ) < 0 then nan else if (0 : ℝ) = 0 then ninf else fin (Real.log 0)) = _
    simp [rd]
  log_neg := fun x h => by
    show rd (if x < 0 then nan else if x = 0 then ninf else fin (Real.log x)) = _
    rw [if_pos h]; rfl
  log_one := by
    show rd (if (1 : ℝ) < 0 then nan else if (1 : ℝ) = 0 then ninf else fin (Real.log 1)) = _
    rw [if_neg (by norm_num), if_neg (by norm_num), Real.log_one, rd_zero]
  log_mono := fun a b h0 h => rd_mono (logx_mono h0 h)
  log_near := fun x h1 h2 => by
    have hx : 0 < x := lt_of_lt_of_le (by norm_num) h1
    have h3 : 1 / 3 ≤ Real.log x := by
      have := Real.one_sub_inv_le_log_of_pos hx
      have h4 : x⁻¹ ≤ 2 / 3 := by
        rw [inv_le_comm₀ hx (by norm_num)]; norm_num at h1 ⊢; linarith
      linarith
    have h5 : Real.log x ≤ 1e200 := by
      have := Real.log_le_sub_one_of_pos hx
      linarith
    obtain ⟨y, e, h⟩ := rnd_near _ (le_trans (by norm_num) h3) h5
    refine ⟨y, ?_, ?_⟩
    · show rd (if x < 0 then nan else if x = 0 then ninf else fin (Real.log x)) = _
      rw [if_neg (not_lt.2 hx.le), if_neg hx.ne']
      exact e
    · rw [abs_of_pos (show 0 < Real.log x by linarith)]
      refine h.trans (div_le_div_of_nonneg_left (by linarith) (by positivity) (by norm_num))
  cos := fun a => rd (cosx a)
  cos_near := fun x _ => by
    have hc := Real.abs_cos_le_one x
    obtain ⟨y, e, h⟩ := rounding_any rnd rnd_mono rnd_neg (rd_zero) (fun x h1 h2 => by
      obtain ⟨y, e, h⟩ := rnd_near x h1 h2
      have hx : 0 < x := lt_of_lt_of_le (by norm_num) h1
      refine ⟨y, e, h.trans ?_⟩
      exact div_le_div_of_nonneg_left hx.le (by positivity) (by norm_num)) (Real.cos x) (hc.trans (by norm_num))
    refine ⟨y, e, h.trans ?_⟩
    have := div_le_div_of_nonneg_right hc (show (0:ℝ) ≤ 2 ^ 52 by positivity)
    refine (add_le_add_left this _).trans ?_
    norm_num
  arccos := fun a => rd (arccosx a)
  pow := fun a b => rd (powx a b)
  powNat := fun a n => rd (powNatx a n)
  powNat_near := fun x n hx h1 h2 => by
    have e : powNatx (fin x) n = fin (x ^ n) := powNat_fin x n
    obtain ⟨y, e', h⟩ := rnd_near _ h1 h2
    refine ⟨y, ?_, ?_⟩
    · show rd (powNatx (fin x) n) = _
      rw [e]; exact e'
    · exact h.trans (div_le_div_of_nonneg_left (pow_pos hx n).le (by positivity) (by norm_num))
  powNat_nan := fun n => by
    show rd (mul (powNatx nan n) nan) = nan
    cases powNatx nan n <;> rfl
  powNat_even := fun a n ha => by
    have := rd_mono (powNatx_even a n ha)
    rwa [rd_zero] at this
  sum := sum
  sum_mono := sum_mono
  sum_near := sum_near

end
end Double
end Verif
