import Verif.Props.AtmIr
import Verif.Props.OriginalData
import Mathlib.Analysis.SpecialFunctions.Log.Base
/-
Properties C85 and C112: exactly when the claims fail.
-/
namespace Verif.Props
open Verif Verif.AtmIr Verif.Lemmas Verif.XF Verif.Model PyNum

/-- the zenith angle (degrees) from which on a pixel of temperature `t` gets at least the correction of nadir -/
noncomputable def nadirLikeZenith (t : ℝ) : ℝ :=
  70 * Real.logb 7.2 (1 + ((10.85 : ℝ) ^ ((t - 210) / 110) - 1) / ((t - 170) / 125) ^ 4)

/-- C85, exactly where it fails: above 210 K the pixels nearer to nadir than `nadirLikeZenith t`, and no others, get less
correction than at nadir. -/
theorem C85_exactly (t z c₀ c : ℝ) (ht : 210 < t) (h0 : 0 < z) (h1 : z < 90) (hc₀ : CorrectedBy t 0 c₀)
    (hc : CorrectedBy t z c) : c < c₀ ↔ z < nadirLikeZenith t := by
  rw [(correctedBy ..).1 hc₀, (correctedBy ..).1 hc]
  unfold limbCorrection nadirLikeZenith
  rw [if_neg h0.ne', if_pos ⟨h0, h1⟩, if_pos rfl]
  have hA : 0 < ((t - 170) / 125) ^ 4 := by
    have : 0 < (t - 170) / 125 := div_pos (by linarith) (by norm_num)
    positivity
  have hB : (1 : ℝ) < (10.85 : ℝ) ^ ((t - 210) / 110) :=
    Real.one_lt_rpow (by norm_num) (div_pos (by linarith) (by norm_num))
  have hq : 0 < ((10.85 : ℝ) ^ ((t - 210) / 110) - 1) / ((t - 170) / 125) ^ 4 := div_pos (by linarith) hA
  rw [← lt_div_iff₀' hA, show (z < 70 * Real.logb 7.2 (1 + ((10.85 : ℝ) ^ ((t - 210) / 110) - 1) / ((t - 170) / 125) ^ 4)) ↔
      z / 70 < Real.logb 7.2 (1 + ((10.85 : ℝ) ^ ((t - 210) / 110) - 1) / ((t - 170) / 125) ^ 4) from
      (div_lt_iff₀' (by norm_num)).symm,
    Real.lt_logb_iff_rpow_lt (by norm_num) (by linarith)]
  constructor <;> intro h <;> linarith

/-- C85 at 300 K, the surface of a warm sea: every pixel off nadir up to 60 degrees gets less correction than at nadir. -/
theorem C85_warm_sea (z c₀ c : ℝ) (h0 : 0 < z) (h1 : z ≤ 60) (hc₀ : CorrectedBy 300 0 c₀) (hc : CorrectedBy 300 z c) : c < c₀ := by
  rw [(correctedBy ..).1 hc₀, (correctedBy ..).1 hc]
  unfold limbCorrection
  rw [if_neg h0.ne', if_pos ⟨h0, by linarith⟩, if_pos rfl]
  have hB : (7 : ℝ) ≤ (10.85 : ℝ) ^ (((300 : ℝ) - 210) / 110) := by
    refine le_of_pow_le_pow_left₀ (n := 11) (by norm_num) (by positivity) ?_
    rw [← Real.rpow_natCast ((10.85 : ℝ) ^ _), ← Real.rpow_mul (by norm_num),
      show ((300 : ℝ) - 210) / 110 * ((11 : ℕ) : ℝ) = ((9 : ℕ) : ℝ) by norm_num, Real.rpow_natCast]
    norm_num
  have hz : (7.2 : ℝ) ^ (z / 70) ≤ (7.2 : ℝ) ^ ((6 : ℝ) / 7) :=
    Real.rpow_le_rpow_of_exponent_le (by norm_num) (by linarith)
  have hD : (7.2 : ℝ) ^ ((6 : ℝ) / 7) ≤ 5.44 := by
    refine le_of_pow_le_pow_left₀ (n := 7) (by norm_num) (by norm_num) ?_
    rw [← Real.rpow_natCast ((7.2 : ℝ) ^ _), ← Real.rpow_mul (by norm_num),
      show (6 : ℝ) / 7 * ((7 : ℕ) : ℝ) = ((6 : ℕ) : ℝ) by norm_num, Real.rpow_natCast]
    norm_num
  have hA : ((300 - 170 : ℝ) / 125) ^ 4 = 1.16985856 := by norm_num
  rw [hA]
  linarith

/-- nadir and 30 degrees off it -/
example : ∃ c₀ c, CorrectedBy 300 0 c₀ ∧ CorrectedBy 300 30 c ∧ c < c₀ ∧ 30 < nadirLikeZenith 300 := by
  have a := (correctedBy 300 0 _).2 rfl
  have b := (correctedBy 300 30 _).2 rfl
  have h := C85_warm_sea 30 _ _ (by norm_num) (by norm_num) a b
  exact ⟨_, _, a, b, h, (C85_exactly 300 30 _ _ (by norm_num) (by norm_num) (by norm_num) a b).1 h⟩

/-- C112, exactly where it fails: two bands of the first file are read from the same column if and only if they are the same
band or ch4 and ch8. -/
theorem C112_exactly (a b : String) (ha : a ∈ mersi1File1) (hb : b ∈ mersi1File1) :
    mersi1ColumnFY3B a = mersi1ColumnFY3B b ↔ a = b ∨ (a = "ch4" ∧ b = "ch8") ∨ (a = "ch8" ∧ b = "ch4") := by
  have h : ∀ a ∈ mersi1File1, ∀ b ∈ mersi1File1,
      mersi1ColumnFY3B a = mersi1ColumnFY3B b ↔ a = b ∨ (a = "ch4" ∧ b = "ch8") ∨ (a = "ch8" ∧ b = "ch4") := by
    decide +kernel
  exact h a ha b hb

example : mersi1ColumnFY3B "ch9" ≠ mersi1ColumnFY3B "ch8" := by
  rw [Ne, C112_exactly _ _ (by decide) (by decide)]
  decide

end Verif.Props
