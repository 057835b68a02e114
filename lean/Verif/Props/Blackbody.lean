import Verif.Lemmas.Planck
import Verif.Lemmas.MapBlocks
/-
Properties C01-C08: the Planck function and its inverse.
-/
namespace Verif.Props
open XF Model PyNum Lemmas

/-! ### C01 -/

/-- C01, wavelength form: for arrays of any length, `blackbody` is Planck's law. -/
theorem C01_blackbody_is_planck_law (waves temps : List ℝ)
    (hne : waves ≠ [] ∧ temps ≠ [])
    (hw : ∀ w ∈ waves, 0 < w) (ht : ∀ t ∈ temps, 1e-6 < t) :
    blackbody (waves.map fin) (temps.map fin) =
      .ok (temps.map fun t => waves.map fun w => fin (Spec.planckWavelength w t)) := by
  rw [blackbody, planck_entries _ _ _ (by simpa using hne.1) (by simpa using hne.2)]
  simp only [List.map_map]
  congr 1
  apply List.map_congr_left
  intro t htm
  apply List.map_congr_left
  intro w hwm
  exact entry_wl (hw w hwm) (lt_of_lt_of_le (ht t htm) (le_abs_self t))

example : blackbody [fin 11e-6, fin 12e-6] [fin 300] =
    .ok [[fin (Spec.planckWavelength 11e-6 300), fin (Spec.planckWavelength 12e-6 300)]] :=
  C01_blackbody_is_planck_law [11e-6, 12e-6] [300] (by simp)
    (by intro w hw; simp at hw; rcases hw with rfl | rfl <;> norm_num)
    (by intro t ht; simp at ht; subst ht; norm_num)

/-- C01, wavenumber form. -/
theorem C01_blackbody_wn_is_planck_law (waves temps : List ℝ)
    (hne : waves ≠ [] ∧ temps ≠ [])
    (hw : ∀ w ∈ waves, 0 < w) (ht : ∀ t ∈ temps, 1e-6 < t) :
    blackbody_wn (waves.map fin) (temps.map fin) =
      .ok (temps.map fun t => waves.map fun w => fin (Spec.planckWavenumber w t)) := by
  rw [blackbody_wn, planck_entries _ _ _ (by simpa using hne.1) (by simpa using hne.2)]
  simp only [List.map_map]
  congr 1
  apply List.map_congr_left
  intro t htm
  apply List.map_congr_left
  intro w hwm
  exact entry_wn (hw w hwm) (lt_of_lt_of_le (ht t htm) (le_abs_self t))

example : blackbody_wn [fin 90909] [fin 300] = .ok [[fin (Spec.planckWavenumber 90909 300)]] :=
  C01_blackbody_wn_is_planck_law [90909] [300] (by simp)
    (by intro w hw; simp at hw; subst hw; norm_num)
    (by intro t ht; simp at ht; subst ht; norm_num)

/-! ### C02 -/

/-- C02: temperature → radiance → temperature is the identity (wavelength). -/
theorem C02_roundtrip_temperature (w t : ℝ) (hw : 0 < w) (ht : 1e-6 < t) :
    ∃ L : XF, blackbody [fin w] [fin t] = .ok [[L]] ∧ blackbodyRad2temp (fin w) [L] = [fin t] := by
  have h0 : 0 < t := lt_trans (by norm_num) ht
  refine ⟨fin (Spec.planckWavelength w t), ?_, ?_⟩
  · exact C01_blackbody_is_planck_law [w] [t] (by simp) (by simpa using hw) (by simpa using ht)
  · simp only [blackbodyRad2temp, List.map_cons, List.map_nil, rad2temp_fin hw (planckWl_pos hw h0),
      bt_planck_wl hw h0]

/-- C02: temperature → radiance → temperature is the identity (wavenumber). -/
theorem C02_roundtrip_temperature_wn (w t : ℝ) (hw : 0 < w) (ht : 1e-6 < t) :
    ∃ L : XF, blackbody_wn [fin w] [fin t] = .ok [[L]] ∧
      blackbodyWnRad2temp (fin w) [L] = [fin t] := by
  have h0 : 0 < t := lt_trans (by norm_num) ht
  refine ⟨fin (Spec.planckWavenumber w t), ?_, ?_⟩
  · exact C01_blackbody_wn_is_planck_law [w] [t] (by simp) (by simpa using hw) (by simpa using ht)
  · simp only [blackbodyWnRad2temp, List.map_cons, List.map_nil,
      wnRad2temp_fin hw (planckWn_pos hw h0), bt_planck_wn hw h0]

example : ∃ L : XF, blackbody_wn [fin 90000] [fin 300] = .ok [[L]] ∧
    blackbodyWnRad2temp (fin 90000) [L] = [fin 300] :=
  C02_roundtrip_temperature_wn 90000 300 (by norm_num) (by norm_num)

/-- C02: radiance → temperature → radiance is the identity (wavelength), whenever the
temperature found is above the cut-off. -/
theorem C02_roundtrip_radiance (w L : ℝ) (hw : 0 < w) (hL : 0 < L) :
    ∃ t : ℝ, blackbodyRad2temp (fin w) [fin L] = [fin t] ∧ 0 < t ∧
      (1e-6 < t → blackbody [fin w] [fin t] = .ok [[fin L]]) := by
  refine ⟨Spec.brightnessTemperature w L, ?_, bt_pos hw hL, fun ht => ?_⟩
  · simp only [blackbodyRad2temp, List.map_cons, List.map_nil, rad2temp_fin hw hL]
  · have := C01_blackbody_is_planck_law [w] [Spec.brightnessTemperature w L] (by simp)
      (by simpa using hw) (by simpa using ht)
    simpa [planck_bt_wl hw hL] using this

/-- C02: radiance → temperature → radiance is the identity (wavenumber). -/
theorem C02_roundtrip_radiance_wn (w L : ℝ) (hw : 0 < w) (hL : 0 < L) :
    ∃ t : ℝ, blackbodyWnRad2temp (fin w) [fin L] = [fin t] ∧ 0 < t ∧
      (1e-6 < t → blackbody_wn [fin w] [fin t] = .ok [[fin L]]) := by
  refine ⟨Spec.brightnessTemperatureWn w L, ?_, btWn_pos hw hL, fun ht => ?_⟩
  · simp only [blackbodyWnRad2temp, List.map_cons, List.map_nil, wnRad2temp_fin hw hL]
  · have := C01_blackbody_wn_is_planck_law [w] [Spec.brightnessTemperatureWn w L] (by simp)
      (by simpa using hw) (by simpa using ht)
    simpa [planck_bt_wn hw hL] using this

example : ∃ L : XF, blackbody [fin 11e-6] [fin 300] = .ok [[L]] ∧
    blackbodyRad2temp (fin 11e-6) [L] = [fin 300] :=
  C02_roundtrip_temperature 11e-6 300 (by norm_num) (by norm_num)

example : ∃ t : ℝ, blackbodyRad2temp (fin 11e-6) [fin 9.5e6] = [fin t] ∧ 0 < t ∧
    (1e-6 < t → blackbody [fin 11e-6] [fin t] = .ok [[fin 9.5e6]]) :=
  C02_roundtrip_radiance 11e-6 9.5e6 (by norm_num) (by norm_num)

/-! ### C03 -/

/-- C03: radiance is positive and strictly increasing in temperature, in both wave spaces. -/
theorem C03_planck_positive_and_increasing (wl : Bool) (w t₁ t₂ : ℝ) (hw : 0 < w)
    (h₁ : 1e-6 < t₁) (h : t₁ < t₂) :
    ∃ L₁ L₂ : ℝ, planck [fin w] [fin t₁, fin t₂] wl = .ok [[fin L₁], [fin L₂]] ∧
      0 < L₁ ∧ L₁ < L₂ := by
  have p1 : 0 < t₁ := lt_trans (by norm_num) h₁
  have a1 : 1e-6 < |t₁| := lt_of_lt_of_le h₁ (le_abs_self _)
  have a2 : 1e-6 < |t₂| := lt_of_lt_of_le (h₁.trans h) (le_abs_self _)
  cases wl
  · refine ⟨_, _, ?_, planckWn_pos hw p1, planckWn_lt hw p1 h⟩
    rw [planck_entries _ _ _ (by simp) (by simp)]
    simp [entry_wn hw a1, entry_wn hw a2]
  · refine ⟨_, _, ?_, planckWl_pos hw p1, planckWl_lt hw p1 h⟩
    rw [planck_entries _ _ _ (by simp) (by simp)]
    simp [entry_wl hw a1, entry_wl hw a2]

/-- C03: brightness temperature is positive and strictly increasing in (positive) radiance. -/
theorem C03_rad2temp_positive_and_increasing (w L₁ L₂ : ℝ) (hw : 0 < w)
    (h₁ : 0 < L₁) (h : L₁ < L₂) :
    (∃ t₁ t₂ : ℝ, blackbodyRad2temp (fin w) [fin L₁, fin L₂] = [fin t₁, fin t₂] ∧
      0 < t₁ ∧ t₁ < t₂) ∧
    (∃ t₁ t₂ : ℝ, blackbodyWnRad2temp (fin w) [fin L₁, fin L₂] = [fin t₁, fin t₂] ∧
      0 < t₁ ∧ t₁ < t₂) := by
  constructor
  · exact ⟨_, _, by simp only [blackbodyRad2temp, List.map_cons, List.map_nil,
      rad2temp_fin hw h₁, rad2temp_fin hw (h₁.trans h)], bt_pos hw h₁, bt_lt hw h₁ h⟩
  · exact ⟨_, _, by simp only [blackbodyWnRad2temp, List.map_cons, List.map_nil,
      wnRad2temp_fin hw h₁, wnRad2temp_fin hw (h₁.trans h)], btWn_pos hw h₁, btWn_lt hw h₁ h⟩

example : ∃ L₁ L₂ : ℝ, planck [fin 3.9e-6] [fin 220, fin 300] true = .ok [[fin L₁], [fin L₂]] ∧
    0 < L₁ ∧ L₁ < L₂ :=
  C03_planck_positive_and_increasing true 3.9e-6 220 300 (by norm_num) (by norm_num) (by norm_num)

/-! ### C04 -/

/-- C04: complete behaviour of `blackbody_rad2temp` for one radiance value.
With `b = -2hc²/λ⁵`: NaN exactly for NaN or a radiance in `(b, 0)`; zero radiance gives
0 K; `b` itself gives 0; below `b` a negative number; infinite radiance gives infinity;
positive radiance gives the brightness temperature. -/
theorem C04_rad2temp_complete (w : ℝ) (hw : 0 < w) (x : XF) :
    (blackbodyRad2temp (fin w) [x] = [XF.nan] ↔
      x = XF.nan ∨ ∃ L, x = fin L ∧ -(2 * Spec.h * Spec.c ^ 2 / w ^ 5) < L ∧ L < 0) ∧
    (blackbodyRad2temp (fin w) [fin 0] = [fin 0]) ∧
    ((∃ t, blackbodyRad2temp (fin w) [x] = [fin t] ∧ t < 0) ↔
      ∃ L, x = fin L ∧ L < -(2 * Spec.h * Spec.c ^ 2 / w ^ 5)) ∧
    (blackbodyRad2temp (fin w) [x] = [XF.pinf] ↔ x = XF.pinf ∨ x = XF.ninf) := by
  have hw5 := pow_pos hw 5
  have hC1 := c1R_pos
  have hC2 : 0 < c2R := c2R_pos
  have hb : (2 * Spec.h * Spec.c ^ 2 / w ^ 5) = c2R / w ^ 5 := rfl
  have hbp : 0 < c2R / w ^ 5 := div_pos hC2 hw5
  have h1 : (1.0 : ℝ) = 1 := by norm_num
  -- the value in every case
  have v_nan : rad2tempPoint (fin w) XF.nan = XF.nan := by simp [rad2tempPoint]
  have v_pinf : rad2tempPoint (fin w) XF.pinf = XF.pinf := by
    have e1 : (XF.pinf * fin (w ^ 5) : XF) = XF.pinf := by
      show signInf (w ^ 5) = _; simp [signInf, hw5]
    have e2 : (fin c2R / XF.pinf : XF) = fin 0 := rfl
    simp only [rad2tempPoint, PC1_eq, PC2_eq, powNat_fin, e1, e2, ofSci_eq, fin_add, h1, zero_add,
      log_fin one_pos, Real.log_one, fin_mul, mul_zero]
    rw [fin_div', if_pos rfl]; simp [signInf, hC1]
  have v_ninf : rad2tempPoint (fin w) XF.ninf = XF.pinf := by
    have e1 : (XF.ninf * fin (w ^ 5) : XF) = XF.ninf := by
      show signInf (-(w ^ 5)) = _
      have : ¬ 0 < -(w ^ 5) := by linarith
      rw [signInf, if_neg this, if_pos (by linarith)]
    have e2 : (fin c2R / XF.ninf : XF) = fin 0 := rfl
    simp only [rad2tempPoint, PC1_eq, PC2_eq, powNat_fin, e1, e2, ofSci_eq, fin_add, h1, zero_add,
      log_fin one_pos, Real.log_one, fin_mul, mul_zero]
    rw [fin_div', if_pos rfl]; simp [signInf, hC1]
  have v_zero : rad2tempPoint (fin w) (fin 0) = fin 0 := by
    simp only [rad2tempPoint, PC1_eq, PC2_eq, powNat_fin, fin_mul, zero_mul]
    rw [fin_div', if_pos rfl]
    have e1 : signInf c2R = XF.pinf := by simp [signInf, hC2]
    have e2 : (fin w * XF.pinf : XF) = XF.pinf := by show signInf w = _; simp [signInf, hw]
    rw [e1]
    show fin c1R / (fin w * XF.pinf) = fin 0
    rw [e2]; rfl
  have v_pos : ∀ L, 0 < L → ∃ t, 0 < t ∧ rad2tempPoint (fin w) (fin L) = fin t := fun L hL =>
    ⟨_, bt_pos hw hL, rad2temp_fin hw hL⟩
  -- negative radiances
  have neg_arg : ∀ L, L < 0 → rad2tempPoint (fin w) (fin L) =
      fin c1R / (fin w * PyNum.log (fin (c2R / (L * w ^ 5) + 1))) := by
    intro L hL
    have : L * w ^ 5 ≠ 0 := mul_ne_zero hL.ne hw5.ne'
    simp only [rad2tempPoint, PC1_eq, PC2_eq, powNat_fin, fin_mul, fin_div _ this, ofSci_eq,
      fin_add, h1]
  have frac : ∀ L, L < 0 → c2R / (L * w ^ 5) = (c2R / w ^ 5) / L := by
    intro L hL; have := hL.ne; field_simp
  have v_mid : ∀ L, -(c2R / w ^ 5) < L → L < 0 → rad2tempPoint (fin w) (fin L) = XF.nan := by
    intro L hl hL
    have : c2R / (L * w ^ 5) + 1 < 0 := by
      rw [frac L hL]
      have : (c2R / w ^ 5) / L < -1 := by rw [div_lt_iff_of_neg hL]; linarith
      linarith
    rw [neg_arg L hL, log_fin', if_pos this]; simp
  have v_b : rad2tempPoint (fin w) (fin (-(c2R / w ^ 5))) = fin 0 := by
    have hL : -(c2R / w ^ 5) < 0 := by linarith
    have : c2R / (-(c2R / w ^ 5) * w ^ 5) + 1 = 0 := by
      rw [frac _ hL, div_neg, div_self hbp.ne']; ring
    rw [neg_arg _ hL, this, log_fin', if_neg (lt_irrefl _), if_pos rfl]
    have e2 : (fin w * XF.ninf : XF) = XF.ninf := by
      show signInf (-w) = _
      have : ¬ 0 < -w := by linarith
      rw [signInf, if_neg this, if_pos (by linarith)]
    rw [e2]; rfl
  have v_low : ∀ L, L < -(c2R / w ^ 5) → ∃ t, t < 0 ∧ rad2tempPoint (fin w) (fin L) = fin t := by
    intro L hl
    have hL : L < 0 := by linarith
    have q1 : -1 < (c2R / w ^ 5) / L := by rw [lt_div_iff_of_neg hL]; linarith
    have q2 : (c2R / w ^ 5) / L < 0 := div_neg_of_pos_of_neg hbp hL
    have hp : 0 < c2R / (L * w ^ 5) + 1 := by rw [frac L hL]; linarith
    have hlog : Real.log (c2R / (L * w ^ 5) + 1) < 0 := by
      apply Real.log_neg hp; rw [frac L hL]; linarith
    refine ⟨c1R / (w * Real.log (c2R / (L * w ^ 5) + 1)),
      div_neg_of_pos_of_neg hC1 (mul_neg_of_pos_of_neg hw hlog), ?_⟩
    rw [neg_arg L hL, log_fin hp, fin_mul, fin_div _ (mul_neg_of_pos_of_neg hw hlog).ne]
  simp only [blackbodyRad2temp, List.map_cons, List.map_nil, List.cons.injEq, and_true, hb]
  refine ⟨?_, v_zero, ?_, ?_⟩
  · cases x with
    | nan => simp [v_nan]
    | pinf => simp [v_pinf]
    | ninf => simp [v_ninf]
    | fin L =>
      simp only [reduceCtorEq, fin_inj, false_or, exists_eq_left']
      rcases lt_trichotomy L 0 with h | h | h
      · rcases lt_trichotomy L (-(c2R / w ^ 5)) with g | g | g
        · obtain ⟨t, _, ht⟩ := v_low L g; rw [ht]; simp; intro; linarith
        · rw [g, v_b]; simp
        · rw [v_mid L g h]; simp [g, h]
      · rw [h, v_zero]; simp
      · obtain ⟨t, _, ht⟩ := v_pos L h; rw [ht]; simp; intro; linarith
  · cases x with
    | nan => simp [v_nan]
    | pinf => simp [v_pinf]
    | ninf => simp [v_ninf]
    | fin L =>
      simp only [fin_inj, exists_eq_left']
      rcases lt_trichotomy L 0 with h | h | h
      · rcases lt_trichotomy L (-(c2R / w ^ 5)) with g | g | g
        · obtain ⟨t, h0, ht⟩ := v_low L g; rw [ht]; simp [g, h0]
        · rw [g, v_b]; simp
        · rw [v_mid L g h]; simp; linarith
      · rw [h, v_zero]; simp; linarith
      · obtain ⟨t, h0, ht⟩ := v_pos L h; rw [ht]; simp; constructor <;> intro <;> linarith
  · cases x with
    | nan => simp [v_nan]
    | pinf => simp [v_pinf]
    | ninf => simp [v_ninf]
    | fin L =>
      simp only [reduceCtorEq, or_self, iff_false]
      rcases lt_trichotomy L 0 with h | h | h
      · rcases lt_trichotomy L (-(c2R / w ^ 5)) with g | g | g
        · obtain ⟨t, _, ht⟩ := v_low L g; rw [ht]; simp
        · rw [g, v_b]; simp
        · rw [v_mid L g h]; simp
      · rw [h, v_zero]; simp
      · obtain ⟨t, _, ht⟩ := v_pos L h; rw [ht]; simp

/-- the NaN interval of C04 is inhabited -/
example : blackbodyRad2temp (fin 1) [fin (-(Spec.h * Spec.c ^ 2))] = [XF.nan] :=
  ((C04_rad2temp_complete 1 one_pos _).1).2 (Or.inr ⟨_, rfl, by
    have := h_pos; have := pow_pos c_pos 2
    constructor <;> nlinarith [mul_pos h_pos (pow_pos c_pos 2)]⟩)

/-! ### C05 -/

/-- C05: `blackbody(w, T) * w² = blackbody_wn(1/w, T)`. -/
theorem C05_wavelength_wavenumber_consistent (w t : ℝ) (hw : 0 < w) (ht : 1e-6 < t) :
    ∃ a b : ℝ, blackbody [fin w] [fin t] = .ok [[fin a]] ∧
      blackbody_wn [fin (1 / w)] [fin t] = .ok [[fin b]] ∧ a * w ^ 2 = b := by
  refine ⟨_, _, C01_blackbody_is_planck_law [w] [t] (by simp) (by simpa using hw)
    (by simpa using ht), C01_blackbody_wn_is_planck_law [1 / w] [t] (by simp)
    (by simpa using hw) (by simpa using ht), ?_⟩
  unfold Spec.planckWavelength Spec.planckWavenumber
  have e : Spec.h * Spec.c * (1 / w) / (Spec.k * t) = Spec.h * Spec.c / (w * Spec.k * t) := by
    have := hw.ne'
    rw [mul_one_div, div_div, mul_assoc]
  rw [e]
  have := hw.ne'
  field_simp

example : ∃ a b : ℝ, blackbody [fin 4e-6] [fin 250] = .ok [[fin a]] ∧
    blackbody_wn [fin (1 / 4e-6)] [fin 250] = .ok [[fin b]] ∧ a * 4e-6 ^ 2 = b :=
  C05_wavelength_wavenumber_consistent 4e-6 250 (by norm_num) (by norm_num)

/-! ### C06 -/

/-- C06: shape of the result, independence of the entries, and emptiness errors, for any
number type. -/
theorem C06_planck_grid {α : Type} [PyNum α] (ws ts : List α) (wl : Bool) :
    (ws = [] ∨ ts = [] → planck ws ts wl = .error .valueError) ∧
    (ws ≠ [] → ts ≠ [] → ∃ rows, planck ws ts wl = .ok rows ∧ rows.length = ts.length ∧
      (∀ row ∈ rows, row.length = ws.length) ∧
      ∀ (i j : ℕ) (t w : α), ts[i]? = some t → ws[j]? = some w →
        ∃ v, planck [w] [t] wl = .ok [[v]] ∧ (rows[i]?.bind fun row => row[j]?) = some v) := by
  constructor
  · rintro (rfl | rfl) <;> simp [planck]
  · intro hw ht
    refine ⟨_, planck_entries ws ts wl hw ht, by simp, ?_, ?_⟩
    · intro row hrow
      simp only [List.mem_map] at hrow
      obtain ⟨t, _, rfl⟩ := hrow
      simp
    · intro i j t w hi hj
      refine ⟨planckEntry wl w t, ?_, ?_⟩
      · rw [planck_entries _ _ _ (by simp) (by simp)]; rfl
      · simp [hi, hj]

example : ∃ rows, planck [fin 1.1e-5, fin 1.2e-5] [fin 200, XF.nan, fin 300] true = .ok rows ∧ rows.length = 3 := by
  obtain ⟨rows, h, h1, -⟩ := (C06_planck_grid [fin 1.1e-5, fin 1.2e-5] [fin 200, XF.nan, fin 300] true).2 (by simp) (by simp)
  exact ⟨rows, h, h1⟩

/-- C06: an entry is NaN exactly for a NaN temperature or one within 1e-6 of zero. -/
theorem C06_planck_nan_iff (w : ℝ) (hw : 0 < w) (t : XF) (wl : Bool) :
    planck [fin w] [t] wl = .ok [[XF.nan]] ↔ t = XF.nan ∨ ∃ r, t = fin r ∧ |r| ≤ 1e-6 := by
  rw [planck_entries _ _ _ (by simp) (by simp)]
  simp only [List.map_cons, List.map_nil, Except.ok.injEq, List.cons.injEq, and_true]
  have hinf : ∀ s : XF, (s = XF.pinf ∨ s = XF.ninf) → planckEntry wl (fin w) s ≠ XF.nan := by
    intro s hs
    have ha : planckArg2 s = fin 0 := by
      rcases hs with rfl | rfl <;>
      · simp only [planckArg2, BB_EPSILON, ofSci_eq]; rfl
    have hden : ∀ x : ℝ, PyNum.exp (fin x * fin 0 : XF) - 1 = fin 0 := by
      intro x; simp
    cases wl
    · simp only [planckEntry, PC1_eq, PC2_eq, powNat_fin, ha, fin_mul, Bool.false_eq_true, if_false,
        mul_zero, exp_fin, Real.exp_zero, ofNat_one, fin_sub, sub_self]
      have : 0 < c2R * w ^ 3 := mul_pos c2R_pos (pow_pos hw 3)
      rw [fin_div', if_pos rfl]; simp [signInf, this]
    · simp only [planckEntry, PC1_eq, PC2_eq, powNat_fin, ha, fin_div _ hw.ne',
        fin_div _ (pow_pos hw 5).ne', fin_mul, if_true,
        mul_zero, exp_fin, Real.exp_zero, ofNat_one, fin_sub, sub_self]
      have : 0 < c2R / w ^ 5 := div_pos c2R_pos (pow_pos hw 5)
      rw [fin_div', if_pos rfl]; simp [signInf, this]
  cases t with
  | nan => simp [planckEntry, planckArg2]
  | pinf => simpa using hinf _ (Or.inl rfl)
  | ninf => simpa using hinf _ (Or.inr rfl)
  | fin r =>
    by_cases h : |r| ≤ 1e-6
    · simp [entry_nan wl h, h]
    · have h' := not_le.1 h
      cases wl
      · simp [entry_wn hw h', h]
      · simp [entry_wl hw h', h]

example : planck [fin 11e-6] [fin (-0.0000005)] true = .ok [[XF.nan]] :=
  (C06_planck_nan_iff 11e-6 (by norm_num) _ true).2 (Or.inr ⟨_, rfl, by
    rw [abs_le]; constructor <;> norm_num⟩)

/-! ### C07 -/

/-- C07: the decorated conversions on a chunked radiance give, block by block in place,
the values of the unchunked conversion, for every chunking and for every evaluation order
that evaluates each block at least once; and joining the blocks gives the result of the
call on the joined array. -/
theorem C07_chunking_invariance {α : Type} [PyNum α] (w : α) (blocks : List (List α))
    (order : List ℕ) (ho : ∀ i < blocks.length, i ∈ order) :
    (∃ out, blackbodyRad2tempCall order ⟨[.npScalar w, .dask blocks], []⟩ = .ok (.dask out) ∧
      out.map List.length = blocks.map List.length ∧
      blackbodyRad2tempCall order ⟨[.npScalar w, .nd blocks.flatten], []⟩ = .ok (.nd out.flatten) ∧
      out.flatten = blackbodyRad2temp w blocks.flatten) ∧
    (∃ out, blackbodyWnRad2tempCall order ⟨[.npScalar w, .dask blocks], []⟩ = .ok (.dask out) ∧
      out.map List.length = blocks.map List.length ∧
      blackbodyWnRad2tempCall order ⟨[.npScalar w, .nd blocks.flatten], []⟩ =
        .ok (.nd out.flatten) ∧
      out.flatten = blackbodyWnRad2temp w blocks.flatten) := by
  constructor
  · refine ⟨blocks.map (List.map (rad2tempPoint w)), ?_, by simp [Function.comp_def], ?_, ?_⟩
    · have := mapBlocks_eq (elementwiseCall true rad2tempPoint) [.npScalar w, .dask blocks] 1
        (List.map (rad2tempPoint w)) blocks (fun b => rfl) order ho
      have h2 : blackbodyRad2tempCall order ⟨[.npScalar w, .dask blocks], []⟩ =
        (do return Val.dask (← mapBlocks (elementwiseCall true rad2tempPoint)
          [.npScalar w, .dask blocks] 1 blocks order)) := rfl
      rw [h2, this]; rfl
    · show Except.ok _ = _
      rw [List.map_flatten]
    · rw [blackbodyRad2temp, List.map_flatten]
  · refine ⟨blocks.map (List.map (wnRad2tempPoint w)), ?_, by simp [Function.comp_def], ?_, ?_⟩
    · have := mapBlocks_eq (elementwiseCall false wnRad2tempPoint) [.npScalar w, .dask blocks] 1
        (List.map (wnRad2tempPoint w)) blocks (fun b => rfl) order ho
      have h2 : blackbodyWnRad2tempCall order ⟨[.npScalar w, .dask blocks], []⟩ =
        (do return Val.dask (← mapBlocks (elementwiseCall false wnRad2tempPoint)
          [.npScalar w, .dask blocks] 1 blocks order)) := rfl
      rw [h2, this]; rfl
    · show Except.ok _ = _
      rw [List.map_flatten]
    · rw [blackbodyWnRad2temp, List.map_flatten]

example (a b c : XF) : ∃ out, blackbodyRad2tempCall [1, 0]
    ⟨[.npScalar (fin 11e-6), .dask [[a], [b, c]]], []⟩ = .ok (.dask out) ∧
    out.flatten = blackbodyRad2temp (fin 11e-6) [a, b, c] := by
  obtain ⟨⟨out, h1, _, _, h4⟩, _⟩ := C07_chunking_invariance (fin 11e-6) [[a], [b, c]] [1, 0]
    (by intro i hi; simp at hi; have : i = 0 ∨ i = 1 := by omega
        rcases this with rfl | rfl <;> simp)
  exact ⟨out, h1, h4⟩

/-- C07: an xarray wrapper around a dask array keeps its metadata and gets the blocks of
the dask result; an unchunked one behaves like numpy; other chunked types are refused. -/
theorem C07_xarray_and_other {α : Type} [PyNum α] (w : α) (m : String) (blocks : List (List α))
    (order : List ℕ) :
    (blackbodyRad2tempCall order ⟨[.npScalar w, .xarr m true blocks], []⟩ =
      (match blackbodyRad2tempCall order ⟨[.npScalar w, .dask blocks], []⟩ with
        | .ok (.dask out) => .ok (.xarr m true out)
        | .ok v => .ok v
        | .error e => .error e)) ∧
    blackbodyRad2tempCall order ⟨[.npScalar w, .xarr m false blocks], []⟩ =
      .ok (.xarr m false (blocks.map (blackbodyRad2temp w))) ∧
    blackbodyRad2tempCall order ⟨[.npScalar w, .chunkedDuck], []⟩ = .error .notImplemented := by
  refine ⟨?_, rfl, rfl⟩
  have h1 : blackbodyRad2tempCall order ⟨[.npScalar w, .xarr m true blocks], []⟩ =
    (do return Val.xarr m true (← mapBlocks (elementwiseCall true rad2tempPoint)
      [.npScalar w, .xarr m true blocks] 1 blocks order)) := rfl
  have h2 : blackbodyRad2tempCall order ⟨[.npScalar w, .dask blocks], []⟩ =
    (do return Val.dask (← mapBlocks (elementwiseCall true rad2tempPoint)
      [.npScalar w, .dask blocks] 1 blocks order)) := rfl
  have h3 : mapBlocks (elementwiseCall true rad2tempPoint)
      [.npScalar w, .xarr m true blocks] 1 blocks order = mapBlocks (elementwiseCall true rad2tempPoint)
      [.npScalar w, .dask blocks] 1 blocks order := rfl
  rw [h1, h2, h3]
  cases mapBlocks (elementwiseCall true rad2tempPoint)
      [.npScalar w, .dask blocks] 1 blocks order <;> rfl

/-! ### C08 -/

/-- C08 is false of the code: whenever the radiance is not passed by position, the
decorated conversions raise IndexError, whatever the values. -/
theorem C08_keyword_radiance_always_fails {α : Type} [PyNum α] (order : List ℕ) (w r : Val α) :
    blackbodyRad2tempCall order ⟨[w], [("radiance", r)]⟩ = .error .indexError ∧
    blackbodyRad2tempCall order ⟨[], [("wavelength", w), ("radiance", r)]⟩ = .error .indexError ∧
    blackbodyWnRad2tempCall order ⟨[w], [("radiance", r)]⟩ = .error .indexError ∧
    blackbodyWnRad2tempCall order ⟨[], [("wavenumber", w), ("radiance", r)]⟩ = .error .indexError :=
  ⟨rfl, rfl, rfl, rfl⟩

/-- C08 refuted: keyword and positional calls differ (the undecorated function accepts both). -/
theorem C08_keyword_equivalence_false :
    ¬ ∀ (order : List ℕ) (w r : Val XF),
      blackbodyRad2tempCall order ⟨[w], [("radiance", r)]⟩ =
      blackbodyRad2tempCall order ⟨[w, r], []⟩ := by
  intro h
  have := h [] (.npScalar (fin 1)) (.nd [fin 1])
  simp only [(C08_keyword_radiance_always_fails [] (.npScalar (fin 1)) (.nd [fin 1])).1] at this
  exact absurd this (by intro h; cases h)

/-- What does hold of C08: with both arguments by position, unchunked data go straight to
the conversion.  Missing: keyword calls. -/
theorem C08_positional_partial {α : Type} [PyNum α] (order : List ℕ) (w : α) (r : List α) :
    blackbodyRad2tempCall order ⟨[.npScalar w, .nd r], []⟩ = .ok (.nd (blackbodyRad2temp w r)) ∧
    blackbodyWnRad2tempCall order ⟨[.npScalar w, .nd r], []⟩ = .ok (.nd (blackbodyWnRad2temp w r)) :=
  ⟨rfl, rfl⟩

end Verif.Props
