import Verif.Base.XF
import Verif.Model.Blackbody
import Verif.Spec.Planck
/-
Supporting lemmas about the Planck function.
-/
namespace Verif.Lemmas
open XF Model PyNum

theorem h_pos : 0 < Spec.h := by unfold Spec.h; norm_num
theorem k_pos : 0 < Spec.k := by unfold Spec.k; norm_num
theorem c_pos : 0 < Spec.c := by unfold Spec.c; norm_num

noncomputable def c1R : ℝ := Spec.h * Spec.c / Spec.k
noncomputable def c2R : ℝ := 2 * Spec.h * Spec.c ^ 2

theorem c1R_pos : 0 < c1R := div_pos (mul_pos h_pos c_pos) k_pos
theorem c2R_pos : 0 < c2R := mul_pos (mul_pos two_pos h_pos) (pow_pos c_pos 2)

theorem H_eq : (H_PLANCK : XF) = fin Spec.h := by
  simp only [H_PLANCK, ofSci_eq, fin_mul, fin_inj, Spec.h]; norm_num
theorem K_eq : (K_BOLTZMANN : XF) = fin Spec.k := by
  simp only [K_BOLTZMANN, ofSci_eq, fin_mul, fin_inj, Spec.k]; norm_num
theorem C_eq : (C_SPEED : XF) = fin Spec.c := by
  simp only [C_SPEED, ofSci_eq, fin_mul, fin_inj, Spec.c]; norm_num
theorem PC1_eq : (PLANCK_C1 : XF) = fin c1R := by
  simp only [PLANCK_C1, H_eq, K_eq, C_eq, fin_mul, fin_div _ k_pos.ne', c1R]
theorem PC2_eq : (PLANCK_C2 : XF) = fin c2R := by
  simp only [PLANCK_C2, H_eq, C_eq, ofNat_two, powNat_fin, fin_mul, c2R]

/-- One entry of the array computed by `planck`. -/
def planckEntry {α : Type} [PyNum α] (wl : Bool) (w t : α) : α :=
  (if wl then PLANCK_C2 / powNat w 5 else PLANCK_C2 * powNat w 3) /
    (PyNum.exp ((if wl then PLANCK_C1 / w else PLANCK_C1 * w) * planckArg2 t) - 1)

theorem planck_entries {α : Type} [PyNum α] (ws ts : List α) (wl : Bool)
    (hw : ws ≠ []) (ht : ts ≠ []) :
    planck ws ts wl = .ok (ts.map fun t => ws.map fun w => planckEntry wl w t) := by
  have e1 : ws.isEmpty = false := by cases ws <;> simp_all
  have e2 : ts.isEmpty = false := by cases ts <;> simp_all
  simp only [planck, e1, e2, Bool.or_self, Bool.false_eq_true, if_false, List.map_map]
  congr 1
  apply List.map_congr_left
  intro t _
  simp only [Function.comp, List.zipWith_map_left, List.zipWith_map_right, List.zipWith_self]
  rfl

theorem arg2_fin {t : ℝ} (ht : 1e-6 < |t|) : planckArg2 (fin t) = fin (1 / t) := by
  have h0 : t ≠ 0 := by rintro rfl; norm_num at ht
  have : (0.000001 : ℝ) < |t| := by norm_num at ht ⊢; exact ht
  simp only [planckArg2, abs_fin, BB_EPSILON, ofSci_eq, gt_fin, this, decide_true, if_true,
    fin_div _ h0]
  norm_num

theorem arg2_small {t : ℝ} (ht : |t| ≤ 1e-6) : planckArg2 (fin t) = nan := by
  have : ¬ (0.000001 : ℝ) < |t| := by norm_num at ht ⊢; exact ht
  simp only [planckArg2, abs_fin, BB_EPSILON, ofSci_eq, gt_fin, this, decide_false, nan_eq,
    Bool.false_eq_true, if_false]

theorem exp_sub_one_ne {x : ℝ} (h : x ≠ 0) : Real.exp x - 1 ≠ 0 := by
  intro h'
  apply h
  have : Real.exp x = Real.exp 0 := by rw [Real.exp_zero]; linarith
  exact Real.exp_injective this

theorem exp_sub_one_pos {x : ℝ} (h : 0 < x) : 0 < Real.exp x - 1 := by
  have := Real.add_one_lt_exp h.ne'
  linarith

theorem entry_wl {w t : ℝ} (hw : 0 < w) (ht : 1e-6 < |t|) :
    planckEntry true (fin w) (fin t) = fin (Spec.planckWavelength w t) := by
  have h0 : t ≠ 0 := by rintro rfl; norm_num at ht
  have hx : c1R / w * (1 / t) ≠ 0 :=
    mul_ne_zero (div_pos c1R_pos hw).ne' (one_div_ne_zero h0)
  simp only [planckEntry, if_true, PC1_eq, PC2_eq, powNat_fin, arg2_fin ht,
    fin_div _ hw.ne', fin_div _ (pow_pos hw 5).ne', fin_mul, exp_fin, ofNat_one, fin_sub]
  rw [fin_div _ (exp_sub_one_ne hx)]
  have e : c1R / w * (1 / t) = Spec.h * Spec.c / (w * Spec.k * t) := by
    unfold c1R; have := k_pos.ne'; field_simp
  rw [e]
  rfl

theorem entry_wn {w t : ℝ} (hw : 0 < w) (ht : 1e-6 < |t|) :
    planckEntry false (fin w) (fin t) = fin (Spec.planckWavenumber w t) := by
  have h0 : t ≠ 0 := by rintro rfl; norm_num at ht
  have hx : c1R * w * (1 / t) ≠ 0 :=
    mul_ne_zero (mul_pos c1R_pos hw).ne' (one_div_ne_zero h0)
  simp only [planckEntry, Bool.false_eq_true, if_false, PC1_eq, PC2_eq, powNat_fin, arg2_fin ht,
    fin_mul, exp_fin, ofNat_one, fin_sub]
  rw [fin_div _ (exp_sub_one_ne hx)]
  have e : c1R * w * (1 / t) = Spec.h * Spec.c * w / (Spec.k * t) := by
    unfold c1R; have := k_pos.ne'; field_simp
  rw [e]
  rfl

theorem entry_nan (wl : Bool) {w t : ℝ} (ht : |t| ≤ 1e-6) :
    planckEntry wl (fin w) (fin t) = nan := by
  simp [planckEntry, arg2_small ht]

/-! real analysis -/

theorem planckWl_arg_pos {w t : ℝ} (hw : 0 < w) (ht : 0 < t) :
    0 < Spec.h * Spec.c / (w * Spec.k * t) :=
  div_pos (mul_pos h_pos c_pos) (mul_pos (mul_pos hw k_pos) ht)

theorem planckWn_arg_pos {w t : ℝ} (hw : 0 < w) (ht : 0 < t) :
    0 < Spec.h * Spec.c * w / (Spec.k * t) :=
  div_pos (mul_pos (mul_pos h_pos c_pos) hw) (mul_pos k_pos ht)

theorem planckWl_pos {w t : ℝ} (hw : 0 < w) (ht : 0 < t) : 0 < Spec.planckWavelength w t :=
  div_pos (div_pos c2R_pos (pow_pos hw 5)) (exp_sub_one_pos (planckWl_arg_pos hw ht))

theorem planckWn_pos {w t : ℝ} (hw : 0 < w) (ht : 0 < t) : 0 < Spec.planckWavenumber w t :=
  div_pos (mul_pos c2R_pos (pow_pos hw 3)) (exp_sub_one_pos (planckWn_arg_pos hw ht))

theorem planckWl_lt {w t₁ t₂ : ℝ} (hw : 0 < w) (h1 : 0 < t₁) (h : t₁ < t₂) :
    Spec.planckWavelength w t₁ < Spec.planckWavelength w t₂ := by
  have h2 := h1.trans h
  apply div_lt_div_of_pos_left (div_pos c2R_pos (pow_pos hw 5))
    (exp_sub_one_pos (planckWl_arg_pos hw h2))
  apply sub_lt_sub_right
  apply Real.exp_lt_exp.2
  apply div_lt_div_of_pos_left (mul_pos h_pos c_pos) (mul_pos (mul_pos hw k_pos) h1)
  exact mul_lt_mul_of_pos_left h (mul_pos hw k_pos)

theorem planckWn_lt {w t₁ t₂ : ℝ} (hw : 0 < w) (h1 : 0 < t₁) (h : t₁ < t₂) :
    Spec.planckWavenumber w t₁ < Spec.planckWavenumber w t₂ := by
  have h2 := h1.trans h
  apply div_lt_div_of_pos_left (mul_pos c2R_pos (pow_pos hw 3))
    (exp_sub_one_pos (planckWn_arg_pos hw h2))
  apply sub_lt_sub_right
  apply Real.exp_lt_exp.2
  apply div_lt_div_of_pos_left (mul_pos (mul_pos h_pos c_pos) hw) (mul_pos k_pos h1)
  exact mul_lt_mul_of_pos_left h k_pos

theorem rad2temp_fin {w L : ℝ} (hw : 0 < w) (hL : 0 < L) :
    rad2tempPoint (fin w) (fin L) = fin (Spec.brightnessTemperature w L) := by
  have hp : 0 < L * w ^ 5 := mul_pos hL (pow_pos hw 5)
  have hq : 0 < c2R / (L * w ^ 5) + 1 := by have := div_pos c2R_pos hp; linarith
  have hl : 0 < Real.log (c2R / (L * w ^ 5) + 1) := by
    apply Real.log_pos; have := div_pos c2R_pos hp; linarith
  have h1 : (1.0 : ℝ) = 1 := by norm_num
  simp only [rad2tempPoint, PC1_eq, PC2_eq, powNat_fin, fin_mul, fin_div _ hp.ne', ofSci_eq,
    fin_add, h1, log_fin hq, fin_div _ (mul_pos hw hl).ne', fin_inj, Spec.brightnessTemperature]
  have e : c2R / (L * w ^ 5) = 2 * Spec.h * Spec.c ^ 2 / (w ^ 5 * L) := by
    unfold c2R; rw [mul_comm L]
  rw [e] at hl ⊢
  unfold c1R
  have := k_pos.ne'
  field_simp

theorem wnRad2temp_fin {n L : ℝ} (hn : 0 < n) (hL : 0 < L) :
    wnRad2tempPoint (fin n) (fin L) = fin (Spec.brightnessTemperatureWn n L) := by
  have hp : 0 < c2R * n ^ 3 / L := div_pos (mul_pos c2R_pos (pow_pos hn 3)) hL
  have hq : 0 < c2R * n ^ 3 / L + 1 := by linarith
  have hl : 0 < Real.log (c2R * n ^ 3 / L + 1) := Real.log_pos (by linarith)
  have h1 : (1.0 : ℝ) = 1 := by norm_num
  simp only [wnRad2tempPoint, PC1_eq, PC2_eq, powNat_fin, fin_mul, fin_div _ hL.ne', ofSci_eq,
    fin_add, h1, log_fin hq, fin_div _ hl.ne', fin_inj, Spec.brightnessTemperatureWn]
  change c1R * n / Real.log (c2R * n ^ 3 / L + 1) =
    Spec.h * Spec.c * n / (Spec.k * Real.log (c2R * n ^ 3 / L + 1))
  unfold c1R
  have := k_pos.ne'
  field_simp

theorem bt_planck_wl {w t : ℝ} (hw : 0 < w) (ht : 0 < t) :
    Spec.brightnessTemperature w (Spec.planckWavelength w t) = t := by
  have hx := planckWl_arg_pos hw ht
  have he := exp_sub_one_pos hx
  have hw5 := pow_pos hw 5
  have e : 2 * Spec.h * Spec.c ^ 2 / (w ^ 5 * Spec.planckWavelength w t) + 1
      = Real.exp (Spec.h * Spec.c / (w * Spec.k * t)) := by
    unfold Spec.planckWavelength
    have h2 := c2R_pos.ne'; unfold c2R at h2
    rw [mul_div_assoc', mul_div_cancel₀ _ hw5.ne', div_div_cancel₀ h2]; ring
  unfold Spec.brightnessTemperature
  rw [e, Real.log_exp]
  have := k_pos.ne'; have := h_pos.ne'; have := c_pos.ne'
  field_simp

theorem bt_planck_wn {n t : ℝ} (hn : 0 < n) (ht : 0 < t) :
    Spec.brightnessTemperatureWn n (Spec.planckWavenumber n t) = t := by
  have hx := planckWn_arg_pos hn ht
  have he := exp_sub_one_pos hx
  have h3 := pow_pos hn 3
  have e : 2 * Spec.h * Spec.c ^ 2 * n ^ 3 / Spec.planckWavenumber n t + 1
      = Real.exp (Spec.h * Spec.c * n / (Spec.k * t)) := by
    unfold Spec.planckWavenumber
    have h2 := (mul_pos c2R_pos h3).ne'; unfold c2R at h2
    rw [div_div_cancel₀ h2]; ring
  unfold Spec.brightnessTemperatureWn
  rw [e, Real.log_exp]
  have := k_pos.ne'; have := h_pos.ne'; have := c_pos.ne'
  field_simp

theorem bt_pos {w L : ℝ} (hw : 0 < w) (hL : 0 < L) : 0 < Spec.brightnessTemperature w L := by
  apply div_pos (mul_pos h_pos c_pos) (mul_pos (mul_pos hw k_pos) (Real.log_pos _))
  have := div_pos c2R_pos (mul_pos (pow_pos hw 5) hL); unfold c2R at this; linarith

theorem btWn_pos {w L : ℝ} (hw : 0 < w) (hL : 0 < L) : 0 < Spec.brightnessTemperatureWn w L := by
  apply div_pos (mul_pos (mul_pos h_pos c_pos) hw) (mul_pos k_pos (Real.log_pos _))
  have := div_pos (mul_pos c2R_pos (pow_pos hw 3)) hL; unfold c2R at this; linarith

theorem planck_bt_wl {w L : ℝ} (hw : 0 < w) (hL : 0 < L) :
    Spec.planckWavelength w (Spec.brightnessTemperature w L) = L := by
  have hq : 0 < 2 * Spec.h * Spec.c ^ 2 / (w ^ 5 * L) :=
    div_pos c2R_pos (mul_pos (pow_pos hw 5) hL)
  have hl : 0 < Real.log (2 * Spec.h * Spec.c ^ 2 / (w ^ 5 * L) + 1) := Real.log_pos (by linarith)
  have e : Spec.h * Spec.c / (w * Spec.k * Spec.brightnessTemperature w L)
      = Real.log (2 * Spec.h * Spec.c ^ 2 / (w ^ 5 * L) + 1) := by
    unfold Spec.brightnessTemperature
    have := k_pos.ne'; have := h_pos.ne'; have := c_pos.ne'
    field_simp
  unfold Spec.planckWavelength
  rw [e, Real.exp_log (by linarith)]
  have := h_pos.ne'; have := c_pos.ne'; have := hw.ne'; have := hL.ne'
  field_simp
  ring_nf

theorem planck_bt_wn {w L : ℝ} (hw : 0 < w) (hL : 0 < L) :
    Spec.planckWavenumber w (Spec.brightnessTemperatureWn w L) = L := by
  have hq : 0 < 2 * Spec.h * Spec.c ^ 2 * w ^ 3 / L :=
    div_pos (mul_pos c2R_pos (pow_pos hw 3)) hL
  have hl : 0 < Real.log (2 * Spec.h * Spec.c ^ 2 * w ^ 3 / L + 1) := Real.log_pos (by linarith)
  have e : Spec.h * Spec.c * w / (Spec.k * Spec.brightnessTemperatureWn w L)
      = Real.log (2 * Spec.h * Spec.c ^ 2 * w ^ 3 / L + 1) := by
    unfold Spec.brightnessTemperatureWn
    have := k_pos.ne'; have := h_pos.ne'; have := c_pos.ne'
    field_simp
  unfold Spec.planckWavenumber
  rw [e, Real.exp_log (by linarith)]
  have := h_pos.ne'; have := c_pos.ne'; have := hw.ne'; have := hL.ne'
  field_simp
  ring_nf

theorem bt_lt {w L₁ L₂ : ℝ} (hw : 0 < w) (h1 : 0 < L₁) (h : L₁ < L₂) :
    Spec.brightnessTemperature w L₁ < Spec.brightnessTemperature w L₂ := by
  by_contra hc
  have h2 := h1.trans h
  rcases (not_lt.1 hc).eq_or_lt with e | l
  · have := planck_bt_wl hw h1; rw [← e, planck_bt_wl hw h2] at this; linarith
  · have := planckWl_lt hw (bt_pos hw h2) l
    rw [planck_bt_wl hw h1, planck_bt_wl hw h2] at this; linarith

theorem btWn_lt {w L₁ L₂ : ℝ} (hw : 0 < w) (h1 : 0 < L₁) (h : L₁ < L₂) :
    Spec.brightnessTemperatureWn w L₁ < Spec.brightnessTemperatureWn w L₂ := by
  by_contra hc
  have h2 := h1.trans h
  rcases (not_lt.1 hc).eq_or_lt with e | l
  · have := planck_bt_wn hw h1; rw [← e, planck_bt_wn hw h2] at this; linarith
  · have := planckWn_lt hw (btWn_pos hw h2) l
    rw [planck_bt_wn hw h1, planck_bt_wn hw h2] at this; linarith

end Verif.Lemmas
