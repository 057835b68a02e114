import Verif.Lemmas.FPPlanck
import Verif.Base.Double
/-
Properties C114-C117: the Planck function and its inverse as they are computed, with rounding,
overflow and underflow.  `F` is any floating point arithmetic satisfying the assumptions in
`Verif/Base/FP.lean`; `Double.fp` (IEEE double precision) is one.
-/
namespace Verif.Props
open XF Model PyNum Lemmas

theorem near_abs {δ : ℝ} {a : XF} {x : ℝ} (h : Near δ a x) (h0 : 0 ≤ δ) (h1 : δ ≤ 0.1) :
    ∃ y, a = fin y ∧ |y - x| ≤ x * (2 * δ) := by
  obtain ⟨hx, y, e, h3, h4⟩ := h
  norm_num at h1
  have e1 : Real.exp δ ≤ 1 + 2 * δ := by
    have := Real.exp_bound_div_one_sub_of_interval h0 (by linarith)
    refine this.trans ?_
    rw [div_le_iff₀ (by linarith)]
    nlinarith
  have e2 := Real.add_one_le_exp (-δ)
  refine ⟨y, e, abs_le.2 ⟨?_, ?_⟩⟩ <;> nlinarith

theorem arg_eq_wl {w t : ℝ} : Spec.h * Spec.c / (w * Spec.k * t) = c1R / w / t := by
  unfold c1R
  rw [div_div, div_div, mul_comm w, mul_assoc]

theorem arg_eq_wn {w t : ℝ} : Spec.h * Spec.c * w / (Spec.k * t) = c1R * w / t := by
  unfold c1R
  rw [div_mul_eq_mul_div, div_div]

/-! ### C114 -/

/-- C114, wavelengths from 10 nm to 1 cm: the computed radiance is a number, not negative, and does
not decrease with temperature. -/
theorem C114_radiance_never_decreases (F : FP) (w t₁ t₂ : ℝ) (hw : 1e-8 ≤ w ∧ w ≤ 1e-2)
    (ht : 2e-6 ≤ t₁) (h : t₁ ≤ t₂) :
    ∃ b₁ b₂ : RF F, blackbody [RF.of w] [RF.of t₁, RF.of t₂] = .ok [[b₁], [b₂]] ∧
      RF.Le (RF.of 0) b₁ ∧ RF.Le b₁ b₂ := by
  obtain ⟨N, eN, hN⟩ := (wl_nom_near F hw.1 hw.2).1.pos
  obtain ⟨A, eA, hA⟩ := (wl_arg_near F hw.1 hw.2).1.pos
  have ht0 : 0 < t₁ := lt_of_lt_of_le (by norm_num) ht
  have := core_mono F hN hA ht0 h
  refine ⟨_, _, planck_entries _ _ _ (by simp) (by simp), ?_⟩
  beta_reduce
  rw [entry_core F (wl := true) ht eN eA,
    entry_core F (wl := true) (ht.trans h) eN eA]
  exact this

example : ∃ b₁ b₂ : RF Double.fp, blackbody [RF.of 11e-6] [RF.of 200, RF.of 300] = .ok [[b₁], [b₂]] ∧
    RF.Le (RF.of 0) b₁ ∧ RF.Le b₁ b₂ :=
  C114_radiance_never_decreases Double.fp 11e-6 200 300 (by norm_num) (by norm_num) (by norm_num)

/-- C114, wavenumbers from 1/cm to 1e6/cm. -/
theorem C114_radiance_never_decreases_wn (F : FP) (n t₁ t₂ : ℝ) (hn : 1e2 ≤ n ∧ n ≤ 1e8)
    (ht : 2e-6 ≤ t₁) (h : t₁ ≤ t₂) :
    ∃ b₁ b₂ : RF F, blackbody_wn [RF.of n] [RF.of t₁, RF.of t₂] = .ok [[b₁], [b₂]] ∧
      RF.Le (RF.of 0) b₁ ∧ RF.Le b₁ b₂ := by
  obtain ⟨N, eN, hN⟩ := (wn_nom_near F hn.1 hn.2).1.pos
  obtain ⟨A, eA, hA⟩ := (wn_arg_near F hn.1 hn.2).1.pos
  have ht0 : 0 < t₁ := lt_of_lt_of_le (by norm_num) ht
  have := core_mono F hN hA ht0 h
  refine ⟨_, _, planck_entries _ _ _ (by simp) (by simp), ?_⟩
  beta_reduce
  rw [entry_core F (wl := false) ht eN eA,
    entry_core F (wl := false) (ht.trans h) eN eA]
  exact this

example : ∃ b₁ b₂ : RF Double.fp, blackbody_wn [RF.of 90000] [RF.of 200, RF.of 300] = .ok [[b₁], [b₂]] ∧
    RF.Le (RF.of 0) b₁ ∧ RF.Le b₁ b₂ :=
  C114_radiance_never_decreases_wn Double.fp 90000 200 300 (by norm_num) (by norm_num) (by norm_num)

/-! ### C115 -/

theorem wl_radiance_near (F : FP) (w t : ℝ) (hw : 1e-8 ≤ w ∧ w ≤ 1e-2) (ht : 0 < t)
    (hx : 0.7 ≤ Spec.h * Spec.c / (w * Spec.k * t) ∧ Spec.h * Spec.c / (w * Spec.k * t) ≤ 300) :
    ∃ b : RF F, blackbody [RF.of w] [RF.of t] = .ok [[b]] ∧
      Near ((38 + 112 * (Spec.h * Spec.c / (w * Spec.k * t))) * uu) b (Spec.planckWavelength w t) := by
  obtain ⟨hN, hN1, hN2⟩ := wl_nom_near F hw.1 hw.2
  obtain ⟨hA, hA1, hA2⟩ := wl_arg_near F hw.1 hw.2
  obtain ⟨N, eN, _⟩ := hN.pos
  obtain ⟨A, eA, _⟩ := hA.pos
  have h2e : 2e-6 ≤ t := by
    have := (div_le_iff₀ ht).1 (arg_eq_wl (w := w) (t := t) ▸ hx.2)
    norm_num; linarith
  refine ⟨_, planck_entries _ _ _ (by simp) (by simp), ?_⟩
  beta_reduce
  rw [entry_core F (wl := true) h2e eN eA]
  unfold Spec.planckWavelength
  rw [arg_eq_wl] at *
  exact core_near F (eN ▸ hN) (eA ▸ hA) (le_trans (by norm_num) hN1) hN2 hA1 hA2 ht hx.1 hx.2

theorem wn_radiance_near (F : FP) (n t : ℝ) (hn : 1e2 ≤ n ∧ n ≤ 1e8) (ht : 0 < t)
    (hx : 0.7 ≤ Spec.h * Spec.c * n / (Spec.k * t) ∧ Spec.h * Spec.c * n / (Spec.k * t) ≤ 300) :
    ∃ b : RF F, blackbody_wn [RF.of n] [RF.of t] = .ok [[b]] ∧
      Near ((38 + 112 * (Spec.h * Spec.c * n / (Spec.k * t))) * uu) b (Spec.planckWavenumber n t) := by
  obtain ⟨hN, hN1, hN2⟩ := wn_nom_near F hn.1 hn.2
  obtain ⟨hA, hA1, hA2⟩ := wn_arg_near F hn.1 hn.2
  obtain ⟨N, eN, _⟩ := hN.pos
  obtain ⟨A, eA, _⟩ := hA.pos
  have h2e : 2e-6 ≤ t := by
    have := (div_le_iff₀ ht).1 (arg_eq_wn (w := n) (t := t) ▸ hx.2)
    norm_num; linarith
  refine ⟨_, planck_entries _ _ _ (by simp) (by simp), ?_⟩
  beta_reduce
  rw [entry_core F (wl := false) h2e eN eA]
  unfold Spec.planckWavenumber
  rw [arg_eq_wn] at *
  exact core_near F (eN ▸ hN) (eA ▸ hA) hN1 (hN2.trans (by norm_num)) hA1 hA2 ht hx.1 hx.2

theorem small_err {x : ℝ} (h0 : 0.7 ≤ x) (h : x ≤ 300) :
    0 ≤ (38 + 112 * x) * uu ∧ (38 + 112 * x) * uu ≤ 0.01 := by
  have hu := uu_small
  have hu0 := uu_pos
  norm_num at hu h0 ⊢
  constructor
  · exact mul_nonneg (by linarith) hu0.le
  · nlinarith

/-- C115: where `x = hc/(λkT)` is between 0.7 and 300, the computed radiance differs from Planck's
law by less than the fraction `(38 + 112 x)/2^50`. -/
theorem C115_radiance_accuracy (F : FP) (w t : ℝ) (hw : 1e-8 ≤ w ∧ w ≤ 1e-2) (ht : 0 < t)
    (hx : 0.7 ≤ Spec.h * Spec.c / (w * Spec.k * t) ∧ Spec.h * Spec.c / (w * Spec.k * t) ≤ 300) :
    ∃ b : ℝ, blackbody [RF.of w] [RF.of t] = .ok [[(RF.of b : RF F)]] ∧
      |b - Spec.planckWavelength w t| ≤
        Spec.planckWavelength w t * (38 + 112 * (Spec.h * Spec.c / (w * Spec.k * t))) / 2 ^ 50 := by
  obtain ⟨b, hb, hn⟩ := wl_radiance_near F w t hw ht hx
  obtain ⟨s0, s1⟩ := small_err hx.1 hx.2
  obtain ⟨y, rfl, hy⟩ := near_abs hn s0 (s1.trans (by norm_num))
  refine ⟨y, hb, hy.trans (le_of_eq ?_)⟩
  unfold uu
  ring

/-- C115 in wavenumber space. -/
theorem C115_radiance_accuracy_wn (F : FP) (n t : ℝ) (hn : 1e2 ≤ n ∧ n ≤ 1e8) (ht : 0 < t)
    (hx : 0.7 ≤ Spec.h * Spec.c * n / (Spec.k * t) ∧ Spec.h * Spec.c * n / (Spec.k * t) ≤ 300) :
    ∃ b : ℝ, blackbody_wn [RF.of n] [RF.of t] = .ok [[(RF.of b : RF F)]] ∧
      |b - Spec.planckWavenumber n t| ≤
        Spec.planckWavenumber n t * (38 + 112 * (Spec.h * Spec.c * n / (Spec.k * t))) / 2 ^ 50 := by
  obtain ⟨b, hb, hn⟩ := wn_radiance_near F n t hn ht hx
  obtain ⟨s0, s1⟩ := small_err hx.1 hx.2
  obtain ⟨y, rfl, hy⟩ := near_abs hn s0 (s1.trans (by norm_num))
  refine ⟨y, hb, hy.trans (le_of_eq ?_)⟩
  unfold uu
  ring

/-- in double precision, 11 micron and 300 K (x = 4.36) -/
example : ∃ b : ℝ, blackbody [RF.of 11e-6] [RF.of 300] = .ok [[(RF.of b : RF Double.fp)]] ∧
    |b - Spec.planckWavelength 11e-6 300| ≤
      Spec.planckWavelength 11e-6 300 * (38 + 112 * (Spec.h * Spec.c / (11e-6 * Spec.k * 300))) / 2 ^ 50 :=
  C115_radiance_accuracy Double.fp 11e-6 300 (by norm_num) (by norm_num)
    (by norm_num [Spec.h, Spec.c, Spec.k])

example : ∃ b : ℝ, blackbody_wn [RF.of 90000] [RF.of 300] = .ok [[(RF.of b : RF Double.fp)]] ∧
    |b - Spec.planckWavenumber 90000 300| ≤
      Spec.planckWavenumber 90000 300 * (38 + 112 * (Spec.h * Spec.c * 90000 / (Spec.k * 300))) / 2 ^ 50 :=
  C115_radiance_accuracy_wn Double.fp 90000 300 (by norm_num) (by norm_num)
    (by norm_num [Spec.h, Spec.c, Spec.k])

/-! ### C116 -/

/-- C116: the computed brightness temperature is a number, not negative, and does not decrease with
radiance; zero and infinite radiances included. -/
theorem C116_temperature_never_decreases (F : FP) (w : ℝ) (hw : 1e-8 ≤ w ∧ w ≤ 1e-2) (L₁ L₂ : RF F)
    (h0 : RF.Le (RF.of 0) L₁) (h : RF.Le L₁ L₂) :
    ∃ t₁ t₂ : RF F, blackbodyRad2temp (RF.of w) [L₁, L₂] = [t₁, t₂] ∧ RF.Le (RF.of 0) t₁ ∧ RF.Le t₁ t₂ :=
  ⟨_, _, rfl, wl_inv_mono F hw.1 hw.2 h0 h⟩

/-- C116 in wavenumber space. -/
theorem C116_temperature_never_decreases_wn (F : FP) (n : ℝ) (hn : 1e2 ≤ n ∧ n ≤ 1e8) (L₁ L₂ : RF F)
    (h0 : RF.Le (RF.of 0) L₁) (h : RF.Le L₁ L₂) :
    ∃ t₁ t₂ : RF F, blackbodyWnRad2temp (RF.of n) [L₁, L₂] = [t₁, t₂] ∧ RF.Le (RF.of 0) t₁ ∧ RF.Le t₁ t₂ :=
  ⟨_, _, rfl, wn_inv_mono F hn.1 hn.2 h0 h⟩

example : ∃ t₁ t₂ : RF Double.fp, blackbodyRad2temp (RF.of 11e-6) [RF.of 0, RF.of 9.5e6] = [t₁, t₂] ∧
    RF.Le (RF.of 0) t₁ ∧ RF.Le t₁ t₂ :=
  C116_temperature_never_decreases Double.fp 11e-6 (by norm_num) _ _ (lx_fin.2 le_rfl) (lx_fin.2 (by norm_num))

example : ∃ t₁ t₂ : RF Double.fp, blackbodyWnRad2temp (RF.of 90000) [RF.of 1e-3, XF.pinf] = [t₁, t₂] ∧
    RF.Le (RF.of 0) t₁ ∧ RF.Le t₁ t₂ :=
  C116_temperature_never_decreases_wn Double.fp 90000 (by norm_num) _ _ (lx_fin.2 (by norm_num)) (lx_pinf (by simp [RF.of]))

/-! ### C117 -/

/-- C117: temperature to radiance and back, as computed, ends within the fraction
`(197 + 336 x)/2^50` of the temperature. -/
theorem C117_roundtrip_accuracy (F : FP) (w t : ℝ) (hw : 1e-8 ≤ w ∧ w ≤ 1e-2) (ht : 0 < t)
    (hx : 0.7 ≤ Spec.h * Spec.c / (w * Spec.k * t) ∧ Spec.h * Spec.c / (w * Spec.k * t) ≤ 300) :
    ∃ (L : RF F) (t' : ℝ), blackbody [RF.of w] [RF.of t] = .ok [[L]] ∧
      blackbodyRad2temp (RF.of w) [L] = [RF.of t'] ∧
      |t' - t| ≤ t * (197 + 336 * (Spec.h * Spec.c / (w * Spec.k * t))) / 2 ^ 50 := by
  obtain ⟨L, hL, hn⟩ := wl_radiance_near F w t hw ht hx
  obtain ⟨s0, s1⟩ := small_err hx.1 hx.2
  have hu := uu_small
  have hu0 := uu_pos
  norm_num at hu s1
  have := wl_inv_near F (δ := (38 + 112 * (Spec.h * Spec.c / (w * Spec.k * t))) * uu) hw.1 hw.2 ht
    (arg_eq_wl ▸ hx.1) (arg_eq_wl ▸ hx.2) s0 (by norm_num; linarith)
    (by rw [← arg_eq_wl]; exact hn)
  obtain ⟨t', e, h⟩ := near_abs this (by linarith) (by norm_num; linarith)
  refine ⟨L, t', hL, congrArg (fun z => [z]) e, h.trans (le_of_eq ?_)⟩
  unfold uu
  ring

example : ∃ (L : RF Double.fp) (t' : ℝ), blackbody [RF.of 11e-6] [RF.of 300] = .ok [[L]] ∧
    blackbodyRad2temp (RF.of 11e-6) [L] = [RF.of t'] ∧
    |t' - 300| ≤ 300 * (197 + 336 * (Spec.h * Spec.c / (11e-6 * Spec.k * 300))) / 2 ^ 50 :=
  C117_roundtrip_accuracy Double.fp 11e-6 300 (by norm_num) (by norm_num) (by norm_num [Spec.h, Spec.c, Spec.k])

/-- C117 in wavenumber space. -/
theorem C117_roundtrip_accuracy_wn (F : FP) (n t : ℝ) (hn : 1e2 ≤ n ∧ n ≤ 1e8) (ht : 0 < t)
    (hx : 0.7 ≤ Spec.h * Spec.c * n / (Spec.k * t) ∧ Spec.h * Spec.c * n / (Spec.k * t) ≤ 300) :
    ∃ (L : RF F) (t' : ℝ), blackbody_wn [RF.of n] [RF.of t] = .ok [[L]] ∧
      blackbodyWnRad2temp (RF.of n) [L] = [RF.of t'] ∧
      |t' - t| ≤ t * (197 + 336 * (Spec.h * Spec.c * n / (Spec.k * t))) / 2 ^ 50 := by
  obtain ⟨L, hL, hN⟩ := wn_radiance_near F n t hn ht hx
  obtain ⟨s0, s1⟩ := small_err hx.1 hx.2
  have hu := uu_small
  have hu0 := uu_pos
  norm_num at hu s1
  have := wn_inv_near F (δ := (38 + 112 * (Spec.h * Spec.c * n / (Spec.k * t))) * uu) hn.1 hn.2 ht
    (arg_eq_wn ▸ hx.1) (arg_eq_wn ▸ hx.2) s0 (by norm_num; linarith)
    (by rw [← arg_eq_wn]; exact hN)
  obtain ⟨t', e, h⟩ := near_abs this (by linarith) (by norm_num; linarith)
  refine ⟨L, t', hL, congrArg (fun z => [z]) e, h.trans (le_of_eq ?_)⟩
  unfold uu
  ring

/-- C117, thermal infrared: from 3 to 15 micron and 150 to 400 K the temperature found differs by
at most 1e-8 K. -/
theorem C117_thermal_infrared (F : FP) (w t : ℝ) (hw : 3e-6 ≤ w ∧ w ≤ 15e-6) (ht : 150 ≤ t ∧ t ≤ 400) :
    ∃ (L : RF F) (t' : ℝ), blackbody [RF.of w] [RF.of t] = .ok [[L]] ∧
      blackbodyRad2temp (RF.of w) [L] = [RF.of t'] ∧ |t' - t| ≤ 1e-8 := by
  have hw0 : 0 < w := lt_of_lt_of_le (by norm_num) hw.1
  have ht0 : 0 < t := lt_of_lt_of_le (by norm_num) ht.1
  have hc := c1R_bounds
  have hwt1 : 4.5e-4 ≤ w * t := by
    have := mul_le_mul hw.1 ht.1 (by norm_num) hw0.le
    norm_num at this ⊢; linarith
  have hwt2 : w * t ≤ 6e-3 := by
    have := mul_le_mul hw.2 ht.2 ht0.le (by norm_num)
    norm_num at this ⊢; linarith
  have hx1 : 0.7 ≤ c1R / w / t := by
    rw [div_div, le_div_iff₀ (mul_pos hw0 ht0)]
    norm_num at hc hwt2 ⊢; linarith
  have hx2 : c1R / w / t ≤ 33 := by
    rw [div_div, div_le_iff₀ (mul_pos hw0 ht0)]
    norm_num at hc hwt1 ⊢; linarith
  obtain ⟨L, t', h1, h2, h3⟩ := C117_roundtrip_accuracy F w t
    ⟨le_trans (by norm_num) hw.1, hw.2.trans (by norm_num)⟩ ht0
    ⟨arg_eq_wl (w := w) (t := t) ▸ hx1, arg_eq_wl (w := w) (t := t) ▸ hx2.trans (by norm_num)⟩
  refine ⟨L, t', h1, h2, h3.trans ?_⟩
  rw [arg_eq_wl]
  generalize c1R / w / t = x at *
  rw [div_le_iff₀ (by positivity)]
  have : t * (197 + 336 * x) ≤ 400 * (197 + 336 * 33) := by
    apply mul_le_mul ht.2 (by linarith) (by norm_num at hx1; linarith) (by norm_num)
  norm_num at this ⊢
  linarith

example : ∃ (L : RF Double.fp) (t' : ℝ), blackbody [RF.of 3.9e-6] [RF.of 250] = .ok [[L]] ∧
    blackbodyRad2temp (RF.of 3.9e-6) [L] = [RF.of t'] ∧ |t' - 250| ≤ 1e-8 :=
  C117_thermal_infrared Double.fp 3.9e-6 250 (by norm_num) (by norm_num)

example : ∃ (L : RF Double.fp) (t' : ℝ), blackbody_wn [RF.of 90000] [RF.of 300] = .ok [[L]] ∧
    blackbodyWnRad2temp (RF.of 90000) [L] = [RF.of t'] ∧
    |t' - 300| ≤ 300 * (197 + 336 * (Spec.h * Spec.c * 90000 / (Spec.k * 300))) / 2 ^ 50 :=
  C117_roundtrip_accuracy_wn Double.fp 90000 300 (by norm_num) (by norm_num)
    (by norm_num [Spec.h, Spec.c, Spec.k])

end Verif.Props
