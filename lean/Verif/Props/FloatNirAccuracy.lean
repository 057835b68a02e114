import Mathlib.Analysis.Real.Pi.Bounds
import Verif.Props.FloatNir
/-
How accurate the parts of the computed 3.x micron reflectance are (for C166).
-/
namespace Verif.Props
open XF Model PyNum Lemmas Spec

/-- the solar radiance of the exact formula: the zenith angle is limited to the threshold -/
noncomputable def exactSun (flux thr z : ℝ) : ℝ := flux * Real.cos (min (max z 0) thr * (Real.pi / 180)) / Real.pi

/-- the CO2 correction factor of the exact formula -/
noncomputable def exactCorr (useCo2 : Bool) (t u : ℝ) : ℝ :=
  if useCo2 then (t - 0.25 * (t - u)) ^ 4 / t ^ 4 else 1

section
variable (F : FP)

theorem rnd_any (x : ℝ) (h : |x| ≤ 1e200) : ∃ y, F.rnd x = fin y ∧ |y - x| ≤ |x| / 2 ^ 52 + 2e-200 :=
  rounding_any F.rnd F.rnd_mono F.rnd_neg (rnd_zero F) F.rnd_near x h

theorem clip_of (z thr : ℝ) (h : 0 ≤ thr) :
    clip (α := RF F) (RF.of z) 0 (RF.of thr) = RF.of (min (max z 0) thr) := by
  have e0 : (0 : RF F) = RF.of 0 := by
    show F.rnd ((0 : ℤ) : ℝ) = _
    rw [Int.cast_zero]; exact rnd_zero _
  rw [e0]
  unfold clip maximum minimum
  have i0 : ∀ x : ℝ, isNaN (RF.of x : RF F) = false := fun _ => rfl
  have l0 : ∀ x y : ℝ, lt (RF.of x : RF F) (RF.of y) = decide (x < y) := fun _ _ => rfl
  simp only [i0, l0, Bool.false_eq_true, if_false]
  rcases lt_or_ge z 0 with hz | hz
  · rw [max_eq_right hz.le]
    simp only [hz, decide_true, if_true, i0, l0, Bool.false_eq_true, if_false]
    rw [min_eq_left h]
    simp [not_lt.2 h]
  · rw [max_eq_left hz]
    simp only [not_lt.2 hz, decide_false, Bool.false_eq_true, if_false, i0, l0]
    rcases lt_or_ge thr z with h' | h'
    · simp [h', min_eq_right h'.le]
    · simp [not_lt.2 h', min_eq_left h']

set_option maxHeartbeats 1600000 in
theorem sun_near {flux thr : ℝ} (z : ℝ) (hf : 1e-3 ≤ flux ∧ flux ≤ 1e4) (ht : 0 ≤ thr ∧ thr ≤ 90) :
    ∃ S, solarRadiancePoint (α := RF F) (RF.of flux) (RF.of thr) (RF.of z) = RF.of S ∧
      |S - exactSun flux thr z| ≤ flux / Real.pi * (10 / 2 ^ 50) := by
  have hu := uu_small
  have hu0 := uu_pos
  norm_num at hu
  have hpi := Real.pi_gt_three
  have hpi' := Real.pi_le_four
  have hpi2 := Real.pi_lt_d2
  have hp0 := Real.pi_pos
  set a := min (max z 0) thr with ha
  have a0 : 0 ≤ a := le_min (le_max_right _ _) ht.1
  have a1 : a ≤ 90 := (min_le_right _ _).trans ht.2
  have np : Near uu (PyNum.pi : RF F) Real.pi := near_rnd F (le_trans (by norm_num) hpi.le) (hpi'.trans (by norm_num))
  obtain ⟨P, eP, hP⟩ := near_abs np hu0.le (by norm_num; linarith)
  have n180 : Near 0 (PyNum.ofInt 180 : RF F) 180 := by
    have : (PyNum.ofInt 180 : RF F) = fin 180 := by
      have := F.rnd_int 180 (by norm_num)
      rwa [Int.cast_ofNat] at this
    rw [this]; exact near_refl (by norm_num)
  obtain ⟨k, ek, hk⟩ := near_abs (near_div F np n180 (by linarith)
    (by rw [le_div_iff₀ (by norm_num)]; refine le_trans ?_ hpi.le; norm_num)
    (by rw [div_le_iff₀ (by norm_num)]; refine hpi'.trans ?_; norm_num)) (by linarith) (by norm_num; linarith)
  set θ := a * (Real.pi / 180) with hθ
  have eU : uu = 2 / 4503599627370496 := by unfold uu; norm_num
  -- the angle
  have θ0 : 0 ≤ θ := by positivity
  have θ1 : θ ≤ 1.6 := by
    have : θ ≤ 90 * (Real.pi / 180) := mul_le_mul_of_nonneg_right a1 (by positivity)
    norm_num at this ⊢; linarith
  have h1 : |a * k - θ| ≤ 1.6 * (2 * (uu + 0 + uu)) := by
    rw [hθ, ← mul_sub, abs_mul, abs_of_nonneg a0]
    have := mul_le_mul_of_nonneg_left hk a0
    refine this.trans ?_
    rw [← mul_assoc]
    exact mul_le_mul_of_nonneg_right θ1 (by linarith)
  rw [eU] at h1
  have h1' := abs_le.1 h1
  norm_num at h1' θ1
  have h2a : |a * k| ≤ 1.7 := by rw [abs_le]; norm_num; constructor <;> linarith [h1'.1, h1'.2]
  obtain ⟨g, eg, hg⟩ := rnd_any F (a * k) (h2a.trans (by norm_num))
  have hg' := abs_le.1 (hg.trans (add_le_add_left (div_le_div_of_nonneg_right h2a (by positivity)) _))
  norm_num at hg'
  have h3 : |g - θ| ≤ 4e-15 := by
    rw [abs_le]; norm_num
    constructor <;> linarith [h1'.1, h1'.2, hg'.1, hg'.2]
  have h3' := abs_le.1 h3
  norm_num at h3'
  obtain ⟨c, ec, hc⟩ := F.cos_near g (by rw [abs_le]; constructor <;> linarith [h3'.1, h3'.2])
  have h4 : |c - Real.cos θ| ≤ 5e-15 := by
    have l := Real.abs_cos_sub_cos_le g θ
    have l' := abs_le.1 (l.trans h3)
    have hc' := abs_le.1 hc
    rw [abs_le]
    norm_num at hc' l' ⊢
    constructor <;> linarith [hc'.1, hc'.2, l'.1, l'.2]
  have cb := abs_le.1 (Real.abs_cos_le_one θ)
  have h4' := abs_le.1 h4
  norm_num at h4'
  have f0 : 0 < flux := lt_of_lt_of_le (by norm_num) hf.1
  -- the product
  have hc1 : |c| ≤ 1.1 := by rw [abs_le]; norm_num; constructor <;> linarith [h4'.1, h4'.2, cb.1, cb.2]
  have h5a : |flux * c| ≤ flux * 1.1 := by rw [abs_mul, abs_of_pos f0]; exact mul_le_mul_of_nonneg_left hc1 f0.le
  obtain ⟨m, em, hm⟩ := rnd_any F (flux * c) (h5a.trans (by have := hf.2; norm_num at this ⊢; linarith))
  have tiny : (2e-200 : ℝ) ≤ flux * 1e-20 := by
    have := mul_le_mul_of_nonneg_right hf.1 (show (0:ℝ) ≤ 1e-20 by norm_num)
    refine le_trans ?_ this; norm_num
  have h6 : |m - flux * Real.cos θ| ≤ flux * 5.3e-15 := by
    have e1 : |flux * c - flux * Real.cos θ| ≤ flux * 5e-15 := by
      rw [← mul_sub, abs_mul, abs_of_pos f0]; exact mul_le_mul_of_nonneg_left h4 f0.le
    have e2 := abs_le.1 e1
    have e3 := abs_le.1 (hm.trans (add_le_add (div_le_div_of_nonneg_right h5a (by positivity)) tiny))
    rw [abs_le]
    norm_num at e2 e3 ⊢
    constructor <;> linarith [e2.1, e2.2, e3.1, e3.2]
  have h6' := abs_le.1 h6
  have hm1 : |m| ≤ flux * 1.1 := by
    have k1 := mul_le_mul_of_nonneg_left cb.1 f0.le
    have k2 := mul_le_mul_of_nonneg_left cb.2 f0.le
    rw [abs_le]
    norm_num at h6' ⊢
    constructor <;> linarith [h6'.1, h6'.2]
  -- the quotient
  have hP' := abs_le.1 hP
  have P0 : 0 < P := by rw [eU] at hP'; norm_num at hP'; nlinarith [hP'.1]
  have h7 : |1 / P - 1 / Real.pi| ≤ 1 / Real.pi * (1e-15) := by
    have : 1 / P - 1 / Real.pi = (Real.pi - P) / P / Real.pi := by field_simp
    rw [this, abs_div, abs_of_pos hp0, abs_div, abs_of_pos P0, abs_sub_comm, one_div_mul_eq_div]
    refine div_le_div_of_nonneg_right ?_ hp0.le
    rw [div_le_iff₀ P0]
    refine hP.trans ?_
    rw [eU] at hP' ⊢
    norm_num at hP' ⊢
    nlinarith [hP'.1]
  have h8 : |m / P - flux * Real.cos θ / Real.pi| ≤ flux / Real.pi * 6.5e-15 := by
    have : m / P - flux * Real.cos θ / Real.pi = m * (1 / P - 1 / Real.pi) + (m - flux * Real.cos θ) / Real.pi := by ring
    rw [this]
    refine (abs_add_le _ _).trans ?_
    rw [abs_mul, abs_div, abs_of_pos hp0]
    have k1 := mul_le_mul hm1 h7 (abs_nonneg _) (by positivity)
    have k2 := div_le_div_of_nonneg_right h6 hp0.le
    refine (add_le_add k1 k2).trans (le_of_eq_of_le (b := flux / Real.pi * (1.1 * 1e-15 + 5.3e-15)) (by ring) ?_)
    exact mul_le_mul_of_nonneg_left (by norm_num) (by positivity)
  have Φ0 : 0 < flux / Real.pi := by positivity
  have h8' := abs_le.1 h8
  have ce : flux * Real.cos θ / Real.pi = flux / Real.pi * Real.cos θ := by ring
  have c1 := mul_le_mul_of_nonneg_left cb.1 Φ0.le
  have c2 := mul_le_mul_of_nonneg_left cb.2 Φ0.le
  have h9 : |m / P| ≤ flux / Real.pi * 1.1 := by
    rw [ce] at h8'
    rw [abs_le]
    norm_num at h8' ⊢
    constructor <;> linarith [h8'.1, h8'.2]
  have Φ1 : flux / Real.pi ≤ 1e4 := (div_le_self f0.le (by linarith)).trans hf.2
  obtain ⟨S, eS, hS⟩ := rnd_any F (m / P) (h9.trans (by norm_num at Φ1 ⊢; linarith))
  refine ⟨S, ?_, ?_⟩
  · unfold solarRadiancePoint
    rw [clip_of F z thr ht.1]
    show F.rd (XF.div (F.rd (XF.mul (fin flux) (F.cos (F.rd (XF.mul (fin a) (F.rd (XF.div (PyNum.pi : RF F) (PyNum.ofInt 180 : RF F)))))))) (PyNum.pi : RF F)) = fin S
    rw [ek]
    show F.rd (XF.div (F.rd (XF.mul (fin flux) (F.cos (F.rnd (a * k))))) (PyNum.pi : RF F)) = fin S
    rw [eg, ec]
    show F.rd (XF.div (F.rnd (flux * c)) (PyNum.pi : RF F)) = fin S
    rw [em, eP]
    show F.rd (if P = 0 then _ else fin (m / P)) = fin S
    rw [if_neg P0.ne']
    exact eS
  · have tiny2 : (2e-200 : ℝ) ≤ flux / Real.pi * 1e-19 := by
      have : flux / 4 ≤ flux / Real.pi := div_le_div_of_nonneg_left f0.le hp0 hpi'
      have := mul_le_mul_of_nonneg_right this (show (0:ℝ) ≤ 1e-19 by norm_num)
      refine le_trans ?_ this
      refine tiny.trans ?_
      rw [div_mul_eq_mul_div, mul_div_assoc]
      exact mul_le_mul_of_nonneg_left (by norm_num) f0.le
    have e3 := abs_le.1 (hS.trans (add_le_add (div_le_div_of_nonneg_right h9 (by positivity)) tiny2))
    unfold exactSun
    rw [← ha, ← hθ, abs_le]
    norm_num at e3 h8' ⊢
    constructor <;> linarith [e3.1, e3.2, h8'.1, h8'.2]

theorem corr_near {t u : ℝ} (useCo2 : Bool) (p : Pixel (RF F)) (ht : p.therm = RF.of t)
    (hu : useCo2 = true → p.co2 = RF.of u ∧ (100 ≤ t ∧ t ≤ 400) ∧ 100 ≤ u ∧ u ≤ 400) :
    Near (37 * uu) (pxCorr (α := RF F) useCo2 p) (exactCorr useCo2 t u) ∧
      0.1 ≤ exactCorr useCo2 t u ∧ exactCorr useCo2 t u ≤ 10 := by
  have hs := uu_small
  have hs0 := uu_pos
  norm_num at hs
  have eU : uu = 2 / 4503599627370496 := by unfold uu; norm_num
  cases useCo2 with
  | false =>
    simp only [pxCorr, exactCorr, Bool.false_eq_true, if_false]
    refine ⟨?_, by norm_num, by norm_num⟩
    have k : Near (37 * uu) (1.0 : RF F) 1 := by
      rw [one_lit]
      exact (near_refl (by norm_num)).mono (by positivity)
    exact k
  | true =>
    obtain ⟨hc, ⟨t1, t2⟩, u1, u2⟩ := hu rfl
    simp only [pxCorr, exactCorr, if_true]
    rw [ht, hc]
    have d1 : |t - u| ≤ 300 := by rw [abs_le]; constructor <;> linarith
    obtain ⟨d, ed, hd⟩ := rnd_any F (t - u) (d1.trans (by norm_num))
    have hd0 := hd.trans (add_le_add_left (div_le_div_of_nonneg_right d1 (by positivity)) _)
    have hd' := abs_le.1 hd0
    have dd := abs_le.1 d1
    norm_num at hd'
    obtain ⟨q, eq, hq⟩ := F.rnd_near (0.25 : ℝ) (by norm_num) (by norm_num)
    have eq : (0.25 : RF F) = fin q := eq
    have hq' := abs_le.1 hq
    have q1 : |q| ≤ 0.26 := by rw [abs_le]; norm_num at hq' ⊢; constructor <;> linarith [hq'.1, hq'.2]
    have m1 : |q * d - 0.25 * (t - u)| ≤ 4e-14 := by
      have : q * d - 0.25 * (t - u) = q * (d - (t - u)) + (q - 0.25) * (t - u) := by ring
      rw [this]
      refine (abs_add_le _ _).trans ?_
      rw [abs_mul, abs_mul]
      have k1 := mul_le_mul q1 hd0 (abs_nonneg _) (by norm_num)
      have k2 := mul_le_mul hq d1 (abs_nonneg _) (by positivity)
      refine (add_le_add k1 k2).trans ?_
      norm_num
    have m1' := abs_le.1 m1
    norm_num at m1'
    have m2 : |q * d| ≤ 76 := by rw [abs_le]; constructor <;> linarith [m1'.1, m1'.2]
    obtain ⟨m, em, hm⟩ := rnd_any F (q * d) (m2.trans (by norm_num))
    have hm' := abs_le.1 (hm.trans (add_le_add_left (div_le_div_of_nonneg_right m2 (by positivity)) _))
    norm_num at hm'
    set v := t - 0.25 * (t - u) with hv
    have v1 : 100 ≤ v := by rw [hv]; norm_num; linarith
    have v2 : v ≤ 400 := by rw [hv]; norm_num; linarith
    have s1 : |t - m| ≤ 401 := by rw [abs_le]; constructor <;> linarith [m1'.1, m1'.2, hm'.1, hm'.2]
    obtain ⟨y, ey, hy⟩ := rnd_any F (t - m) (s1.trans (by norm_num))
    have hy' := abs_le.1 (hy.trans (add_le_add_left (div_le_div_of_nonneg_right s1 (by positivity)) _))
    norm_num at hy'
    have ny : Near (7 * uu) (fin y) v := by
      have := near_of_abs (x := v) (y := y) (u := 7 / 4503599627370496) (by linarith) (by norm_num) (by norm_num) (by
        have : v - 100 ≥ 0 := by linarith
        have k : |y - v| ≤ 100 * (7 / 4503599627370496) := by
          rw [abs_le, hv]; norm_num; constructor <;> linarith [hy'.1, hy'.2, m1'.1, m1'.2, hm'.1, hm'.2]
        exact k.trans (mul_le_mul_of_nonneg_right v1 (by norm_num)))
      exact this.mono (by rw [eU]; norm_num)
    have pw : ∀ x : ℝ, 100 ≤ x → x ≤ 400 → (1e8 : ℝ) ≤ x ^ 4 ∧ x ^ 4 ≤ 2.56e10 := by
      intro x h1 h2
      have a := pow_le_pow_left₀ (by norm_num) h1 4
      have b := pow_le_pow_left₀ (by linarith) h2 4
      norm_num at a b ⊢
      exact ⟨a, b⟩
    obtain ⟨pv1, pv2⟩ := pw v v1 v2
    obtain ⟨pt1, pt2⟩ := pw t t1 t2
    have n1 := near_pow F 4 ny (by norm_num; linarith) (le_trans (by norm_num) pv1) (pv2.trans (by norm_num))
    have n2 := near_pow F 4 (near_refl (x := t) (by linarith)) (by norm_num) (le_trans (by norm_num) pt1) (pt2.trans (by norm_num))
    have t0 : 0 < t ^ 4 := by positivity
    have q0 : 0.1 ≤ v ^ 4 / t ^ 4 := by
      have : (0.75 * t) ≤ v := by rw [hv]; norm_num; linarith
      have := pow_le_pow_left₀ (by positivity) this 4
      rw [le_div_iff₀ t0]
      rw [mul_pow] at this
      refine le_trans (mul_le_mul_of_nonneg_right ?_ t0.le) this
      norm_num
    have q2 : v ^ 4 / t ^ 4 ≤ 10 := by
      have : v ≤ 1.75 * t := by rw [hv]; norm_num; linarith
      have := pow_le_pow_left₀ (by linarith) this 4
      rw [div_le_iff₀ t0]
      rw [mul_pow] at this
      refine this.trans (mul_le_mul_of_nonneg_right ?_ t0.le)
      norm_num
    rw [ul_eq] at n1 n2
    have n3 := near_div F n1 n2 (by norm_num; linarith) (le_trans (by norm_num) q0) (q2.trans (by norm_num))
    refine ⟨?_, q0, q2⟩
    have key : (powNat ((RF.of t : RF F) - 0.25 * (RF.of t - RF.of u)) 4 / powNat (RF.of t : RF F) 4) =
        F.rd (XF.div (F.powNat (fin y) 4) (F.powNat (fin t) 4)) := by
      show F.rd (XF.div (F.powNat (F.rd (XF.sub (fin t) (F.rd (XF.mul (0.25 : RF F) (F.rnd (t - u)))))) 4) (F.powNat (fin t) 4)) = _
      rw [ed, eq]
      show F.rd (XF.div (F.powNat (F.rd (XF.sub (fin t) (F.rnd (q * d)))) 4) (F.powNat (fin t) 4)) = _
      rw [em]
      show F.rd (XF.div (F.powNat (F.rnd (t - m)) 4) (F.powNat (fin t) 4)) = _
      rw [ey]
    refine (congrArg (fun a : XF => Near (37 * uu) a (v ^ 4 / t ^ 4)) key).mpr ?_
    exact n3.mono (by push_cast; linarith)

/-- a radiance times the integral of the response: the radiance that is not divided by it -/
theorem raw_near {c : RadTb (RF F)} {w r : List ℝ} (hc : FpLoaded c w r) (hb : FpBand c.wavespace w r)
    {t X : ℝ} (ht : 0 < t) (hX : X ≤ 300) (hX0 : 0 ≤ X)
    (hx : ∀ x ∈ w, 0.7 ≤ planckX c.wavespace x t ∧ planckX c.wavespace x t ≤ X)
    (hr : 1e-100 ≤ exactBand c.wavespace w r false t ∧ exactBand c.wavespace w r false t ≤ 1000) :
    Near ((54 + 112 * X + 6 * w.length) * uu) (bandVal (α := RF F) c true (RF.of t) * c.rsr_integral : RF F)
      (exactBand c.wavespace w r false t) := by
  have hs := uu_small
  have hs0 := uu_pos
  norm_num at hs
  have hl : (w.length : ℝ) ≤ 1048576 := by
    have : w.length ≤ 1048576 := hb.size.trans (by norm_num)
    exact_mod_cast this
  have hl0 : (0 : ℝ) ≤ w.length := Nat.cast_nonneg _
  have e : exactBand c.wavespace w r true t * trap w r = exactBand c.wavespace w r false t := by
    unfold exactBand
    simp only [if_true, Bool.false_eq_true, if_false]
    exact div_mul_cancel₀ _ hb.integral.ne'
  have n1 := bandVal_near F hc hb true ht hX hX0 hx
  have n2 := integral_pos F hc hb
  have eU : uu = 2 / 4503599627370496 := by unfold uu; norm_num
  have := near_mul F n1 n2 (by rw [← add_mul, eU]; norm_num; linarith)
    (by rw [e]; exact le_trans (by norm_num) hr.1) (by rw [e]; exact hr.2.trans (by norm_num))
  rw [e] at this
  exact this.mono (le_of_eq (by ring))

/-- the corrected thermal radiance, with the radiance taken at `t'` -/
theorem therm_near {c : RadTb (RF F)} {w r : List ℝ} (hc : FpLoaded c w r) (hb : FpBand c.wavespace w r)
    {t u t' X : ℝ} (ht : 0 < t') (hX : X ≤ 300) (hX0 : 0 ≤ X)
    (hx : ∀ x ∈ w, 0.7 ≤ planckX c.wavespace x t' ∧ planckX c.wavespace x t' ≤ X)
    (hr : 1e-100 ≤ exactBand c.wavespace w r false t' ∧ exactBand c.wavespace w r false t' ≤ 1000)
    (R : RF F → RF F)
    (useCo2 : Bool) (p : Pixel (RF F)) (hp : p.therm = RF.of t) (hR : R (RF.of t) = bandVal c true (RF.of t'))
    (hu : useCo2 = true → p.co2 = RF.of u ∧ (100 ≤ t ∧ t ≤ 400) ∧ 100 ≤ u ∧ u ≤ 400) :
    Near ((92 + 112 * X + 6 * w.length) * uu) (pxTherm (α := RF F) c.rsr_integral R useCo2 p)
      (exactBand c.wavespace w r false t' * exactCorr useCo2 t u) ∧
      0 < exactBand c.wavespace w r false t' * exactCorr useCo2 t u ∧
      exactBand c.wavespace w r false t' * exactCorr useCo2 t u ≤ 10000 := by
  have hs := uu_small
  have hs0 := uu_pos
  norm_num at hs
  have hl : (w.length : ℝ) ≤ 1048576 := by
    have : w.length ≤ 1048576 := hb.size.trans (by norm_num)
    exact_mod_cast this
  have hl0 : (0 : ℝ) ≤ w.length := Nat.cast_nonneg _
  have eU : uu = 2 / 4503599627370496 := by unfold uu; norm_num
  have n1 := raw_near F hc hb ht hX hX0 hx hr
  obtain ⟨n2, c1, c2⟩ := corr_near F useCo2 p hp hu
  have b0 : 0 < exactBand c.wavespace w r false t' := lt_of_lt_of_le (by norm_num) hr.1
  have lo := mul_le_mul hr.1 c1 (by norm_num) b0.le
  have hi := mul_le_mul hr.2 c2 (le_trans (by norm_num) c1) (by norm_num)
  have := near_mul F n1 n2 (by rw [← add_mul, eU]; norm_num; linarith)
    (le_trans (by norm_num) lo) (hi.trans (by norm_num))
  refine ⟨?_, lt_of_lt_of_le (by norm_num) lo, hi.trans (by norm_num)⟩
  unfold pxTherm
  rw [hp, hR]
  have k := this.mono (ε := (92 + 112 * X + 6 * w.length) * uu) (le_of_eq (by ring))
  exact k

/-- dividing two differences, each with a small absolute error -/
theorem ratio_near {L T S Φ E n d : ℝ} (hL : 0 ≤ L) (hT : 0 ≤ T) (hΦ : S ≤ Φ) (hD : 0.006 ≤ S - T)
    (hE : 0 ≤ E) (hME : (L + T + Φ) * E ≤ 5e-5)
    (hn : |n - (L - T)| ≤ (L + T + Φ) * E) (hd : |d - (S - T)| ≤ (L + T + Φ) * E) :
    0.0055 ≤ d ∧ |n / d - (L - T) / (S - T)| ≤ E * 1.01 * (1 + |(L - T) / (S - T)|) * ((L + T + Φ) / (S - T)) := by
  set D := S - T with hDd
  set N := L - T with hNd
  set M := L + T + Φ with hMd
  have hd' := abs_le.1 hd
  norm_num at hD hME
  have d1 : 0.0055 ≤ d := by norm_num; linarith [hd'.1]
  have d0 : 0 < d := lt_of_lt_of_le (by norm_num) d1
  have D0 : 0 < D := lt_of_lt_of_le (by norm_num) hD
  have M0 : 0 ≤ M := by rw [hMd]; linarith
  have d2 : 0.991 * D ≤ d := by norm_num; linarith [hd'.1]
  refine ⟨d1, ?_⟩
  have e : n / d - N / D = ((n - N) - N / D * (d - D)) / d := by field_simp; ring
  rw [e, abs_div, abs_of_pos d0]
  have k : |(n - N) - N / D * (d - D)| ≤ M * E * (1 + |N / D|) := by
    refine (abs_sub _ _).trans ?_
    rw [abs_mul]
    have := mul_le_mul_of_nonneg_left hd (abs_nonneg (N / D))
    linarith
  have r0 : 0 ≤ 1 + |N / D| := by positivity
  calc |(n - N) - N / D * (d - D)| / d ≤ M * E * (1 + |N / D|) / d := div_le_div_of_nonneg_right k d0.le
    _ ≤ M * E * (1 + |N / D|) / (0.991 * D) := div_le_div_of_nonneg_left (by positivity) (by positivity) d2
    _ = E * (1 / 0.991) * (1 + |N / D|) * (M / D) := by field_simp
    _ ≤ _ := by
      refine mul_le_mul_of_nonneg_right (mul_le_mul_of_nonneg_right (mul_le_mul_of_nonneg_left ?_ hE) r0) (by positivity)
      norm_num

end

end Verif.Props
