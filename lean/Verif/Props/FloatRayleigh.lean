import Verif.Props.Rayleigh
import Verif.Props.FloatNirAccuracy
import Verif.Props.FloatLut
/-
C169: the Rayleigh correction in floating point.
-/
namespace Verif.Props
open Model Spec Lemmas PyNum XF
variable {F : FP}

/-- `x` is a number of the arithmetic -/
def IsFloat (F : FP) (x : ℝ) : Prop := F.rnd x = fin x

theorem float_nat (n : ℕ) (h : n ≤ 2 ^ 53) : IsFloat F n := rnd_nat F n h

theorem float_zero : IsFloat F 0 := rnd_zero F
theorem float_one : IsFloat F 1 := rnd_one F

theorem float_of_rnd {x y : ℝ} (h : F.rnd x = fin y) : IsFloat F y := F.rnd_idem x y h

theorem float_neg {x : ℝ} (h : IsFloat F x) : IsFloat F (-x) := by
  unfold IsFloat at *
  rw [F.rnd_neg, h]; rfl

/-- rounding does not cross a number of the arithmetic -/
theorem rnd_within {a b x : ℝ} (ha : IsFloat F a) (hb : IsFloat F b) (h1 : a ≤ x) (h2 : x ≤ b) :
    ∃ y, F.rnd x = fin y ∧ a ≤ y ∧ y ≤ b := by
  have l1 : Lx (fin a) (F.rnd x) := ha ▸ F.rnd_mono a x h1
  have l2 : Lx (F.rnd x) (fin b) := hb ▸ F.rnd_mono x b h2
  obtain ⟨y, e, h⟩ := fin_of_le l1 l2
  exact ⟨y, e, h⟩

theorem lit_nat (n : ℕ) (h : n ≤ 2 ^ 53) : (PyNum.ofInt (n : ℤ) : RF F) = RF.of n := by
  show F.rnd ((n : ℤ) : ℝ) = _
  rw [Int.cast_natCast]
  exact rnd_nat F n h

theorem fp_zero : (0 : RF F) = RF.of 0 := by
  show F.rnd ((0 : ℤ) : ℝ) = _
  rw [Int.cast_zero]; exact rnd_zero F
theorem fp_one : (1 : RF F) = RF.of 1 := by
  show F.rnd ((1 : ℤ) : ℝ) = _
  rw [Int.cast_one]; exact rnd_one F
theorem fp_20 : (20 : RF F) = RF.of 20 := lit_nat 20 (by norm_num)
theorem fp_80 : (80 : RF F) = RF.of 80 := lit_nat 80 (by norm_num)
theorem fp_100 : (100 : RF F) = RF.of 100 := lit_nat 100 (by norm_num)
theorem fp_20' : (20.0 : RF F) = RF.of 20 := by
  show F.rnd (OfScientific.ofScientific 200 true 1) = _
  have : (OfScientific.ofScientific 200 true 1 : ℝ) = ((20 : ℕ) : ℝ) := by norm_num
  rw [this]; exact rnd_nat F 20 (by norm_num)
theorem fp_1' : (1.0 : RF F) = RF.of 1 := by
  show F.rnd (OfScientific.ofScientific 10 true 1) = _
  have : (OfScientific.ofScientific 10 true 1 : ℝ) = 1 := by norm_num
  rw [this]; exact rnd_one F

/-- clipping is exact -/
theorem clip_same (v : RF F) (a b : ℝ) : clip (α := RF F) v (RF.of a) (RF.of b) = clip (α := XF) v (fin a) (fin b) := rfl

/-- C169: in floating point, too, every element of the correction is a number from 0 to 100, or NaN. -/
theorem C169_percentage (da : Bool) (F : FP) (env : Env) (h5open : Content → Option (H5File (RF F))) (h5lut : Content → Option (LutFile (RF F)))
    (interp : Interp3 (RF F)) (r : RayleighObj) (sun sat azi : List (RF F)) (band : RayleighBand (RF F)) (red : Option (List (RF F)))
    (w : World) (out : List (RF F))
    (h : (getReflectance da env h5open h5lut interp r sun sat azi band red w).1 = .ok out) :
    ∀ v ∈ out, v = XF.nan ∨ ∃ x : ℝ, v = RF.of x ∧ 0 ≤ x ∧ x ≤ 100 := by
  have hc : ∀ u : RF F, (clip u 0 100 : RF F) = XF.nan ∨ ∃ x : ℝ, clip u 0 100 = RF.of x ∧ 0 ≤ x ∧ x ≤ 100 := by
    intro u
    rw [fp_zero, fp_100, clip_same]
    have := (clip_percentage u).1
    rw [ofNat_zero, ofNat_two] at this
    exact this
  obtain ⟨x, _, h⟩ := eff_bind_result_ok h
  obtain ⟨res, _, h⟩ := eff_bind_result_ok h
  have h' : finish red res = .ok out := h
  unfold finish at h'
  intro v hv
  cases red with
  | none =>
    simp only [bind, Except.bind, pure, Except.pure, Except.ok.injEq] at h'
    subst h'
    obtain ⟨u, _, rfl⟩ := List.mem_map.1 hv
    exact hc u
  | some red =>
    simp only [bind, Except.bind] at h'
    cases hb : NP.bcast2 relaxCloudy red res with
    | error e => rw [hb] at h'; cases h'
    | ok res' =>
      rw [hb] at h'
      simp only [pure, Except.pure, Except.ok.injEq] at h'
      subst h'
      obtain ⟨u, _, rfl⟩ := List.mem_map.1 hv
      exact hc u

/-! ### Cloudy pixels -/

theorem relax_below {r : ℝ} (h : r < 20) (x : RF F) : relaxCloudy (α := RF F) (RF.of r) x = x := by
  unfold relaxCloudy
  rw [fp_20', if_pos]
  exact decide_eq_true h

/-- the factor of a pixel with a red band of 20 or more -/
theorem relax_factor (r : ℝ) (hr : IsFloat F r) (h : 20 ≤ r) :
    ∃ d q g, F.rnd (r - 20) = fin d ∧ F.rnd (d / 80) = fin q ∧ F.rnd (1 - q) = fin g ∧ 0 ≤ q ∧ g ≤ 1 ∧
      ∀ x : ℝ, relaxCloudy (α := RF F) (RF.of r) (RF.of x) = F.rnd (g * x) := by
  obtain ⟨d, hd, d0, d1⟩ := rnd_within (F := F) float_zero hr (by linarith : (0:ℝ) ≤ r - 20) (by linarith)
  have d80 : d / 80 ≤ d := by rw [div_le_iff₀ (by norm_num)]; linarith
  obtain ⟨q, hq, q0, q1⟩ := rnd_within (F := F) float_zero (float_of_rnd hd) (div_nonneg d0 (by norm_num : (0:ℝ) ≤ 80)) d80
  obtain ⟨g, hg, g0, g1⟩ := rnd_within (F := F) (float_neg (float_of_rnd hq)) float_one (by linarith : -q ≤ 1 - q) (by linarith)
  refine ⟨d, q, g, hd, hq, hg, q0, g1, fun x => ?_⟩
  unfold relaxCloudy
  rw [fp_20', if_neg (by show ¬ decide (r < 20) = true; simpa using h), fp_one, fp_20, fp_80]
  have e1 : (RF.of r - RF.of 20 : RF F) = RF.of d := hd
  have e2 : (RF.of d / RF.of 80 : RF F) = RF.of q := by
    show F.rd (XF.div (fin d) (fin 80)) = _
    have : XF.div (fin d) (fin 80) = fin (d / 80) := by simp [XF.div]
    rw [this]; exact hq
  have e3 : (RF.of 1 - RF.of q : RF F) = RF.of g := hg
  rw [e1, e2, e3]
  rfl

/-- what a cloudy pixel gets in the end -/
noncomputable def relaxedFp (F : FP) (r x : ℝ) : RF F := clip (relaxCloudy (α := RF F) (RF.of r) (RF.of x)) 0 100

theorem clip_mono_to {t : ℝ} (ht : 0 ≤ t) {a b : XF} (h : Lx a b) :
    Lx (clip (α := XF) a (fin 0) (fin t)) (clip (α := XF) b (fin 0) (fin t)) := by
  have hc : ∀ x : ℝ, clip (α := XF) (fin x) (fin 0) (fin t) = fin (min (max x 0) t) := fun x => by rw [clip_fin]
  have hp : clip (α := XF) pinf (fin 0) (fin t) = fin t := rfl
  have hn : clip (α := XF) ninf (fin 0) (fin t) = fin 0 := by
    have h1 : PyNum.maximum XF.ninf (fin 0) = fin 0 := rfl
    rw [PyNum.clip, h1, minimum_fin, min_eq_left ht]
  have lo : ∀ x : ℝ, (0 : ℝ) ≤ min (max x 0) t := fun x => le_min (le_max_right _ _) ht
  cases a with
  | nan => exact absurd rfl h.ne_nan_left
  | ninf =>
    cases b with
    | nan => exact absurd rfl h.ne_nan_right
    | ninf => rw [hn]; exact lx_fin.2 le_rfl
    | fin y => rw [hn, hc]; exact lx_fin.2 (lo y)
    | pinf => rw [hn, hp]; exact lx_fin.2 ht
  | fin x =>
    cases b with
    | nan => exact absurd rfl h.ne_nan_right
    | ninf => simp [Lx, leb] at h
    | fin y => rw [hc, hc]; exact lx_fin.2 (min_le_min (max_le_max (lx_fin.1 h) le_rfl) le_rfl)
    | pinf => rw [hc, hp]; exact lx_fin.2 (min_le_right _ _)
  | pinf =>
    cases b with
    | pinf => rw [hp]; exact lx_fin.2 le_rfl
    | _ => simp [Lx, leb] at h

theorem clip_mono_fp {a b : XF} (h : Lx a b) :
    Lx (clip (α := XF) a (fin 0) (fin 100)) (clip (α := XF) b (fin 0) (fin 100)) := clip_mono_to (by norm_num) h

theorem one_sub_anti {a b : XF} (h : Lx a b) : Lx (XF.sub (fin 1) b) (XF.sub (fin 1) a) := by
  unfold Lx at *
  cases a <;> cases b <;> simp_all [leb, XF.sub, XF.add, XF.neg]
  linarith

theorem clip_nonpos {a : XF} (h : Lx a (fin 0)) : clip (α := XF) a (fin 0) (fin 100) = fin 0 := by
  cases a with
  | nan => exact absurd rfl h.ne_nan_left
  | ninf =>
    have h1 : PyNum.maximum XF.ninf (fin 0) = fin 0 := rfl
    rw [PyNum.clip, h1, minimum_fin]; norm_num
  | fin x => rw [clip_fin, max_eq_right (lx_fin.1 h)]; norm_num
  | pinf => simp [Lx, leb] at h

theorem rnd_nonpos {x : ℝ} (h : x ≤ 0) : Lx (F.rnd x) (fin 0) := by
  have := F.rnd_mono x 0 h
  rwa [rnd_zero] at this

/-- C169: in floating point the correction of a cloudy pixel never grows with the red band and never
shrinks when the correction for clear sky grows; up to a red band of 20 it is that correction, from 100 on it is zero, and in
between it differs from the exact fraction of the correction by no more than rounding explains. -/
theorem C169_relaxed (F : FP) (r x : ℝ) (hr : IsFloat F r) (hx : IsFloat F x) (x0 : 0 ≤ x) :
    (∀ r' x', IsFloat F r' → IsFloat F x' → r ≤ r' → 0 ≤ x' → x' ≤ x → RF.Le (relaxedFp F r' x') (relaxedFp F r x)) ∧
    (r ≤ 20 → relaxedFp F r x = RF.of (min x 100)) ∧ (100 ≤ r → relaxedFp F r x = RF.of 0) ∧
    (20 ≤ r → r ≤ 100 → x ≤ 100 → ∃ y, relaxedFp F r x = RF.of y ∧ |y - (100 - r) / 80 * x| ≤ 6 * x / 2 ^ 52 + 1e-190) := by
  have hval : ∀ r x : ℝ, relaxedFp F r x = clip (α := XF) (relaxCloudy (α := RF F) (RF.of r) (RF.of x)) (fin 0) (fin 100) := by
    intro r x
    unfold relaxedFp
    rw [fp_zero, fp_100, clip_same]
  have hc : ∀ x : ℝ, clip (α := XF) (fin x) (fin 0) (fin 100) = fin (min (max x 0) 100) := fun x => by rw [clip_fin]
  have u0 : (0:ℝ) < 1 / 2 ^ 52 := by positivity
  refine ⟨fun r' x' hr' hx' hrr x0' hxx => ?_, fun h => ?_, fun h => ?_, fun h1 h2 h3 => ?_⟩
  · rw [hval, hval]
    rcases lt_or_ge r' 20 with h' | h'
    · apply clip_mono_fp
      rw [relax_below h', relax_below (hrr.trans_lt h')]
      exact lx_fin.2 hxx
    · obtain ⟨d', q', g', a1, a2, a3, a4, a5, a6⟩ := relax_factor r' hr' h'
      rw [a6]
      rcases lt_or_ge r 20 with h | h
      · apply clip_mono_fp
        rw [relax_below h]
        have : Lx (F.rnd (g' * x')) (F.rnd x) := F.rnd_mono _ _ (by nlinarith)
        rw [hx] at this
        exact this
      · obtain ⟨d, q, g, b1, b2, b3, b4, b5, b6⟩ := relax_factor r hr h
        rw [b6]
        have hdd : d ≤ d' := rnd_le F b1 a1 (by linarith)
        have hqq : q ≤ q' := rnd_le F b2 a2 (div_le_div_of_nonneg_right hdd (by norm_num))
        have hgg : g' ≤ g := rnd_le F a3 b3 (by linarith)
        rcases le_total 0 g with hg | hg
        · apply clip_mono_fp
          apply F.rnd_mono
          calc g' * x' ≤ g * x' := mul_le_mul_of_nonneg_right hgg x0'
            _ ≤ g * x := mul_le_mul_of_nonneg_left hxx hg
        · rw [clip_nonpos (rnd_nonpos (mul_nonpos_of_nonpos_of_nonneg (hgg.trans hg) x0')),
            clip_nonpos (rnd_nonpos (mul_nonpos_of_nonpos_of_nonneg hg x0))]
          exact lx_fin.2 le_rfl
  · rw [hval]
    rcases lt_or_eq_of_le h with h | h
    · rw [relax_below h]
      show clip (α := XF) (fin x) (fin 0) (fin 100) = _
      rw [hc, max_eq_left x0]; rfl
    · obtain ⟨d, q, g, b1, b2, b3, b4, b5, b6⟩ := relax_factor r hr h.ge
      rw [b6]
      rw [h, sub_self, rnd_zero, fin_inj] at b1
      rw [← b1, zero_div, rnd_zero, fin_inj] at b2
      rw [← b2, sub_zero, rnd_one, fin_inj] at b3
      rw [← b3, one_mul, hx, hc, max_eq_left x0]; rfl
  · rw [hval]
    obtain ⟨d, q, g, b1, b2, b3, b4, b5, b6⟩ := relax_factor r hr (by linarith)
    have hd : 80 ≤ d := rnd_le F (float_nat 80 (by norm_num)) b1 (by norm_num; linarith)
    have hq : 1 ≤ q := rnd_le F float_one b2 (by rw [le_div_iff₀ (by norm_num)]; linarith)
    have hg : g ≤ 0 := rnd_le F b3 float_zero (by linarith)
    rw [b6, clip_nonpos (rnd_nonpos (mul_nonpos_of_nonpos_of_nonneg hg x0))]; rfl
  · rw [hval]
    obtain ⟨d, q, g, b1, b2, b3, b4, b5, b6⟩ := relax_factor r hr h1
    rw [b6]
    obtain ⟨d', e1, k1⟩ := rnd_any (F := F) (r - 20) (by rw [abs_le]; constructor <;> norm_num <;> linarith)
    rw [b1, fin_inj] at e1; subst e1
    have hd : 0 ≤ d ∧ d ≤ 80 :=
      ⟨rnd_le F float_zero b1 (by linarith), by
        have := rnd_le F b1 (float_nat (F := F) 80 (by norm_num)) (by norm_num; linarith); exact_mod_cast this⟩
    obtain ⟨q', e2, k2⟩ := rnd_any (F := F) (d / 80) (by
      rw [abs_of_nonneg (by linarith [hd.1] : (0:ℝ) ≤ d / 80)]; norm_num; linarith [hd.2])
    rw [b2, fin_inj] at e2; subst e2
    have hq : q ≤ 1 := rnd_le F b2 float_one (by rw [div_le_iff₀ (by norm_num)]; linarith [hd.2])
    obtain ⟨g', e3, k3⟩ := rnd_any (F := F) (1 - q) (by rw [abs_le]; constructor <;> norm_num <;> linarith)
    rw [b3, fin_inj] at e3; subst e3
    have hg : 0 ≤ g := rnd_le F float_zero b3 (by linarith)
    have hgx : 0 ≤ g * x := mul_nonneg hg x0
    have hgx' : g * x ≤ x := by nlinarith
    obtain ⟨z, e4, k4⟩ := rnd_any (F := F) (g * x) (by rw [abs_of_nonneg hgx]; linarith [show (100:ℝ) ≤ 1e200 by norm_num])
    obtain ⟨z', e5, z0, z1⟩ := rnd_within (F := F) float_zero hx hgx hgx'
    rw [e4, fin_inj] at e5; subst e5
    refine ⟨z, ?_, ?_⟩
    · rw [e4, hc, max_eq_left z0, min_eq_left (by linarith)]; rfl
    · rw [abs_of_nonneg (by linarith : (0:ℝ) ≤ r - 20)] at k1
      rw [abs_of_nonneg (by linarith [hd.1] : (0:ℝ) ≤ d / 80)] at k2
      rw [abs_of_nonneg (by linarith : (0:ℝ) ≤ 1 - q)] at k3
      rw [abs_of_nonneg hgx] at k4
      set u : ℝ := 1 / 2 ^ 52 with hu
      have hu' : ∀ t : ℝ, t / 2 ^ 52 = t * u := fun t => by rw [hu]; ring
      rw [hu'] at k1 k2 k3 k4 ⊢
      have w1 : |d / 80 - (r - 20) / 80| ≤ u + 2e-200 := by
        rw [← sub_div, abs_div, abs_of_pos (by norm_num : (0:ℝ) < 80), div_le_iff₀ (by norm_num)]
        calc _ ≤ (r - 20) * u + 2e-200 := k1
          _ ≤ 80 * u + 2e-200 := by nlinarith
          _ ≤ _ := by norm_num
      have w2 : |q - (r - 20) / 80| ≤ 2 * u + 4e-200 := by
        have : |q - d / 80| ≤ u + 2e-200 := k2.trans (by
          have : d / 80 ≤ 1 := by rw [div_le_iff₀ (by norm_num)]; linarith [hd.2]
          nlinarith)
        have t := abs_sub_le q (d / 80) ((r - 20) / 80)
        norm_num at *; linarith
      have w3 : |g - (100 - r) / 80| ≤ 3 * u + 6e-200 := by
        have a : |g - (1 - q)| ≤ u + 2e-200 := k3.trans (by nlinarith)
        have b : |(1 - q) - (100 - r) / 80| ≤ 2 * u + 4e-200 := by
          rw [show (1 - q) - (100 - r) / 80 = -(q - (r - 20) / 80) by ring, abs_neg]; exact w2
        have t := abs_sub_le g (1 - q) ((100 - r) / 80)
        norm_num at *; linarith
      have w4 : |g * x - (100 - r) / 80 * x| ≤ (3 * u + 6e-200) * x := by
        rw [← sub_mul, abs_mul, abs_of_nonneg x0]
        exact mul_le_mul_of_nonneg_right w3 x0
      have w5 : |z - g * x| ≤ x * u + 2e-200 := k4.trans (by nlinarith)
      have t := abs_sub_le z (g * x) ((100 - r) / 80 * x)
      have w6 : (6e-200 : ℝ) * x ≤ 6e-198 := by nlinarith [show (0:ℝ) ≤ 6e-200 by norm_num]
      have : (6e-198 : ℝ) + 2e-200 ≤ 1e-190 := by norm_num
      nlinarith [mul_nonneg x0 u0.le]

example : relaxedFp Double.fp 100 7 = RF.of 0 ∧ relaxedFp Double.fp 20 7 = RF.of 7 ∧
    RF.Le (relaxedFp Double.fp 60 7) (relaxedFp Double.fp 50 8) := by
  have f : ∀ n : ℕ, n ≤ 100 → IsFloat Double.fp n := fun n h => float_nat n (h.trans (by norm_num))
  refine ⟨(C169_relaxed Double.fp 100 7 (f 100 le_rfl) (f 7 (by norm_num)) (by norm_num)).2.2.1 le_rfl, ?_, ?_⟩
  · have := (C169_relaxed Double.fp 20 7 (f 20 (by norm_num)) (f 7 (by norm_num)) (by norm_num)).2.1 le_rfl
    rwa [min_eq_left (by norm_num)] at this
  · exact (C169_relaxed Double.fp 50 8 (f 50 (by norm_num)) (f 8 (by norm_num)) (by norm_num)).1 60 7 (f 60 (by norm_num))
      (f 7 (by norm_num)) (by norm_num) (by norm_num) (by norm_num)

/-! ### High zenith angles -/

/-- the factor of a pixel -/
theorem reduce_factor (thresh maxzen strength : ℝ) (ht : IsFloat F thresh) (hm : IsFloat F maxzen) (hs : IsFloat F strength)
    (t0 : 0 ≤ thresh) (tm : thresh + 1 ≤ maxzen) (s0 : 0 ≤ strength) :
    ∃ g : ℝ → ℝ, (∀ z x : ℝ, IsFloat F z →
        reduceHighzenith (α := RF F) (RF.of thresh) (RF.of maxzen) (RF.of strength) (RF.of z) (RF.of x) = F.rnd (x * g z)) ∧
      (∀ z, IsFloat F z → 0 ≤ g z ∧ g z ≤ 1) ∧ (∀ z z', IsFloat F z → IsFloat F z' → z ≤ z' → g z' ≤ g z) ∧
      (∀ z, IsFloat F z → z ≤ thresh → g z = 1) ∧ (1 ≤ strength → ∀ z, IsFloat F z → maxzen ≤ z → g z = 0) := by
  obtain ⟨D, hD, D1, D2⟩ := rnd_within (F := F) float_one hm (by linarith : 1 ≤ maxzen - thresh) (by linarith)
  -- the fraction
  have hfrac : ∀ z, ∃ q, IsFloat F z → 0 ≤ q ∧ IsFloat F q ∧ (z ≤ thresh → q = 0) ∧ (maxzen ≤ z → 1 ≤ q) ∧
      (thresh ≤ z → ∃ n, F.rnd (z - thresh) = fin n ∧ F.rnd (n / D) = fin q) ∧
      (if lt (RF.of z : RF F) (RF.of thresh) then (0 : RF F) else (RF.of z - RF.of thresh) / (RF.of maxzen - RF.of thresh)) = RF.of q := by
    intro z
    rcases lt_or_ge z thresh with h | h
    · refine ⟨0, fun _ => ⟨le_rfl, float_zero, fun _ => rfl, fun h' => by linarith, fun h' => absurd h (not_lt.2 h'), ?_⟩⟩
      have hl : lt (RF.of z : RF F) (RF.of thresh) = true := decide_eq_true h
      rw [if_pos hl, fp_zero]
    · by_cases hz : IsFloat F z
      · obtain ⟨n, hn, n0, n1⟩ := rnd_within (F := F) float_zero hz (by linarith : 0 ≤ z - thresh) (by linarith)
        have nD : n / D ≤ n := div_le_self n0 D1
        obtain ⟨q, hq, q0, q1⟩ := rnd_within (F := F) float_zero (float_of_rnd hn) (div_nonneg n0 (by linarith)) nD
        refine ⟨q, fun _ => ⟨q0, float_of_rnd hq, fun h' => ?_, fun h' => ?_, fun _ => ⟨n, hn, hq⟩, ?_⟩⟩
        · rw [le_antisymm h' h, sub_self, rnd_zero, fin_inj] at hn
          rw [← hn, zero_div, rnd_zero, fin_inj] at hq
          exact hq.symm
        · have : D ≤ n := rnd_le F hD hn (by linarith)
          exact rnd_le F float_one hq ((one_le_div (by linarith)).2 this)
        · rw [if_neg (by show ¬ decide (z < thresh) = true; simpa using h)]
          have e1 : (RF.of z - RF.of thresh : RF F) = RF.of n := hn
          have e2 : (RF.of maxzen - RF.of thresh : RF F) = RF.of D := hD
          rw [e1, e2]
          show F.rd (XF.div (fin n) (fin D)) = _
          have : XF.div (fin n) (fin D) = fin (n / D) := by
            have : D ≠ 0 := by linarith
            simp [XF.div, this]
          rw [this]; exact hq
      · exact ⟨0, fun h' => absurd h' hz⟩
  choose q hq using hfrac
  have hqm : ∀ z z', IsFloat F z → IsFloat F z' → z ≤ z' → q z ≤ q z' := by
    intro z z' hz hz' h
    rcases le_total z thresh with h1 | h1
    · rw [(hq z hz).2.2.1 h1]; exact (hq z' hz').1
    · obtain ⟨n, a1, a2⟩ := (hq z hz).2.2.2.2.1 h1
      obtain ⟨n', b1, b2⟩ := (hq z' hz').2.2.2.2.1 (h1.trans h)
      exact rnd_le F a2 b2 (div_le_div_of_nonneg_right (rnd_le F a1 b1 (by linarith)) (by linarith))
  -- the product with the strength may be infinite
  have hprod : ∀ z, IsFloat F z → Lx (fin 0) (F.rnd (strength * q z)) := by
    intro z hz
    have := F.rnd_mono 0 (strength * q z) (mul_nonneg s0 (hq z hz).1)
    rwa [rnd_zero] at this
  have hfac : ∀ z, ∃ g, IsFloat F z → clip (α := XF) (F.rd (XF.sub (fin 1) (F.rnd (strength * q z)))) (fin 0) (fin 1) = fin g ∧
      0 ≤ g ∧ g ≤ 1 ∧ (z ≤ thresh → g = 1) ∧ (1 ≤ strength → maxzen ≤ z → g = 0) := by
    intro z
    by_cases hz : IsFloat F z
    · rcases nonneg_cases (hprod z hz) with e | ⟨p, e, p0⟩
      · refine ⟨0, fun _ => ⟨?_, le_rfl, zero_le_one, fun h => ?_, fun _ _ => rfl⟩⟩
        · rw [e]
          show clip (α := XF) ninf (fin 0) (fin 1) = _
          have h1 : PyNum.maximum XF.ninf (fin 0) = fin 0 := rfl
          rw [PyNum.clip, h1, minimum_fin]; norm_num
        · rw [(hq z hz).2.2.1 h, mul_zero, rnd_zero] at e; cases e
      · obtain ⟨s, hs', _, s1⟩ := rnd_within (F := F) (float_neg (float_of_rnd e)) float_one (by linarith : -p ≤ 1 - p) (by linarith)
        refine ⟨min (max s 0) 1, fun _ => ⟨?_, le_min (le_max_right _ _) zero_le_one, min_le_right _ _, fun h => ?_, fun h1 h2 => ?_⟩⟩
        · rw [e]
          have : F.rd (XF.sub (fin 1) (fin p)) = fin s := hs'
          rw [this, clip_fin]
        · rw [(hq z hz).2.2.1 h, mul_zero, rnd_zero, fin_inj] at e
          rw [← e, sub_zero, rnd_one, fin_inj] at hs'
          rw [← hs']; norm_num
        · have hp1 : 1 ≤ p := rnd_le F float_one e (one_le_mul_of_one_le_of_one_le h1 ((hq z hz).2.2.2.1 h2))
          have hs0 : s ≤ 0 := rnd_le F hs' float_zero (by linarith)
          rw [max_eq_right hs0]; norm_num
    · exact ⟨0, fun h => absurd h hz⟩
  choose g hg using hfac
  refine ⟨g, fun z x hz => ?_, fun z hz => ⟨(hg z hz).2.1, (hg z hz).2.2.1⟩, fun z z' hz hz' h => ?_, fun z hz h => (hg z hz).2.2.2.1 h,
    fun h1 z hz h => (hg z hz).2.2.2.2 h1 h⟩
  · unfold reduceHighzenith
    simp only [(hq z hz).2.2.2.2.2]
    rw [fp_1', fp_zero, fp_one]
    have e1 : (RF.of strength * RF.of (q z) : RF F) = F.rnd (strength * q z) := rfl
    have e2 : clip (α := RF F) (RF.of 1 - RF.of strength * RF.of (q z)) (RF.of 0) (RF.of 1) = RF.of (g z) := by
      rw [e1]; exact (hg z hz).1
    rw [e2]
    rfl
  · have h1 : Lx (F.rnd (strength * q z)) (F.rnd (strength * q z')) :=
      F.rnd_mono _ _ (mul_le_mul_of_nonneg_left (hqm z z' hz hz' h) s0)
    have h2 := clip_mono_to zero_le_one (rd_mono F (one_sub_anti h1))
    rw [(hg z hz).1, (hg z' hz').1] at h2
    exact lx_fin.1 h2

/-- C169: in floating point `reduce_rayleigh_highzenith` turns a correction that is not negative into one
between zero and it, never greater for a greater zenith angle nor smaller for a greater correction; up to the threshold it is not
changed at all, and from `maxzen` on it is zero if the strength is 1 or more. -/
theorem C169_reduced (F : FP) (thresh maxzen strength : ℝ) (ht : IsFloat F thresh) (hm : IsFloat F maxzen) (hs : IsFloat F strength)
    (t0 : 0 ≤ thresh) (tm : thresh + 1 ≤ maxzen) (s0 : 0 ≤ strength) :
    ∃ out : ℝ → ℝ → ℝ, (∀ z x, IsFloat F z → IsFloat F x → 0 ≤ x →
        reduceHighzenith (α := RF F) (RF.of thresh) (RF.of maxzen) (RF.of strength) (RF.of z) (RF.of x) = RF.of (out z x) ∧
        0 ≤ out z x ∧ out z x ≤ x ∧ (z ≤ thresh → out z x = x) ∧ (1 ≤ strength → maxzen ≤ z → out z x = 0) ∧
        ∀ z' x', IsFloat F z' → IsFloat F x' → z' ≤ z → x ≤ x' → out z x ≤ out z' x') := by
  obtain ⟨g, h1, h2, h3, h4, h5⟩ := reduce_factor thresh maxzen strength ht hm hs t0 tm s0
  have hout : ∀ z x, ∃ y, IsFloat F z → IsFloat F x → 0 ≤ x → F.rnd (x * g z) = fin y ∧ 0 ≤ y ∧ y ≤ x := by
    intro z x
    by_cases h : IsFloat F z ∧ IsFloat F x ∧ 0 ≤ x
    · obtain ⟨hz, hx, x0⟩ := h
      obtain ⟨y, hy⟩ := rnd_within (F := F) float_zero hx (mul_nonneg x0 (h2 z hz).1) (mul_le_of_le_one_right x0 (h2 z hz).2)
      exact ⟨y, fun _ _ _ => hy⟩
    · exact ⟨0, fun a b c => absurd ⟨a, b, c⟩ h⟩
  choose out hout using hout
  refine ⟨out, fun z x hz hx x0 => ⟨?_, (hout z x hz hx x0).2.1, (hout z x hz hx x0).2.2, fun h => ?_, fun s1 h => ?_,
    fun z' x' hz' hx' hzz hxx => ?_⟩⟩
  · rw [h1 z x hz]; exact (hout z x hz hx x0).1
  · have := (hout z x hz hx x0).1
    rw [h4 z hz h, mul_one, hx, fin_inj] at this
    exact this.symm
  · have := (hout z x hz hx x0).1
    rw [h5 s1 z hz h, mul_zero, rnd_zero, fin_inj] at this
    exact this.symm
  · exact rnd_le F (hout z x hz hx x0).1 (hout z' x' hz' hx' (x0.trans hxx)).1
      (mul_le_mul hxx (h3 z' z hz' hz hzz) (h2 z hz).1 (x0.trans hxx))

example : ∃ y : ℝ, reduceHighzenith (α := RF Double.fp) (RF.of 70) (RF.of 90) (RF.of 1) (RF.of 80) (RF.of 7) = RF.of y ∧ 0 ≤ y ∧ y ≤ 7 ∧
    reduceHighzenith (α := RF Double.fp) (RF.of 70) (RF.of 90) (RF.of 1) (RF.of 60) (RF.of 7) = RF.of 7 := by
  have f : ∀ n : ℕ, n ≤ 100 → IsFloat Double.fp n := fun n h => float_nat n (h.trans (by norm_num))
  obtain ⟨out, h⟩ := C169_reduced Double.fp 70 90 1 (f 70 (by norm_num)) (f 90 (by norm_num)) float_one (by norm_num) (by norm_num)
    (by norm_num)
  have h1 := h 80 7 (f 80 (by norm_num)) (f 7 (by norm_num)) (by norm_num)
  have h2 := h 60 7 (f 60 (by norm_num)) (f 7 (by norm_num)) (by norm_num)
  exact ⟨out 80 7, h1.1, h1.2.1, h1.2.2.1, by rw [h2.1, h2.2.2.2.1 (by norm_num)]⟩

/-! ### The table at a wavelength -/

/-- comparisons are exact, so the search is -/
theorem search_same (xs : List XF) (key : XF) : ∀ n lo hi, hi - lo ≤ n →
    searchBetween (α := RF F) xs key lo hi = searchBetween (α := XF) xs key lo hi := by
  intro n
  induction n with
  | zero =>
    intro lo hi h
    have hl : ¬ lo < hi := by omega
    have e1 := searchBetween.eq_def (α := RF F) xs key lo hi
    have e2 := searchBetween.eq_def (α := XF) xs key lo hi
    rw [dif_neg hl] at e1 e2
    exact e1.trans e2.symm
  | succ n ih =>
    intro lo hi h
    have e1 := searchBetween.eq_def (α := RF F) xs key lo hi
    have e2 := searchBetween.eq_def (α := XF) xs key lo hi
    by_cases hl : lo < hi
    · rw [dif_pos hl] at e1 e2
      simp only at e1 e2
      have i1 := ih (lo + (hi - lo) / 2 + 1) hi (by omega)
      have i2 := ih lo (lo + (hi - lo) / 2) (by omega)
      rw [i1, i2] at e1
      exact e1.trans e2.symm
    · rw [dif_neg hl] at e1 e2
      exact e1.trans e2.symm

/-- the two weights of the interpolation -/
theorem weights_near (w1 w2 x u : ℝ) (hu : u = 1 / 2 ^ 52) (h1 : w1 < x) (h2 : x ≤ w2) (hb1 : 0 ≤ w1) (hb2 : w2 ≤ 1e6)
    (hd : 1e-3 ≤ w2 - w1) :
    ∃ n D f g, F.rnd (w2 - x) = fin n ∧ F.rnd (w2 - w1) = fin D ∧ 0 < D ∧ F.rnd (n / D) = fin f ∧ F.rnd (1 - f) = fin g ∧
      0 ≤ f ∧ f ≤ 1 ∧ 0 ≤ g ∧ g ≤ 1 ∧ |f - (w2 - x) / (w2 - w1)| ≤ 5 * u + 3e-190 ∧
      |g - (1 - (w2 - x) / (w2 - w1))| ≤ 5 * u + 3e-190 := by
  have hu' : ∀ t : ℝ, t / 2 ^ 52 = t * u := fun t => by rw [hu]; ring
  have u0 : 0 < u := by rw [hu]; positivity
  have u1 : u ≤ 1e-15 := by rw [hu]; norm_num
  set Δ := w2 - w1 with hΔ
  have hΔ1 : Δ ≤ 1e6 := by linarith
  -- the two differences
  obtain ⟨n, hn, kn⟩ := rnd_any (F := F) (w2 - x) (by rw [abs_le]; constructor <;> norm_num <;> linarith)
  obtain ⟨D, hD, kD⟩ := rnd_any (F := F) Δ (by rw [abs_le]; constructor <;> norm_num <;> linarith)
  rw [hu', abs_of_nonneg (by linarith : 0 ≤ w2 - x)] at kn
  rw [hu', abs_of_nonneg (by linarith : 0 ≤ Δ)] at kD
  have n0 : 0 ≤ n := rnd_le F float_zero hn (by linarith)
  have nD : n ≤ D := rnd_le F hn hD (by linarith)
  obtain ⟨kD1, kD2⟩ := abs_le.1 kD
  have hD9 : Δ * (9 / 10) ≤ D := by nlinarith
  have D0 : 0 < D := by nlinarith
  -- the quotient
  have q01 : 0 ≤ n / D ∧ n / D ≤ 1 := ⟨div_nonneg n0 D0.le, (div_le_one D0).2 nD⟩
  set φ := (w2 - x) / Δ with hφ
  have Δ0 : 0 < Δ := by linarith
  have φ0 : 0 ≤ φ := div_nonneg (by linarith) Δ0.le
  have φ1 : φ ≤ 1 := (div_le_one Δ0).2 (by linarith)
  have hq : |n / D - φ| ≤ 3 * u + 1e-190 := by
    have e : n / D - φ = ((n - (w2 - x)) + φ * (Δ - D)) / D := by
      rw [hφ]; field_simp; ring
    rw [e, abs_div, abs_of_pos D0, div_le_iff₀ D0]
    have t1 := abs_add_le (n - (w2 - x)) (φ * (Δ - D))
    have t2 : |φ * (Δ - D)| ≤ Δ * u + 2e-200 := by
      rw [abs_mul, abs_of_nonneg φ0, abs_sub_comm]
      calc φ * |D - Δ| ≤ 1 * |D - Δ| := mul_le_mul_of_nonneg_right φ1 (abs_nonneg _)
        _ ≤ _ := by linarith
    have t3 : (w2 - x) * u ≤ Δ * u := mul_le_mul_of_nonneg_right (by linarith) u0.le
    have t4 : (3 * u + 1e-190) * (Δ * (9 / 10)) ≤ (3 * u + 1e-190) * D :=
      mul_le_mul_of_nonneg_left hD9 (by norm_num; linarith)
    have t5 : (4e-200 : ℝ) ≤ 1e-190 * (Δ * (9 / 10)) := by linarith
    nlinarith [mul_pos u0 Δ0]
  obtain ⟨f, hf, f0, f1⟩ := rnd_within (F := F) float_zero float_one q01.1 q01.2
  obtain ⟨f', hf', kf⟩ := rnd_any (F := F) (n / D) (by rw [abs_of_nonneg q01.1]; exact q01.2.trans (by norm_num))
  rw [hf, fin_inj] at hf'; subst hf'
  rw [hu', abs_of_nonneg q01.1] at kf
  have hfφ : |f - φ| ≤ 4 * u + 2e-190 := by
    have t := abs_sub_le f (n / D) φ
    have : n / D * u ≤ u := mul_le_of_le_one_left u0.le q01.2
    linarith
  -- the other weight
  obtain ⟨g, hg, g0, g1⟩ := rnd_within (F := F) float_zero float_one (by linarith : 0 ≤ 1 - f) (by linarith)
  obtain ⟨g', hg', kg⟩ := rnd_any (F := F) (1 - f) (by rw [abs_of_nonneg (by linarith)]; norm_num; linarith)
  rw [hg, fin_inj] at hg'; subst hg'
  rw [hu', abs_of_nonneg (by linarith : 0 ≤ 1 - f)] at kg
  have hgφ : |g - (1 - φ)| ≤ 5 * u + 3e-190 := by
    have t := abs_sub_le g (1 - f) (1 - φ)
    have t2 : |(1 - f) - (1 - φ)| ≤ 4 * u + 2e-190 := by
      rw [show (1 - f) - (1 - φ) = -(f - φ) by ring, abs_neg]; exact hfφ
    have : (1 - f) * u ≤ u := mul_le_of_le_one_left u0.le (by linarith)
    linarith
  exact ⟨n, D, f, g, hn, hD, D0, hf, hg, f0, f1, g0, g1, hfφ.trans (by linarith), hgφ⟩

/-- a weight times a cell -/
theorem product_near (u M : ℝ) (hu : u = 1 / 2 ^ 52) (hM : M ≤ 1e6) (s c σ : ℝ) (s0 : 0 ≤ s) (s1 : s ≤ 1) (c0 : 0 ≤ c) (cM : c ≤ M)
    (hsσ : |s - σ| ≤ 5 * u + 3e-190) :
    ∃ p, F.rnd (s * c) = fin p ∧ 0 ≤ p ∧ p ≤ M * (1 + u) + 2e-200 ∧ |p - σ * c| ≤ 6 * (M * u) + 4e-184 := by
  have hu' : ∀ t : ℝ, t / 2 ^ 52 = t * u := fun t => by rw [hu]; ring
  have u0 : 0 < u := by rw [hu]; positivity
  have sc : 0 ≤ s * c := mul_nonneg s0 c0
  have scM : s * c ≤ M := (mul_le_of_le_one_left c0 s1).trans cM
  obtain ⟨p, hp, kp⟩ := rnd_any (F := F) (s * c) (by rw [abs_of_nonneg sc]; exact (scM.trans hM).trans (by norm_num))
  rw [hu', abs_of_nonneg sc] at kp
  have t0 : s * c * u ≤ M * u := mul_le_mul_of_nonneg_right scM u0.le
  refine ⟨p, hp, rnd_le F float_zero hp sc, ?_, ?_⟩
  · obtain ⟨_, kp2⟩ := abs_le.1 kp
    rw [mul_add, mul_one]
    linarith
  · have t := abs_sub_le p (s * c) (σ * c)
    have t1 : |s * c - σ * c| ≤ (5 * u + 3e-190) * M := by
      rw [← sub_mul, abs_mul, abs_of_nonneg c0]
      exact mul_le_mul hsσ cM c0 (by linarith)
    rw [show (5 * u + 3e-190) * M = 5 * (M * u) + 3e-190 * M by ring] at t1
    linarith

/-- the interpolation of one cell of the table -/
theorem cell_near (w1 w2 x a b M : ℝ) (h1 : w1 < x) (h2 : x ≤ w2) (hb1 : 0 ≤ w1) (hb2 : w2 ≤ 1e6) (hd : 1e-3 ≤ w2 - w1)
    (a0 : 0 ≤ a) (aM : a ≤ M) (b0 : 0 ≤ b) (bM : b ≤ M) (hM : M ≤ 1e6) (hbf : IsFloat F b) :
    ∃ f v, ((RF.of w2 - RF.of x) / (RF.of w2 - RF.of w1) : RF F) = RF.of f ∧
      (RF.of f * RF.of a + (1 - RF.of f) * RF.of b : RF F) = RF.of v ∧ 0 ≤ v ∧
      |v - lerp ((x - w1) / (w2 - w1)) a b| ≤ 16 * M / 2 ^ 52 + 1e-180 ∧ (x = w2 → v = b) := by
  obtain ⟨u, hu⟩ : ∃ u : ℝ, u = 1 / 2 ^ 52 := ⟨_, rfl⟩
  have hu' : ∀ t : ℝ, t / 2 ^ 52 = t * u := fun t => by rw [hu]; ring
  have u0 : 0 < u := by rw [hu]; positivity
  have u1 : u ≤ 1e-15 := by rw [hu]; norm_num
  have M0 : 0 ≤ M := a0.trans aM
  have Δ0 : 0 < w2 - w1 := by linarith
  obtain ⟨n, D, f, g, hn, hD, D0, hf, hg, f0, f1, g0, g1, hfφ, hgφ⟩ := weights_near (F := F) w1 w2 x u hu h1 h2 hb1 hb2 hd
  set φ := (w2 - x) / (w2 - w1) with hφ
  obtain ⟨p, hp, p0, pM, kp⟩ := product_near (F := F) u M hu hM f a φ f0 f1 a0 aM hfφ
  obtain ⟨r, hr, r0, rM, kr⟩ := product_near (F := F) u M hu hM g b (1 - φ) g0 g1 b0 bM hgφ
  -- the sum
  have pr0 : 0 ≤ p + r := by linarith
  have prM : p + r ≤ 3 * M + 1e-190 := by
    have : M * u ≤ M * 1e-15 := mul_le_mul_of_nonneg_left u1 M0
    rw [mul_add, mul_one] at pM rM
    linarith
  obtain ⟨v, hv, kv⟩ := rnd_any (F := F) (p + r) (by rw [abs_of_nonneg pr0]; linarith)
  rw [hu', abs_of_nonneg pr0] at kv
  refine ⟨f, v, ?_, ?_, rnd_le F float_zero hv pr0, ?_, fun hx => ?_⟩
  · have e1 : (RF.of w2 - RF.of x : RF F) = RF.of n := hn
    have e2 : (RF.of w2 - RF.of w1 : RF F) = RF.of D := hD
    rw [e1, e2]
    show F.rd (XF.div (fin n) (fin D)) = _
    have : XF.div (fin n) (fin D) = fin (n / D) := by simp [XF.div, D0.ne']
    rw [this]; exact hf
  · have e1 : (RF.of f * RF.of a : RF F) = RF.of p := hp
    have e2 : ((1 : RF F) - RF.of f) = RF.of g := by rw [fp_one]; exact hg
    have e3 : (RF.of g * RF.of b : RF F) = RF.of r := hr
    rw [e1, e2, e3]
    exact hv
  · have e : lerp ((x - w1) / (w2 - w1)) a b = φ * a + (1 - φ) * b := by
      have : (x - w1) / (w2 - w1) = 1 - φ := by rw [hφ, eq_sub_iff_add_eq, ← add_div, div_eq_one_iff_eq Δ0.ne']; ring
      rw [this]; unfold lerp; ring
    rw [e, hu']
    have t := abs_sub_le v (p + r) (φ * a + (1 - φ) * b)
    have t1 : |p + r - (φ * a + (1 - φ) * b)| ≤ 12 * (M * u) + 8e-184 := by
      have := abs_add_le (p - φ * a) (r - (1 - φ) * b)
      rw [show p + r - (φ * a + (1 - φ) * b) = (p - φ * a) + (r - (1 - φ) * b) by ring]
      linarith
    have t2 : (p + r) * u ≤ 3 * (M * u) + 1e-190 := by
      calc (p + r) * u ≤ (3 * M + 1e-190) * u := mul_le_mul_of_nonneg_right prM u0.le
        _ = 3 * (M * u) + 1e-190 * u := by ring
        _ ≤ _ := by linarith
    rw [mul_assoc]
    linarith [mul_nonneg M0 u0.le]
  · have n00 : n = 0 := by
      rw [hx, sub_self, rnd_zero, fin_inj] at hn; exact hn.symm
    have f00 : f = 0 := by
      rw [n00, zero_div, rnd_zero, fin_inj] at hf; exact hf.symm
    have g00 : g = 1 := by
      rw [f00, sub_zero, rnd_one, fin_inj] at hg; exact hg.symm
    rw [f00, zero_mul, rnd_zero, fin_inj] at hp
    rw [g00, one_mul, hbf, fin_inj] at hr
    rw [← hp, ← hr, zero_add, hbf, fin_inj] at hv
    exact hv.symm

/-- C169: in floating point the table at a wavelength inside the grid has the right number of cells; each is
a number that is not negative and differs from the linear interpolation between the two neighbouring
wavelengths by no more than rounding explains; at a wavelength of the grid it is the table itself. -/
theorem C169_table (F : FP) (lut : LutFile (RF F)) (w : List ℝ) (tables : List (List ℝ)) (N : Nat) (M : ℝ)
    (hw : lut.wavelengths = w.map RF.of) (hinc : Increasing w) (hbound : ∀ v ∈ w, 0 ≤ v ∧ v ≤ 1e6)
    (ht : lut.reflectance = tables.map fun t => t.map RF.of)
    (hlen : tables.length = w.length) (hN : ∀ t ∈ tables, t.length = N) (hM : M ≤ 1e6)
    (hcell : ∀ t ∈ tables, ∀ v ∈ t, IsFloat F v ∧ 0 ≤ v ∧ v ≤ M) (k : Nat) (hk : k + 1 < w.length) (x : ℝ)
    (hx0 : w[k] < x) (hx1 : x ≤ w[k + 1]) (hlast : x < w[w.length - 1]) (hstep : 1e-3 ≤ w[k + 1] - w[k]) :
    ∃ T : List ℝ, tableAt lut (RF.of x) = .ok (T.map RF.of) ∧ T.length = N ∧
      (∀ (c : Nat) (a b : ℝ), (tables[k]'(by omega))[c]? = some a → (tables[k + 1]'(by omega))[c]? = some b →
        ∃ v, T[c]? = some v ∧ 0 ≤ v ∧ |v - lerp ((x - w[k]) / (w[k + 1] - w[k])) a b| ≤ 16 * M / 2 ^ 52 + 1e-180) ∧
      (x = w[k + 1] → T = tables[k + 1]'(by omega)) := by
  have hk0 : k < w.length := by omega
  have hlo := amin_eq (l := w) (m := w[0]'(by omega)) (List.getElem_mem _) (increasing_head_le hinc hk0)
  have hhi := amax_eq (l := w) (M := w[w.length - 1]'(by omega)) (List.getElem_mem _) (increasing_le_last hinc (by omega))
  have hlo' : NP.amin (α := RF F) (w.map RF.of) = .ok (RF.of (w[0]'(by omega))) := hlo
  have hhi' : NP.amax (α := RF F) (w.map RF.of) = .ok (RF.of (w[w.length - 1]'(by omega))) := hhi
  have h0 : w[0]'(by omega) < x := lt_of_le_of_lt (increasing_head_le hinc hk0 _ (List.getElem_mem _)) hx0
  have hs : searchsorted (α := RF F) (w.map RF.of) (RF.of x) = k + 1 := by
    have : searchsorted (α := RF F) (w.map RF.of) (RF.of x) = searchsorted (α := XF) (finL w) (fin x) :=
      search_same (F := F) (finL w) (fin x) _ _ _ le_rfl
    rw [this]
    obtain ⟨h1, h2, h3⟩ := searchsorted_spec w x hinc
    rcases Nat.lt_trichotomy (searchsorted (finL w) (fin x)) (k + 1) with h | h | h
    · have := h2 k hk0 (by omega); linarith
    · exact h
    · have := h1 (k + 1) hk h; linarith
  set A := tables[k]'(by omega) with hA
  set B := tables[k + 1]'(by omega) with hB
  have hAl : A.length = N := hN _ (List.getElem_mem _)
  have hBl : B.length = N := hN _ (List.getElem_mem _)
  have hcells : ∀ a b, a ∈ A → b ∈ B → ∃ f v, ((RF.of w[k + 1] - RF.of x) / (RF.of w[k + 1] - RF.of w[k]) : RF F) = RF.of f ∧
      (RF.of f * RF.of a + (1 - RF.of f) * RF.of b : RF F) = RF.of v ∧ 0 ≤ v ∧
      |v - lerp ((x - w[k]) / (w[k + 1] - w[k])) a b| ≤ 16 * M / 2 ^ 52 + 1e-180 ∧ (x = w[k + 1] → v = b) := by
    intro a b ha hb
    have ca := hcell A (List.getElem_mem _) a ha
    have cb := hcell B (List.getElem_mem _) b hb
    exact cell_near w[k] w[k + 1] x a b M hx0 hx1 (hbound _ (List.getElem_mem _)).1 (hbound _ (List.getElem_mem _)).2 hstep
      ca.2.1 ca.2.2 cb.2.1 cb.2.2 hM cb.1
  choose! f v hf hv hv0 hvn hve using hcells
  set φ : RF F := (RF.of w[k + 1] - RF.of x) / (RF.of w[k + 1] - RF.of w[k]) with hφ
  have hfac : wavelengthIndexAndFactor (α := RF F) (w.map RF.of) (RF.of x) = .ok (k + 1, φ) := by
    unfold wavelengthIndexAndFactor
    simp only [hs]
    have e1 : ((k + 1 : ℕ) : ℤ) - 1 = (k : ℤ) := by push_cast; ring
    have g : ∀ i (hi : i < w.length), (w.map (RF.of (F := F)))[i]? = some (RF.of w[i]) := by
      intro i hi; rw [List.getElem?_map, List.getElem?_eq_getElem hi]; rfl
    rw [e1, pyIndex_nat _ _ _ (g k hk0), pyIndex_nat _ _ _ (g (k + 1) hk)]
    rfl
  have ga : ∀ i (hi : i < tables.length), (tables.map fun t => t.map (RF.of (F := F)))[i]? = some (tables[i].map RF.of) := by
    intro i hi; rw [List.getElem?_map, List.getElem?_eq_getElem hi]; rfl
  have key : ∀ a b, a ∈ A → b ∈ B → φ * RF.of a + (1 - φ) * RF.of b = RF.of (v a b) := by
    intro a b ha hb
    rw [hf a b ha hb]
    exact hv a b ha hb
  have hres : tableAt lut (RF.of x) = .ok ((List.zipWith (fun a b => v a b) A B).map RF.of) := by
    unfold tableAt
    rw [hw, ht, hlo', hhi']
    simp only [bind, Except.bind]
    rw [if_neg (by
      simp only [not_not]
      exact ⟨decide_eq_true h0, decide_eq_true hlast⟩), hfac]
    simp only
    have e1 : ((k + 1 : ℕ) : ℤ) - 1 = (k : ℤ) := by push_cast; ring
    rw [e1, pyIndex_nat _ _ _ (ga k (by omega)), pyIndex_nat _ _ _ (ga (k + 1) (by omega))]
    simp only
    rw [bcast2_eq_len _ _ _ (by simp [← hA, ← hB, hAl, hBl])]
    rw [Except.ok.injEq, ← hA, ← hB]
    rw [List.map_map, List.map_map, List.zipWith_map, List.map_zipWith]
    apply List.ext_getElem
    · simp
    · intro i i1 i2
      simp only [List.getElem_zipWith, Function.comp]
      exact key _ _ (List.getElem_mem _) (List.getElem_mem _)
  refine ⟨_, hres, by simp [hAl, hBl], ?_, ?_⟩
  · intro c a b ha hb
    have ha' := List.mem_of_getElem? ha
    have hb' := List.mem_of_getElem? hb
    exact ⟨v a b, by rw [List.getElem?_zipWith, ha, hb], hv0 a b ha' hb', hvn a b ha' hb'⟩
  · intro he
    apply List.ext_getElem
    · simp [hAl, hBl]
    · intro i h1 h2
      rw [List.getElem_zipWith]
      exact hve _ _ (List.getElem_mem _) (List.getElem_mem _) he

example : ∃ T : List ℝ, tableAt (α := RF Double.fp)
      ⟨[[0, 1].map RF.of, [8, 9].map RF.of, [1, 1].map RF.of], [400, 500, 600].map RF.of, [], [], []⟩ (RF.of 425) = .ok (T.map RF.of) ∧
    ∃ v : ℝ, T[0]? = some v ∧ |v - 2| ≤ 1e-12 := by
  have f : ∀ n : ℕ, n ≤ 100 → IsFloat Double.fp n := fun n h => float_nat n (h.trans (by norm_num))
  obtain ⟨T, h1, h2, h3, _⟩ := C169_table Double.fp
    ⟨[[0, 1].map RF.of, [8, 9].map RF.of, [1, 1].map RF.of], [400, 500, 600].map RF.of, [], [], []⟩ [400, 500, 600]
    [[0, 1], [8, 9], [1, 1]] 2 9 rfl (by simp [Increasing]; norm_num) (by simp; norm_num) rfl rfl (by simp) (by norm_num)
    (by
      have f0 : IsFloat Double.fp 0 := float_zero
      have f1 : IsFloat Double.fp 1 := float_one
      have f8 : IsFloat Double.fp 8 := by simpa using f 8 (by norm_num)
      have f9 : IsFloat Double.fp 9 := by simpa using f 9 (by norm_num)
      simp [f0, f1, f8, f9]; norm_num) 0 (by simp) 425 (by simp; norm_num) (by simp; norm_num) (by simp; norm_num) (by simp; norm_num)
  obtain ⟨v, hv, _, he⟩ := h3 0 0 8 rfl rfl
  refine ⟨T, h1, v, hv, ?_⟩
  have : lerp (((425 : ℝ) - ([400, 500, 600] : List ℝ)[0]) / (([400, 500, 600] : List ℝ)[0 + 1] - ([400, 500, 600] : List ℝ)[0])) 0 8 = 2 := by
    simp [lerp]; norm_num
  rw [this] at he
  exact he.trans (by norm_num)

end Verif.Props
