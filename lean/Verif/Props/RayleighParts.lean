import Verif.Lemmas.Rayleigh
import Verif.Lemmas.Download
import Mathlib.Topology.Order.Basic
import Mathlib.Topology.Algebra.Ring.Real
/-
Properties C61-C65 and C69: the parts of the Rayleigh correction.
-/
namespace Verif.Props
open XF Model PyNum Lemmas Spec

/-! ### C61 -/

theorem increasing_head_le {w : List ℝ} (hinc : Increasing w) {k : Nat} (hk : k < w.length) :
    ∀ v ∈ w, w[0]'(by omega) ≤ v := by
  intro v hv
  obtain ⟨i, hi, rfl⟩ := List.getElem_of_mem hv
  rcases Nat.eq_zero_or_pos i with rfl | h
  · exact le_refl _
  · exact (List.pairwise_iff_getElem.1 hinc 0 i (by omega) hi h).le

theorem increasing_le_last {w : List ℝ} (hinc : Increasing w) (hk : 0 < w.length) :
    ∀ v ∈ w, v ≤ w[w.length - 1]'(by omega) := by
  intro v hv
  obtain ⟨i, hi, rfl⟩ := List.getElem_of_mem hv
  rcases Nat.lt_or_ge i (w.length - 1) with h | h
  · exact (List.pairwise_iff_getElem.1 hinc i _ hi (by omega) h).le
  · have : i = w.length - 1 := by omega
    subst this; exact le_refl _

/-- C61: between two neighbouring wavelengths of the (increasing) grid the table is the linear
interpolation of the two tables, cell by cell; it is the table itself at a grid wavelength and
lies between the two tables everywhere. -/
theorem C61_linear_between_neighbours (lut : LutFile XF) (w : List ℝ) (tables : List (List ℝ)) (N : Nat)
    (hw : lut.wavelengths = finL w) (hinc : Increasing w) (ht : lut.reflectance = tables.map finL)
    (hlen : tables.length = w.length) (hN : ∀ t ∈ tables, t.length = N) (k : Nat) (hk : k + 1 < w.length) (x : ℝ)
    (hx0 : w[k] < x) (hx1 : x ≤ w[k + 1]) (hlast : x < w[w.length - 1]) :
    ∃ T : List ℝ, tableAt lut (fin x) = .ok (finL T) ∧ T.length = N ∧
      (∀ (c : Nat) (a b : ℝ), (tables[k]'(by omega))[c]? = some a → (tables[k + 1]'(by omega))[c]? = some b →
        ∃ v, T[c]? = some v ∧ v = lerp ((x - w[k]) / (w[k + 1] - w[k])) a b ∧ min a b ≤ v ∧ v ≤ max a b) ∧
      (x = w[k + 1] → T = tables[k + 1]'(by omega)) := by
  have hk0 : k < w.length := by omega
  have hlo := amin_eq (l := w) (m := w[0]'(by omega)) (List.getElem_mem _) (increasing_head_le hinc hk0)
  have hhi := amax_eq (l := w) (M := w[w.length - 1]'(by omega)) (List.getElem_mem _) (increasing_le_last hinc (by omega))
  have h0 : w[0]'(by omega) < x := lt_of_le_of_lt (increasing_head_le hinc hk0 _ (List.getElem_mem _)) hx0
  have hs : searchsorted (finL w) (fin x) = k + 1 := by
    obtain ⟨h1, h2, h3⟩ := searchsorted_spec w x hinc
    rcases Nat.lt_trichotomy (searchsorted (finL w) (fin x)) (k + 1) with h | h | h
    · have := h2 k hk0 (by omega); linarith
    · exact h
    · have := h1 (k + 1) hk h; linarith
  have hd : 0 < w[k + 1] - w[k] := by linarith
  set f := (w[k + 1] - x) / (w[k + 1] - w[k]) with hf
  have hfac : wavelengthIndexAndFactor (finL w) (fin x) = .ok (k + 1, fin f) := by
    unfold wavelengthIndexAndFactor
    simp only [hs]
    have e1 : ((k + 1 : ℕ) : ℤ) - 1 = (k : ℤ) := by push_cast; ring
    have g : ∀ i (hi : i < w.length), (finL w)[i]? = some (fin w[i]) := by
      intro i hi; unfold finL; rw [List.getElem?_map, List.getElem?_eq_getElem hi]; rfl
    rw [e1, pyIndex_nat _ _ _ (g k hk0), pyIndex_nat _ _ _ (g (k + 1) hk)]
    simp only [bind, Except.bind, pure, Except.pure, fin_sub]
    rw [fin_div _ hd.ne']
  have ga : ∀ i (hi : i < tables.length), (tables.map finL)[i]? = some (finL tables[i]) := by
    intro i hi; rw [List.getElem?_map, List.getElem?_eq_getElem hi]; rfl
  set A := tables[k]'(by omega) with hA
  set B := tables[k + 1]'(by omega) with hB
  have hAl : A.length = N := hN _ (List.getElem_mem _)
  have hBl : B.length = N := hN _ (List.getElem_mem _)
  have hres : tableAt lut (fin x) = .ok (finL (List.zipWith (fun a b => f * a + (1 - f) * b) A B)) := by
    unfold tableAt
    rw [hw, ht, hlo, hhi]
    simp only [bind, Except.bind, lt_fin, decide_eq_true_eq]
    rw [if_neg (by simp only [not_not]; exact ⟨h0, hlast⟩), hfac]
    simp only
    have e1 : ((k + 1 : ℕ) : ℤ) - 1 = (k : ℤ) := by push_cast; ring
    rw [e1, pyIndex_nat _ _ _ (ga k (by omega)), pyIndex_nat _ _ _ (ga (k + 1) (by omega))]
    simp only
    rw [bcast2_eq_len _ _ _ (by simp [← hA, ← hB, hAl, hBl])]
    rw [Except.ok.injEq, ← hA, ← hB]
    unfold finL
    rw [List.map_map, List.map_map, List.zipWith_map, List.map_zipWith]
    simp only [Function.comp, ofNat_one, fin_sub, fin_mul, fin_add]
  have hf1 : 1 - f = (x - w[k]) / (w[k + 1] - w[k]) := by rw [hf]; field_simp; ring
  refine ⟨_, hres, by simp [hAl, hBl], ?_, ?_⟩
  · intro c a b ha hb
    refine ⟨f * a + (1 - f) * b, ?_, ?_, ?_, ?_⟩
    · rw [List.getElem?_zipWith, ha, hb]
    · unfold lerp; rw [← hf1]; ring
    all_goals
      have hq0 : 0 ≤ 1 - f := by rw [hf1]; exact div_nonneg (by linarith) hd.le
      have hq1 : 0 ≤ f := by rw [hf]; exact div_nonneg (by linarith) hd.le
      have e : f * a + (1 - f) * b = lerp (1 - f) a b := by unfold lerp; ring
      rw [e]
    · exact lerp_ge hq0 (by linarith) (min_le_left _ _) (min_le_right _ _)
    · exact lerp_le hq0 (by linarith) (le_max_left _ _) (le_max_right _ _)
  · intro he
    have hf0 : f = 0 := by rw [hf, ← he]; simp
    apply List.ext_getElem
    · simp [hAl, hBl]
    · intro i h1 h2
      simp [hf0]

/-- C61: every wavelength strictly inside the grid lies between two neighbours. -/
theorem C61_has_neighbours (w : List ℝ) (x : ℝ) (hl : 0 < w.length) (h0 : w[0] < x)
    (h1 : x < w[w.length - 1]) : ∃ k, ∃ hk : k + 1 < w.length, w[k] < x ∧ x ≤ w[k + 1] := by
  by_contra hc
  push Not at hc
  have : ∀ i (hi : i < w.length), w[i] < x := by
    intro i
    induction i with
    | zero => intro _; exact h0
    | succ i ih => intro hi; exact hc i hi (ih (by omega))
  exact absurd (this (w.length - 1) (by omega)) (not_lt.2 h1.le)

example : ∃ k, ∃ hk : k + 1 < [400, 500, (600 : ℝ)].length, [400, 500, (600 : ℝ)][k] < 425 ∧ 425 ≤ [400, 500, (600 : ℝ)][k + 1] :=
  C61_has_neighbours [400, 500, 600] 425 (by simp) (by norm_num) (by norm_num)

/-- a table file with three wavelengths and 2x2x2 tables -/
noncomputable def exLut : LutFile XF where
  reflectance := [finL [0, 1, 2, 3, 4, 5, 6, 7], finL [8, 9, 10, 11, 12, 13, 14, 15], finL [1, 1, 1, 1, 1, 1, 1, 1]]
  wavelengths := finL [400, 500, 600]
  azimuth_difference := finL [0, 180]
  satellite_zenith_secant := finL [1, 3]
  sun_zenith_secant := finL [1, 2]

example : ∃ T : List ℝ, tableAt exLut (fin 425) = .ok (finL T) ∧ T.length = 8 ∧ ∃ v, T[0]? = some v ∧ v = 2 := by
  obtain ⟨T, h1, h2, h3, _⟩ := C61_linear_between_neighbours exLut [400, 500, 600]
    [[0, 1, 2, 3, 4, 5, 6, 7], [8, 9, 10, 11, 12, 13, 14, 15], [1, 1, 1, 1, 1, 1, 1, 1]] 8 rfl
    (by simp [Increasing]; norm_num) rfl rfl (by simp) 0 (by simp) 425 (by simp; norm_num) (by simp; norm_num)
    (by simp; norm_num)
  obtain ⟨v, hv, he, _⟩ := h3 0 0 8 rfl rfl
  refine ⟨T, h1, h2, v, hv, ?_⟩
  rw [he]; simp [lerp]; norm_num

/-! ### C62 -/

/-- the secant of an angle in degrees -/
noncomputable def secDeg (x : ℝ) : ℝ := 1 / Real.cos (x * (Real.pi / 180))

/-- C62: whatever the angle (also NaN and infinities), after clipping to a table with largest
secant `s` it is not negative and its secant is between 1 and `s`; an angle below 90 degrees
with a secant up to `s` is unchanged, NaN and negative angles become 0. -/
theorem C62_clip (s : ℝ) (hs : 1 ≤ s) (z : XF) :
    ∃ c, clipAngle (fin s) z = fin c ∧ 0 ≤ c ∧ c < 90 ∧
      secant (fin c) = fin (secDeg c) ∧ 1 ≤ secDeg c ∧ secDeg c ≤ s ∧
      (∀ x, z = fin x → 0 ≤ x → x < 90 → secDeg x ≤ s → c = x) ∧
      (∀ x, z = fin x → x ≤ 0 → c = 0) ∧
      (∀ x, z = fin x → 90 ≤ x → secDeg c = s) ∧
      (z = XF.nan → c = 0) ∧ (z = XF.pinf → secDeg c = s) ∧ (z = XF.ninf → c = 0) := by
  have hp := Real.pi_pos
  have hle : 1 / s ≤ 1 := by rw [div_le_one (by linarith)]; exact hs
  have hpos : 0 < 1 / s := by positivity
  have hm0 := maxZenith_nonneg s
  have hlt : maxZenith s < 90 := by
    have := Real.arccos_lt_pi_div_two.2 hpos
    unfold maxZenith
    rw [mul_div_assoc', div_lt_iff₀ hp]; nlinarith
  have hmsec : secDeg (maxZenith s) = s := by
    unfold secDeg maxZenith
    have e : Real.arccos (1 / s) * (180 / Real.pi) * (Real.pi / 180) = Real.arccos (1 / s) := by field_simp
    rw [e, Real.cos_arccos (by linarith) hle]; simp
  have hbig := maxFloat_big
  have hc0 : 0 ≤ min (max (angleValue z) 0) (maxZenith s) := le_min (le_max_right _ _) hm0
  have hc1 : min (max (angleValue z) 0) (maxZenith s) ≤ maxZenith s := min_le_right _ _
  obtain ⟨h1, h2, h3⟩ := secant_eq hs hc0 hc1
  refine ⟨_, clipAngle_eq hs z, hc0, lt_of_le_of_lt hc1 hlt, h1, h2, h3, ?_, ?_, ?_, ?_, ?_, ?_⟩
  · rintro x rfl hx0 hx1 hx2
    have hxm : x ≤ maxZenith s := by
      by_contra hc
      push Not at hc
      have hcos := Real.cos_lt_cos_of_nonneg_of_le_pi (x := maxZenith s * (Real.pi / 180)) (y := x * (Real.pi / 180))
        (by positivity) (by nlinarith) (by exact mul_lt_mul_of_pos_right hc (by positivity))
      have hcx : 0 < Real.cos (x * (Real.pi / 180)) := by
        apply Real.cos_pos_of_mem_Ioo
        constructor <;> nlinarith
      have : secDeg (maxZenith s) < secDeg x := by
        unfold secDeg
        exact one_div_lt_one_div_of_lt hcx hcos
      rw [hmsec] at this; linarith
    have hv : angleValue (fin x) = x := by
      show min (max x (-maxFloat)) maxFloat = x
      rw [max_eq_left (by linarith), min_eq_left (by linarith)]
    rw [hv, max_eq_left hx0, min_eq_left hxm]
  · rintro x rfl hx0
    have hv : angleValue (fin x) ≤ 0 := by
      show min (max x (-maxFloat)) maxFloat ≤ 0
      exact (min_le_left _ _).trans (max_le hx0 (by linarith))
    rw [max_eq_right hv, min_eq_left hm0]
  · rintro x rfl hx0
    have hv : maxZenith s ≤ angleValue (fin x) := by
      show maxZenith s ≤ min (max x (-maxFloat)) maxFloat
      refine le_min (le_max_of_le_left (by linarith)) (by linarith)
    rw [max_eq_left (by linarith), min_eq_right hv, hmsec]
  · rintro rfl
    show min (max 0 0) (maxZenith s) = 0
    rw [max_self, min_eq_left hm0]
  · rintro rfl
    have hv : maxZenith s ≤ angleValue XF.pinf := by show _ ≤ maxFloat; linarith
    rw [max_eq_left (by linarith), min_eq_right hv, hmsec]
  · rintro rfl
    have hv : angleValue XF.ninf ≤ 0 := by show -maxFloat ≤ 0; linarith
    rw [max_eq_right hv, min_eq_left hm0]

example : clipAngle (fin 24.75) XF.nan = fin 0 ∧ clipAngle (fin 24.75) (fin 30) = fin 30 ∧
    ∃ c, clipAngle (fin 24.75) (fin 95) = fin c ∧ secDeg c = 24.75 := by
  refine ⟨?_, ?_, ?_⟩
  · obtain ⟨c, h, _, _, _, _, _, _, _, _, hn, _⟩ := C62_clip 24.75 (by norm_num) XF.nan
    rw [h, hn rfl]
  · obtain ⟨c, h, _, _, _, _, _, hn, _⟩ := C62_clip 24.75 (by norm_num) (fin 30)
    rw [h, hn 30 rfl (by norm_num) (by norm_num)]
    unfold secDeg
    have e : (30 : ℝ) * (Real.pi / 180) = Real.pi / 6 := by ring
    rw [e, Real.cos_pi_div_six]
    have h3 : (1 : ℝ) ≤ Real.sqrt 3 := by rw [Real.one_le_sqrt]; norm_num
    rw [div_le_iff₀ (by positivity)]; linarith
  · obtain ⟨c, h, _, _, _, _, _, _, _, hn, _⟩ := C62_clip 24.75 (by norm_num) (fin 95)
    exact ⟨c, h, hn 95 rfl (by norm_num)⟩

/-! ### C63 -/

/-- C63: as a function of the (finite) red reflectance the relaxed correction is the correction
itself below 20, then falls linearly; it is continuous, for a non-negative correction it never
increases, and it is not positive from 100 on, so that it is clipped to zero there. -/
theorem C63_fades_out (x : ℝ) :
    ∃ g : ℝ → ℝ, (∀ r, relaxCloudy (fin r) (fin x) = fin (g r)) ∧ Continuous g ∧
      (∀ r ≤ 20, g r = x) ∧ (∀ r, 20 ≤ r → g r = (100 - r) / 80 * x) ∧
      (0 ≤ x → Antitone g) ∧
      (0 ≤ x → ∀ r, 100 ≤ r → PyNum.clip (relaxCloudy (fin r) (fin x)) 0 100 = fin 0) := by
  have hval : ∀ r, relaxCloudy (fin r) (fin x) = fin ((1 - (max r 20 - 20) / 80) * x) := by
    intro r
    unfold relaxCloudy
    simp only [ofSci_eq, lt_fin, decide_eq_true_eq, ofNat_one, ofNat_two, fin_sub]
    rw [fin_div _ (by norm_num), fin_sub, fin_mul]
    split
    · rename_i h
      have h' : r ≤ 20 := by norm_num at h; exact h.le
      rw [max_eq_right h']; simp
    · rename_i h
      have h' : 20 ≤ r := by norm_num at h; exact h
      rw [max_eq_left h']
  have hhi : ∀ r : ℝ, 20 ≤ r → (1 - (max r 20 - 20) / 80) * x = (100 - r) / 80 * x := by
    intro r h; rw [max_eq_left h]; ring
  refine ⟨_, hval, by fun_prop, ?_, hhi, ?_, ?_⟩
  · intro r h; rw [max_eq_right h]; ring
  · intro hx a b hab
    have h1 : max a (20:ℝ) ≤ max b 20 := max_le_max hab (le_refl _)
    exact mul_le_mul_of_nonneg_right (by linarith) hx
  · intro hx r hr
    rw [hval, hhi r (by linarith), ofNat_zero, ofNat_two, clip_fin]
    have : (100 - r) / 80 * x ≤ 0 := mul_nonpos_of_nonpos_of_nonneg (by linarith) hx
    rw [max_eq_right this, min_eq_left (by norm_num)]

/-- C63: a NaN red band gives NaN. -/
theorem C63_nan (x : XF) : relaxCloudy XF.nan x = XF.nan := by
  unfold relaxCloudy
  simp [fin_div']

/-- C63: below 20 the correction is not touched, whatever it is. -/
theorem C63_below (r : ℝ) (h : r < 20) (x : XF) : relaxCloudy (fin r) x = x := by
  unfold relaxCloudy
  rw [if_pos]
  rw [ofSci_eq, lt_fin, decide_eq_true_eq]; norm_num; exact h

example : relaxCloudy (fin 60) (fin 10) = fin 5 := by
  obtain ⟨g, h1, _, _, h2, _⟩ := C63_fades_out 10
  rw [h1, h2 60 (by norm_num)]; norm_num

/-! ### C64 -/

/-- C64: for `thresh < maxzen` and non-negative strength the reduced correction is, as a
function of zenith angle, the correction times a factor between 0 and 1 that never increases,
is 1 up to the threshold, and 0 from `maxzen` on if the strength is at least 1. -/
theorem C64_only_reduces (thresh maxzen strength : ℝ) (h : thresh < maxzen) (hs : 0 ≤ strength) :
    ∃ f : ℝ → ℝ, (∀ z x, reduceHighzenith (fin thresh) (fin maxzen) (fin strength) (fin z) (fin x) = fin (x * f z)) ∧
      (∀ z, 0 ≤ f z ∧ f z ≤ 1) ∧ Antitone f ∧ (∀ z ≤ thresh, f z = 1) ∧
      (1 ≤ strength → ∀ z, maxzen ≤ z → f z = 0) := by
  have hd : 0 < maxzen - thresh := by linarith
  have hval : ∀ z x, reduceHighzenith (fin thresh) (fin maxzen) (fin strength) (fin z) (fin x) =
      fin (x * min (max (1 - strength * ((max z thresh - thresh) / (maxzen - thresh))) 0) 1) := by
    intro z x
    unfold reduceHighzenith
    simp only [lt_fin, decide_eq_true_eq, fin_sub]
    rw [fin_div _ hd.ne']
    have e : (if z < thresh then (0 : XF) else fin ((z - thresh) / (maxzen - thresh))) =
        fin ((max z thresh - thresh) / (maxzen - thresh)) := by
      split
      · rename_i hz; rw [max_eq_right hz.le]; simp
      · rename_i hz; rw [max_eq_left (not_lt.1 hz)]
    rw [e, fin_mul, ofSci_eq, fin_sub, ofNat_zero, ofNat_one, clip_fin, fin_mul]
    norm_num
  refine ⟨_, hval, ?_, ?_, ?_, ?_⟩
  · intro z
    exact ⟨le_min (le_max_right _ _) zero_le_one, min_le_right _ _⟩
  · intro a b hab
    have h1 : max a thresh ≤ max b thresh := max_le_max hab (le_refl _)
    have h2 : strength * ((max a thresh - thresh) / (maxzen - thresh)) ≤
        strength * ((max b thresh - thresh) / (maxzen - thresh)) := by
      apply mul_le_mul_of_nonneg_left _ hs
      exact div_le_div_of_nonneg_right (by linarith) hd.le
    exact min_le_min (max_le_max (by linarith) (le_refl _)) (le_refl _)
  · intro z hz
    rw [max_eq_right hz]; simp
  · intro h1 z hz
    rw [max_eq_left (by linarith : thresh ≤ z)]
    have h2 : 1 ≤ (z - thresh) / (maxzen - thresh) := by rw [le_div_iff₀ hd]; linarith
    have h3 : 1 ≤ strength * ((z - thresh) / (maxzen - thresh)) := by nlinarith
    rw [max_eq_right (by linarith), min_eq_left zero_le_one]

example : reduceHighzenith (fin 70) (fin 90) (fin 1) (fin 95) (fin 10) = fin 0 ∧
    reduceHighzenith (fin 70) (fin 90) (fin 1) (fin 60) (fin 10) = fin 10 := by
  obtain ⟨f, h1, _, _, h2, h3⟩ := C64_only_reduces 70 90 1 (by norm_num) zero_le_one
  rw [h1, h1, h3 (le_refl _) 95 (by norm_num), h2 60 (by norm_num)]; norm_num

/-! ### C65 -/

/-- The table file has regular grids on all three axes, starting at secant 1 or below. -/
structure RegularLut (lut : LutFile XF) (A B C : Axis) : Prop where
  sun : lut.sun_zenith_secant = finL A.list
  azi : lut.azimuth_difference = finL B.list
  sat : lut.satellite_zenith_secant = finL C.list
  sunRange : A.lo ≤ 1 ∧ 1 ≤ A.hi
  satRange : C.lo ≤ 1 ∧ 1 ≤ C.hi

/-- what is computed for one pixel -/
noncomputable def pixelValue (interp : Interp3 XF) (A B C : Axis) (table : List XF) (sun sat azi : XF) : XF :=
  interp (fin A.lo, fin B.lo, fin C.lo) (fin A.hi, fin B.hi, fin C.hi) (A.n, B.n, C.n) table
    (secant (clipAngle (fin A.hi) sun), 180 - azi, secant (clipAngle (fin C.hi) sat)) * 100

theorem axis_max (A : Axis) : NP.amax (finL A.list) = .ok (fin A.hi) :=
  amax_eq (List.mem_of_getLast? (Axis'.list_last A)) (Axis'.list_le_hi A)

theorem interp_pixels (interp : Interp3 XF) (lut : LutFile XF) (A B C : Axis) (h : RegularLut lut A B C)
    (sun sat azi : List XF) (hl1 : sun.length = azi.length) (hl2 : azi.length = sat.length) (table : List XF) :
    ∃ out, interpByAngles interp lut sun sat azi table = .ok out ∧ out.length = sun.length ∧
      ∀ (p : Nat) (su sa az : XF), sun[p]? = some su → sat[p]? = some sa → azi[p]? = some az →
        out[p]? = some (pixelValue interp A B C table su sa az) := by
  unfold interpByAngles
  rw [h.sun, h.azi, h.sat, axis_max A, axis_max C]
  simp only [bind, Except.bind]
  rw [pyIndex_head (Axis'.list_head A), pyIndex_head (Axis'.list_head B), pyIndex_head (Axis'.list_head C),
    pyIndex_last (Axis'.list_last A), pyIndex_last (Axis'.list_last B), pyIndex_last (Axis'.list_last C)]
  simp only
  unfold vstack3
  rw [if_pos (by simp; omega)]
  refine ⟨_, rfl, by simp; omega, ?_⟩
  intro p su sa az h1 h2 h3
  simp only [finL_length, Axis'.list_length]
  rw [List.getElem?_map, List.getElem?_zip_eq_some.2 ⟨?_, List.getElem?_zip_eq_some.2 ⟨?_, ?_⟩⟩]
  · rfl
  · rw [List.getElem?_map, h1]; rfl
  · rw [List.getElem?_map, h3]; rfl
  · rw [List.getElem?_map, h2]; rfl

/-- C65: with an azimuth difference inside the table and any zenith angles (clipped if need be)
the interpolated correction lies between 100 times the smallest and 100 times the largest of the
eight table values around the point. -/
theorem C65_within_cell (interp : Interp3 XF) (hi : IsMultilinear interp) (A B C : Axis) (V : List ℝ)
    (hV : V.length = A.n * B.n * C.n) (hA : A.lo ≤ 1 ∧ 1 ≤ A.hi) (hC : C.lo ≤ 1 ∧ 1 ≤ C.hi)
    (sun sat : XF) (d : ℝ) (hd : B.lo ≤ 180 - d ∧ 180 - d ≤ B.hi) :
    ∃ i j k, i + 1 < A.n ∧ j + 1 < B.n ∧ k + 1 < C.n ∧
      ∃ v, pixelValue interp A B C (finL V) sun sat (fin d) = fin v ∧
        (∃ cs a, clipAngle (fin A.hi) sun = fin cs ∧ 0 ≤ a ∧ a ≤ 1 ∧ secDeg cs = A.pt i a) ∧
        (∃ b, 0 ≤ b ∧ b ≤ 1 ∧ 180 - d = B.pt j b) ∧
        (∃ ct c, clipAngle (fin C.hi) sat = fin ct ∧ 0 ≤ c ∧ c ≤ 1 ∧ secDeg ct = C.pt k c) ∧
        ∀ m M, (∀ i' j' k', i' ≤ 1 → j' ≤ 1 → k' ≤ 1 → m ≤ cell V B.n C.n (i + i') (j + j') (k + k') ∧
          cell V B.n C.n (i + i') (j + j') (k + k') ≤ M) → 100 * m ≤ v ∧ v ≤ 100 * M := by
  obtain ⟨cs, e1, _, _, s1, l1, u1, _⟩ := C62_clip A.hi hA.2 sun
  obtain ⟨ct, e2, _, _, s2, l2, u2, _⟩ := C62_clip C.hi hC.2 sat
  obtain ⟨i, a, hi1, ha0, ha1, ea⟩ := Axis'.locate A (x := secDeg cs) (by linarith [hA.1]) u1
  obtain ⟨j, b, hj1, hb0, hb1, eb⟩ := Axis'.locate B hd.1 hd.2
  obtain ⟨k, c, hk1, hc0, hc1, ec⟩ := Axis'.locate C (x := secDeg ct) (by linarith [hC.1]) u2
  have hval : pixelValue interp A B C (finL V) sun sat (fin d) =
      fin (trilinear (cell V B.n C.n) i j k a b c * 100) := by
    unfold pixelValue
    rw [e1, e2, s1, s2, ofNat_two, fin_sub, ea, eb, ec]
    have := hi A B C V hV i j k a b c hi1 hj1 hk1 ha0 ha1 hb0 hb1 hc0 hc1
    unfold finL
    rw [this, ofNat_two, fin_mul]
  refine ⟨i, j, k, hi1, hj1, hk1, _, hval, ⟨cs, a, e1, ha0, ha1, ea⟩, ⟨b, hb0, hb1, eb⟩,
    ⟨ct, c, e2, hc0, hc1, ec⟩, ?_⟩
  intro m M hm
  have h1 := trilinear_ge (v := cell V B.n C.n) ⟨ha0, ha1⟩ ⟨hb0, hb1⟩ ⟨hc0, hc1⟩
    (fun i' j' k' x y z => (hm i' j' k' x y z).1)
  have h2 := trilinear_le (v := cell V B.n C.n) ⟨ha0, ha1⟩ ⟨hb0, hb1⟩ ⟨hc0, hc1⟩
    (fun i' j' k' x y z => (hm i' j' k' x y z).2)
  constructor <;> linarith

/-- a node as the corner of a cell -/
theorem node_corner (A : Axis) {i : Nat} (h : i < A.n) : ∃ i' e : Nat, i' + 1 < A.n ∧ e ≤ 1 ∧ i' + e = i ∧
    A.pt i 0 = A.pt i' e := by
  have := A.nodes
  rcases Nat.lt_or_ge (i + 1) A.n with h1 | h1
  · exact ⟨i, 0, h1, by omega, rfl, by simp⟩
  · refine ⟨i - 1, 1, by omega, by omega, by omega, ?_⟩
    unfold Axis.pt
    rw [Nat.cast_sub (by omega)]; push_cast; ring

theorem trilinear_corner (v : Nat → Nat → Nat → ℝ) (i j k e f g : Nat) (he : e ≤ 1) (hf : f ≤ 1) (hg : g ≤ 1) :
    trilinear v i j k e f g = v (i + e) (j + f) (k + g) := by
  have h : ∀ n : Nat, n ≤ 1 → n = 0 ∨ n = 1 := by intro n hn; omega
  rcases h e he with rfl | rfl <;> rcases h f hf with rfl | rfl <;> rcases h g hg with rfl | rfl <;>
    simp [trilinear, lerp]

/-- C65: at a node of the table (zenith angles whose secants are nodes, and an azimuth
difference whose supplement is one) the interpolated correction is 100 times the table value. -/
theorem C65_exact_at_nodes (interp : Interp3 XF) (hi : IsMultilinear interp) (A B C : Axis) (V : List ℝ)
    (hV : V.length = A.n * B.n * C.n) (hA : A.lo ≤ 1 ∧ 1 ≤ A.hi) (hC : C.lo ≤ 1 ∧ 1 ≤ C.hi)
    (i j k : Nat) (hi1 : i < A.n) (hj1 : j < B.n) (hk1 : k < C.n) (sun sat d : ℝ)
    (hsun : 0 ≤ sun ∧ sun < 90 ∧ secDeg sun = A.pt i 0) (hsat : 0 ≤ sat ∧ sat < 90 ∧ secDeg sat = C.pt k 0)
    (hd : 180 - d = B.pt j 0) :
    pixelValue interp A B C (finL V) (fin sun) (fin sat) (fin d) = fin (100 * cell V B.n C.n i j k) := by
  have hle : ∀ (A : Axis) (i : Nat), i < A.n → A.pt i 0 ≤ A.hi := by
    intro A i h
    exact Axis'.list_le_hi A _ (List.mem_of_getElem? (Axis'.list_get A h))
  obtain ⟨cs, e1, _, _, s1, _, _, f1, _⟩ := C62_clip A.hi hA.2 (fin sun)
  obtain ⟨ct, e2, _, _, s2, _, _, f2, _⟩ := C62_clip C.hi hC.2 (fin sat)
  have hcs := f1 sun rfl hsun.1 hsun.2.1 (by rw [hsun.2.2]; exact hle A i hi1)
  have hct := f2 sat rfl hsat.1 hsat.2.1 (by rw [hsat.2.2]; exact hle C k hk1)
  obtain ⟨i', e, a1, a2, a3, a4⟩ := node_corner A hi1
  obtain ⟨j', f, b1, b2, b3, b4⟩ := node_corner B hj1
  obtain ⟨k', g, c1, c2, c3, c4⟩ := node_corner C hk1
  unfold pixelValue
  rw [e1, e2, s1, s2, ofNat_two, fin_sub, hcs, hct, hsun.2.2, hsat.2.2, hd, a4, b4, c4]
  have u : ∀ n : Nat, n ≤ 1 → (0 : ℝ) ≤ n ∧ (n : ℝ) ≤ 1 := by
    intro n hn; exact ⟨by positivity, by exact_mod_cast hn⟩
  have := hi A B C V hV i' j' k' e f g a1 b1 c1 (u e a2).1 (u e a2).2 (u f b2).1 (u f b2).2 (u g c2).1 (u g c2).2
  unfold finL
  rw [this, trilinear_corner _ _ _ _ _ _ _ a2 b2 c2, a3, b3, c3, ofNat_two, fin_mul, mul_comm]

/-- index of the cell at position `s` (in steps) on an axis of `n` nodes -/
noncomputable def cellOf (n : Nat) (s : ℝ) : Nat := min ⌊s⌋₊ (n - 2)

theorem cellOf_lerp (F : Nat → ℝ) (n i : Nat) (a : ℝ) (hi : i + 1 < n) (h0 : 0 ≤ a) (h1 : a ≤ 1) :
    lerp ((i + a) - cellOf n (i + a)) (F (cellOf n (i + a))) (F (cellOf n (i + a) + 1)) = lerp a (F i) (F (i + 1)) := by
  rcases lt_or_eq_of_le h1 with h | h
  · have hf : ⌊(i : ℝ) + a⌋₊ = i := by
      rw [Nat.floor_eq_iff (by positivity)]; constructor <;> linarith
    have : cellOf n (i + a) = i := by unfold cellOf; rw [hf]; omega
    rw [this]; simp
  · subst h
    have hf : ⌊(i : ℝ) + 1⌋₊ = i + 1 := by
      rw [Nat.floor_eq_iff (by positivity)]; push_cast; constructor <;> linarith
    rcases Nat.lt_or_ge (i + 1) (n - 1) with h2 | h2
    · have : cellOf n (i + 1) = i + 1 := by unfold cellOf; rw [hf]; omega
      rw [this]; simp [lerp]
    · have : cellOf n (i + 1) = i := by unfold cellOf; rw [hf]; omega
      rw [this]; simp

open Classical in
/-- an interpolator meeting the contract -/
noncomputable def exInterp : Interp3 XF := fun lo hi n V p =>
  match lo, hi, p with
  | (fin l₁, fin l₂, fin l₃), (fin h₁, fin h₂, fin h₃), (fin x₁, fin x₂, fin x₃) =>
    let s₁ := (x₁ - l₁) / ((h₁ - l₁) / ((n.1 : ℝ) - 1))
    let s₂ := (x₂ - l₂) / ((h₂ - l₂) / ((n.2.1 : ℝ) - 1))
    let s₃ := (x₃ - l₃) / ((h₃ - l₃) / ((n.2.2 : ℝ) - 1))
    let W := V.map fun v => match v with | fin x => x | _ => 0
    fin (trilinear (cell W n.2.1 n.2.2) (cellOf n.1 s₁) (cellOf n.2.1 s₂) (cellOf n.2.2 s₃)
      (s₁ - cellOf n.1 s₁) (s₂ - cellOf n.2.1 s₂) (s₃ - cellOf n.2.2 s₃))
  | _, _, _ => XF.nan

theorem exInterp_multilinear : IsMultilinear exInterp := by
  intro A B C V hV i j k a b c hi hj hk ha0 ha1 hb0 hb1 hc0 hc1
  have hpos : ∀ (A : Axis) (i : Nat) (a : ℝ), (A.pt i a - A.lo) / ((A.hi - A.lo) / ((A.n : ℝ) - 1)) = i + a := by
    intro A i a
    have := Axis'.step_pos A
    unfold Axis.pt
    rw [add_sub_cancel_left, mul_div_assoc, div_self this.ne', mul_one]
  have hW : ((V.map fin).map fun v => match v with | fin x => x | _ => (0 : ℝ)) = V := by
    rw [List.map_map]
    conv_rhs => rw [← List.map_id V]
    rfl
  show fin (trilinear _ _ _ _ _ _ _) = _
  rw [fin_inj, hW, hpos, hpos, hpos]
  unfold trilinear
  rw [cellOf_lerp (fun i => lerp _ (lerp _ (cell V B.n C.n i _ _) (cell V B.n C.n i _ _))
    (lerp _ (cell V B.n C.n i _ _) (cell V B.n C.n i _ _))) A.n i a hi ha0 ha1]
  have h2 : ∀ i', lerp ((j + b) - cellOf B.n (j + b))
      (lerp ((k + c) - cellOf C.n (k + c)) (cell V B.n C.n i' (cellOf B.n (j + b)) (cellOf C.n (k + c)))
        (cell V B.n C.n i' (cellOf B.n (j + b)) (cellOf C.n (k + c) + 1)))
      (lerp ((k + c) - cellOf C.n (k + c)) (cell V B.n C.n i' (cellOf B.n (j + b) + 1) (cellOf C.n (k + c)))
        (cell V B.n C.n i' (cellOf B.n (j + b) + 1) (cellOf C.n (k + c) + 1))) =
      lerp b (lerp c (cell V B.n C.n i' j k) (cell V B.n C.n i' j (k + 1)))
        (lerp c (cell V B.n C.n i' (j + 1) k) (cell V B.n C.n i' (j + 1) (k + 1))) := by
    intro i'
    rw [cellOf_lerp (fun j => lerp _ (cell V B.n C.n i' j _) (cell V B.n C.n i' j _)) B.n j b hj hb0 hb1,
      cellOf_lerp (fun k => cell V B.n C.n i' j k) C.n k c hk hc0 hc1,
      cellOf_lerp (fun k => cell V B.n C.n i' (j + 1) k) C.n k c hk hc0 hc1]
  rw [h2, h2]

/-- the axes of the example table -/
noncomputable def exSun : Axis := ⟨1, 2, 2, by norm_num, by norm_num⟩
noncomputable def exAzi : Axis := ⟨0, 180, 2, by norm_num, by norm_num⟩
noncomputable def exSat : Axis := ⟨1, 3, 2, by norm_num, by norm_num⟩

theorem exLut_regular : RegularLut exLut exSun exAzi exSat := by
  have h : ∀ A : Axis, A.n = 2 → A.list = [A.lo, A.hi] := by
    intro A hA
    unfold Axis.list Axis.pt
    rw [hA]; simp [List.range_succ]; norm_num
  refine ⟨?_, ?_, ?_, ?_, ?_⟩
  · rw [h _ rfl]; rfl
  · rw [h _ rfl]; rfl
  · rw [h _ rfl]; rfl
  · exact ⟨le_refl _, by norm_num [exSun]⟩
  · exact ⟨le_refl _, by norm_num [exSat]⟩

example : ∃ v, pixelValue exInterp exSun exAzi exSat (finL [0, 1, 2, 3, 4, 5, 6, 7]) XF.nan (fin 120) (fin 30) = fin v ∧
    0 ≤ v ∧ v ≤ 700 := by
  obtain ⟨i, j, k, hi, hj, hk, v, hv, _, _, _, hb⟩ := C65_within_cell exInterp exInterp_multilinear exSun exAzi exSat
    [0, 1, 2, 3, 4, 5, 6, 7] rfl exLut_regular.sunRange exLut_regular.satRange XF.nan (fin 120) 30
    (by norm_num [exAzi])
  refine ⟨v, hv, ?_⟩
  have := hb 0 7 (by
    intro i' j' k' h1 h2 h3
    have e1 : i = 0 := by have : i + 1 < 2 := hi; omega
    have e2 : j = 0 := by have : j + 1 < 2 := hj; omega
    have e3 : k = 0 := by have : k + 1 < 2 := hk; omega
    subst e1 e2 e3
    have u : ∀ n : Nat, n ≤ 1 → n = 0 ∨ n = 1 := by intro n hn; omega
    rcases u i' h1 with rfl | rfl <;> rcases u j' h2 with rfl | rfl <;> rcases u k' h3 with rfl | rfl <;>
      norm_num [cell, exAzi, exSat])
  constructor <;> linarith [this.1, this.2]

example : pixelValue exInterp exSun exAzi exSat (finL [0, 1, 2, 3, 4, 5, 6, 7]) (fin 60) (fin 0) (fin 180) = fin 400 := by
  have h := C65_exact_at_nodes exInterp exInterp_multilinear exSun exAzi exSat
    [0, 1, 2, 3, 4, 5, 6, 7] rfl exLut_regular.sunRange exLut_regular.satRange 1 0 0 (by decide) (by decide) (by decide)
    60 0 180 ⟨by norm_num, by norm_num, by
      unfold secDeg
      have e : (60 : ℝ) * (Real.pi / 180) = Real.pi / 3 := by ring
      rw [e, Real.cos_pi_div_three]; simp [Axis.pt, exSun]; norm_num⟩
    ⟨by norm_num, by norm_num, by simp [secDeg, Axis.pt, exSat]⟩ (by simp [Axis.pt, exAzi])
  rw [h]; simp [cell, exAzi, exSat]; norm_num

/-! ### C69 -/

/-- C69: the effective wavelength of a band with positive increasing wavelengths and
non-negative response lies inside the band and is at most the central wavelength. -/
theorem C69_effective_wavelength (r : Reader XF) (name : String) (band : BandRsr XF) (det : DetRsr XF) (c : Curve)
    (hb : rsrDictGetItem r.instrument r.rsr name = .ok band) (hd : band.get? "det-1" = some det)
    (hw : det.get? "wavelength" = some (.arr (finL (c.map Prod.fst))))
    (hr : det.get? "response" = some (.arr (finL (c.map Prod.snd))))
    (hpos : ∀ p ∈ c, 0 < p.1 ∧ 0 ≤ p.2) (hinc : Increasing (c.map Prod.fst))
    (hint : trap (c.map Prod.fst) (c.map Prod.snd) ≠ 0) (lo hi : ℝ)
    (hlo : (c.map Prod.fst).head? = some lo) (hhi : (c.map Prod.fst).getLast? = some hi) :
    ∃ e central, effectiveOf r name = .ok (fin e) ∧
      getCentralWave (finL (c.map Prod.fst)) (finL (c.map Prod.snd)) = .ok (fin central) ∧
      lo ≤ e ∧ e ≤ central ∧ central ≤ hi := by
  have hnd : NonDec (c.map Prod.fst) := Increasing.nonDec hinc
  have hends := increasing_ends hinc lo hi hlo hhi
  have hmem : ∀ p ∈ c, lo ≤ p.1 ∧ p.1 ≤ hi := fun p hp => hends _ (List.mem_map.2 ⟨p, hp, rfl⟩)
  have hR : ∀ p ∈ c, 0 ≤ p.2 := fun p hp => (hpos p hp).2
  set X := fun p : ℝ × ℝ => p.1 with hX
  have I0 : 0 < trap (c.map Prod.fst) (c.map Prod.snd) :=
    lt_of_le_of_ne (trap_nonneg Prod.fst Prod.snd c hnd hR) (Ne.symm hint)
  -- the weighted integral is positive too
  have hhi0 : c ≠ [] := by rintro rfl; simp at hlo
  obtain ⟨p0, hp0⟩ := List.exists_mem_of_ne_nil c hhi0
  have hhipos : 0 < hi := lt_of_lt_of_le (hpos p0 hp0).1 (hmem p0 hp0).2
  have hD : 0 < trap (c.map Prod.fst) (c.map fun p => p.2 * (1 / p.1 ^ 4)) := by
    have h1 := trap_mono Prod.fst (fun p : ℝ × ℝ => (1 / hi ^ 4) * p.2) (fun p => p.2 * (1 / p.1 ^ 4)) c hnd (by
      intro p hp
      rw [mul_comm]
      apply mul_le_mul_of_nonneg_left _ (hR p hp)
      have := (hpos p hp).1
      exact one_div_le_one_div_of_le (by positivity) (pow_le_pow_left₀ this.le (hmem p hp).2 4))
    rw [trap_smul] at h1
    have : 0 < 1 / hi ^ 4 := by positivity
    nlinarith [mul_pos this I0]
  have hweights : (finL (c.map Prod.fst)).map (fun w => (1.0 : XF) / powNat w 4) =
      finL (c.map fun p => 1 / p.1 ^ 4) := by
    unfold finL
    rw [List.map_map, List.map_map, List.map_map]
    apply List.map_congr_left
    intro p hp
    have := (hpos p hp).1
    simp only [Function.comp, powNat_fin, ofSci_eq]
    rw [fin_div _ (by positivity)]; norm_num
  have htr := getCentralWave_triples (c.map fun p => (p.1, p.2, 1 / p.1 ^ 4))
  simp only [List.map_map, Function.comp_def] at htr
  have hnum : cwNum (c.map fun p => (p.1, p.2, 1 / p.1 ^ 4)) = trap (c.map Prod.fst) (c.map fun p => p.2 * (p.1 * (1 / p.1 ^ 4))) := by
    unfold cwNum
    simp only [List.map_map, Function.comp_def]
    apply trap_congr Prod.fst; intro p _; ring
  have hden : cwDen (c.map fun p => (p.1, p.2, 1 / p.1 ^ 4)) = trap (c.map Prod.fst) (c.map fun p => p.2 * (1 / p.1 ^ 4)) := by
    unfold cwDen
    simp only [List.map_map, Function.comp_def]
  rw [hnum, hden, fin_div _ hD.ne'] at htr
  have hdef := getCentralWave_default (w := c.map Prod.fst) (r := c.map Prod.snd) (by simp)
  rw [zipWith_map_map, fin_div _ hint] at hdef
  have ga : ∀ k xs, det.get? k = some (.arr xs) → getArr det k = .ok xs := by
    intro k xs hk
    unfold getArr
    rw [getItem_ok_iff.2 hk]; rfl
  refine ⟨trap (c.map Prod.fst) (c.map fun p => p.2 * (p.1 * (1 / p.1 ^ 4))) /
      trap (c.map Prod.fst) (c.map fun p => p.2 * (1 / p.1 ^ 4)), _, ?_, hdef, ?_, ?_, ?_⟩
  · unfold effectiveOf
    rw [hb]
    simp only [bind, Except.bind]
    rw [getItem_ok_iff.2 hd]
    simp only
    rw [ga _ _ hw, ga _ _ hr]
    simp only
    rw [hweights]
    exact htr
  · rw [le_div_iff₀ hD]
    have h1 := trap_mono Prod.fst (fun p : ℝ × ℝ => lo * (p.2 * (1 / p.1 ^ 4))) (fun p => p.2 * (p.1 * (1 / p.1 ^ 4))) c hnd (by
      intro p hp
      have h0 := (hpos p hp).1
      have h2 : 0 ≤ p.2 * (1 / p.1 ^ 4) := mul_nonneg (hR p hp) (by positivity)
      have := mul_le_mul_of_nonneg_right (hmem p hp).1 h2
      calc lo * (p.2 * (1 / p.1 ^ 4)) ≤ p.1 * (p.2 * (1 / p.1 ^ 4)) := this
        _ = _ := by ring)
    rw [trap_smul] at h1
    exact h1
  · rw [div_le_div_iff₀ hD I0]
    have := trap_chebyshev Prod.fst Prod.snd Prod.fst (fun p : ℝ × ℝ => 1 / p.1 ^ 4) c hnd hR (by
      intro p hp q hq
      have hp' := (hpos p hp).1
      have hq' := (hpos q hq).1
      rcases le_total p.1 q.1 with h | h
      · have : 1 / q.1 ^ 4 ≤ 1 / p.1 ^ 4 :=
          one_div_le_one_div_of_le (by positivity) (pow_le_pow_left₀ hp'.le h 4)
        exact mul_nonpos_of_nonpos_of_nonneg (by linarith) (by linarith)
      · have : 1 / p.1 ^ 4 ≤ 1 / q.1 ^ 4 :=
          one_div_le_one_div_of_le (by positivity) (pow_le_pow_left₀ hq'.le h 4)
        exact mul_nonpos_of_nonneg_of_nonpos (by linarith) (by linarith))
    have e : (c.map fun i => i.2 * i.1) = c.map fun i => i.1 * i.2 := by
      apply List.map_congr_left; intro p _; ring
    rw [e] at this
    linarith
  · rw [div_le_iff₀ I0]
    have h1 := trap_mono Prod.fst (fun p : ℝ × ℝ => p.1 * p.2) (fun p => hi * p.2) c hnd (by
      intro p hp
      exact mul_le_mul_of_nonneg_right (hmem p hp).2 (hR p hp))
    rw [trap_smul] at h1
    exact h1

/-- a response with one band -/
noncomputable def exBandReader : Reader XF where
  filename := ("/data", "rsr_x.h5")
  platform_name := some "NOAA-20"
  instrument := .str "viirs"
  unit := "1e-6 m"
  si_scale := fin 1e-6
  wavespace := "wavelength"
  description := "d"
  band_names := ["M4"]
  rsr := [("M4", [("det-1", [("wavelength", .arr (finL [0.5, 0.6, 0.7])), ("response", .arr (finL [0, 1, 1]))])])]

example : ∃ e central, effectiveOf exBandReader "M4" = .ok (fin e) ∧
    getCentralWave (finL [0.5, 0.6, 0.7]) (finL [0, 1, 1]) = .ok (fin central) ∧ 0.5 ≤ e ∧ e ≤ central ∧ central ≤ 0.7 :=
  C69_effective_wavelength exBandReader "M4" _ _ [(0.5, 0), (0.6, 1), (0.7, 1)] rfl rfl rfl rfl
    (by intro p hp; simp at hp; rcases hp with rfl | rfl | rfl <;> norm_num)
    (by simp [Increasing]; norm_num) (by simp [trap]; norm_num) 0.5 0.7 rfl rfl

/-- C69: a number is taken as the wavelength in micrometer; nothing is read.  The result is in
nanometer in both cases. -/
theorem C69_nanometer (env : Env) (h5open : Content → Option (H5File XF)) (r : RayleighObj) :
    (∀ (x : ℝ) w, effectiveWavelength env h5open r (.wavelength (fin x)) w = (.ok (fin (x * 1000)), w, [])) ∧
    (∀ (s : String) (e : ℝ) w w' t, rsrWavelengthFromBandName env h5open r.platform_name r.sensor s w = (.ok (fin e), w', t) →
      effectiveWavelength env h5open r (.name s) w = (.ok (fin (e * 1000)), w', t)) := by
  have hm : ∀ x : ℝ, fin x * (1000.0 : XF) = fin (x * 1000) := by
    intro x; rw [ofSci_eq, fin_mul]; norm_num
  constructor
  · intro x w
    rw [← hm]; rfl
  · intro s e w w' t h
    unfold effectiveWavelength
    simp only
    rw [eff_bind_ok h, hm]
    simp [eff_pure]

end Verif.Props
