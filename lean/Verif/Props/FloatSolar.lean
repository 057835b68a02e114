import Verif.Props.FloatGrid
/-
C170: the in-band solar flux in floating point.
-/
namespace Verif.Props
open Model Spec Lemmas PyNum XF
variable {F : FP}

/-- an in-band call in floating point on a band from `a` to `b`; on the samples of the spectrum and of
the response the spline functions are `gs` and `gr` -/
structure FpSolarCall (spline : Spline (RF F)) (s : Solar (RF F)) (rsr : RsrArg (RF F)) (scale : RF F) (det : Nat)
    (a b d : ℝ) (gs gr : ℝ → ℝ) : Prop where
  step : s.dlambda = RF.of d
  spectrum : ∃ x f, (if s.wavespace = "wavelength" then s.wavelength else s.wavenumber) = some x ∧
    spline x s.irradiance = .ok f ∧ ∀ t, f (RF.of t) = RF.of (gs t)
  response : ∃ c w r f, (rsr = .curve c ∨ ∃ B, rsr = .dets B ∧ B.get? ("det-" ++ toString det) = some c) ∧
    c.get? (if s.wavespace = "wavelength" then "wavelength" else "wavenumber") = some (.arr w) ∧
    c.get? "response" = some (.arr r) ∧ (w.map (· * scale)).head? = some (RF.of a) ∧
    (w.map (· * scale)).getLast? = some (RF.of b) ∧ spline (w.map (· * scale)) r = .ok f ∧
    ∀ t, f (RF.of t) = RF.of (gr t)

theorem pyIndex_first {β : Type} {l : List β} {a : β} (h : l.head? = some a) : NP.pyIndex l 0 = .ok a := by
  cases l with
  | nil => simp at h
  | cons x l => simp at h; subst h; rfl

theorem pyIndex_end {β : Type} {l : List β} {b : β} (h : l.getLast? = some b) : NP.pyIndex l (-1) = .ok b := by
  have hne : l ≠ [] := by rintro rfl; simp at h
  have hlen : 0 < l.length := List.length_pos_of_ne_nil hne
  unfold NP.pyIndex
  have e : (-1 : Int) < 0 := by decide
  simp only [e, if_true]
  rw [if_neg (by omega)]
  have : ((-1 : Int) + l.length).toNat = l.length - 1 := by omega
  rw [this, ← List.getLast?_eq_getElem?, h]

theorem bandCurve_rf {ws : String} {rsr : RsrArg (RF F)} {det : Nat} {c : DetRsr (RF F)} {w r : List (RF F)}
    (h : rsr = .curve c ∨ ∃ B, rsr = .dets B ∧ B.get? ("det-" ++ toString det) = some c)
    (hw : c.get? (if ws = "wavelength" then "wavelength" else "wavenumber") = some (.arr w))
    (hr : c.get? "response" = some (.arr r)) (scale : RF F) :
    bandCurve ws rsr scale det = .ok (w.map (· * scale), r) := by
  have ga : ∀ k xs, c.get? k = some (.arr xs) → getArr c k = .ok xs := by
    intro k xs hk
    unfold getArr
    rw [getItem_ok_iff.2 hk]; rfl
  rcases h with rfl | ⟨B, rfl, hB⟩
  · unfold bandCurve
    simp only [bind, Except.bind, pure, Except.pure]
    rw [ga _ _ hw, ga _ _ hr]
  · unfold bandCurve
    simp only [bind, Except.bind, pure, Except.pure]
    rw [getItem_ok_iff.2 hB]
    simp only
    rw [ga _ _ hw, ga _ _ hr]

/-- value and new state of an in-band call in floating point -/
theorem fp_band_values (spline : Spline (RF F)) (s : Solar (RF F)) (rsr : RsrArg (RF F)) (scale : RF F) (det : Nat)
    (a b d : ℝ) (gs gr : ℝ → ℝ) (h : FpSolarCall spline s rsr scale det a b d gs gr) (hb : SolarBandFp F a b d) :
    ∃ G : List ℝ, FpGrid G a b d ∧ Gaps G ∧ G.length ≤ 2 ^ 20 ∧ ∃ s' s'',
      Solar.inbandSolarflux spline rsr scale det s =
        (.ok (trapVal (G.map fun t => RF.of (gs t) * RF.of (gr t)) (G.map RF.of)), s') ∧
      Solar.inbandSolarirradiance spline rsr scale det s =
        (.ok (trapVal (G.map fun t => RF.of (gs t) * RF.of (gr t)) (G.map RF.of) /
          trapVal (G.map fun t => RF.of (gr t)) (G.map RF.of)), s'') ∧
      s'.ipol_wavelength = G.map RF.of ∧ s'.ipol_irradiance = G.map fun t => RF.of (gs t) := by
  obtain ⟨hd, ⟨x, fs, hx, hfs, hgs⟩, ⟨c, w, r, fr, hc, hw, hr, ha, hl, hfr, hgr⟩⟩ := h
  obtain ⟨G, hG, hgap, hlen, hgrid⟩ := fp_grid hb
  refine ⟨G, hG, hgap, hlen, ?_⟩
  have hband : bandResampled spline s.wavespace s.dlambda rsr scale det =
      .ok ((RF.of a, RF.of b), G.map fun t => RF.of (gr t)) := by
    unfold bandResampled
    rw [bandCurve_rf hc hw hr]
    simp only [bind, Except.bind]
    have e1 : NP.pyIndex (w.map (· * scale)) 0 = .ok (RF.of a) := pyIndex_first ha
    have e2 : NP.pyIndex (w.map (· * scale)) (-1) = .ok (RF.of b) := pyIndex_end hl
    rw [e1]
    simp only
    rw [e2]
    simp only
    rw [hd, hgrid]
    simp only
    rw [hfr]
    simp only [List.map_map]
    congr 2
    exact List.map_congr_left fun t _ => hgr t
  have hsol : solarResampled spline s (some (RF.of a, RF.of b)) =
      .ok (G.map RF.of, G.map fun t => RF.of (gs t)) := by
    unfold solarResampled
    have hax : s.axis = some x := hx
    simp only [solarInterval, bind, Except.bind, hd, hgrid, hax, splineAxis, hfs]
    simp only [List.map_map]
    congr 2
    exact List.map_congr_left fun t _ => hgs t
  have hin : ((G.map RF.of : List (RF F)).zip (G.map fun t => (RF.of (gs t) : RF F))).filter
      (fun p => ge p.1 (RF.of a) && le p.1 (RF.of b)) = (G.map RF.of).zip (G.map fun t => (RF.of (gs t) : RF F)) := by
    rw [List.filter_eq_self]
    intro p hp
    obtain ⟨t, ht, he⟩ := List.mem_map.1 (List.of_mem_zip hp).1
    obtain ⟨h1, h2⟩ := hG.2.2.2.1 t ht
    rw [← he]
    have q1 : ge (RF.of t : RF F) (RF.of a) = true := decide_eq_true h1
    have q2 : le (RF.of t : RF F) (RF.of b) = true := decide_eq_true h2
    rw [q1, q2]; rfl
  have hlen : (G.map RF.of : List (RF F)).length = (G.map fun t => (RF.of (gs t) : RF F)).length := by simp
  have hprod : NP.bcast2 (α := RF F) (· * ·) (G.map fun t => RF.of (gs t)) (G.map fun t => RF.of (gr t)) =
      .ok (G.map fun t => RF.of (gs t) * RF.of (gr t)) := by
    rw [bcast2_eq_len _ _ _ (by simp)]
    congr 1
    simp [List.zipWith_map, List.zipWith_self]
  have hfold : ∀ flux, foldBand flux (RF.of a, RF.of b) (G.map RF.of) (G.map fun t => RF.of (gs t))
      (G.map fun t => RF.of (gr t)) =
      .ok (if flux then trapVal (α := RF F) (G.map fun t => RF.of (gs t) * RF.of (gr t)) (G.map RF.of)
        else trapVal (G.map fun t => RF.of (gs t) * RF.of (gr t)) (G.map RF.of) /
          trapVal (G.map fun t => RF.of (gr t)) (G.map RF.of)) := by
    intro flux
    unfold foldBand
    simp only
    rw [hin, List.map_fst_zip hlen.le, List.map_snd_zip hlen.ge, hprod]
    simp only [bind, Except.bind]
    rw [trapezoid_val _ _ (by simp)]
    simp only
    rw [trapezoid_val _ _ (by simp)]
    cases flux <;> rfl
  have hval : ∀ flux, bandValue spline s rsr flux scale det =
      .ok (if flux then trapVal (α := RF F) (G.map fun t => RF.of (gs t) * RF.of (gr t)) (G.map RF.of)
        else trapVal (G.map fun t => RF.of (gs t) * RF.of (gr t)) (G.map RF.of) /
          trapVal (G.map fun t => RF.of (gr t)) (G.map RF.of)) := by
    intro flux
    unfold bandValue
    rw [hband]
    simp only [bind, Except.bind]
    rw [hsol]
    exact hfold flux
  obtain ⟨s', h1, _, _, h4⟩ := bandCalculations_run spline s rsr true scale det
  obtain ⟨s'', h1', _, _, _⟩ := bandCalculations_run spline s rsr false scale det
  rw [hval] at h1 h1'
  obtain ⟨e1, e2⟩ := h4 _ _ hband hsol
  exact ⟨s', s'', h1, h1', e1, e2⟩

/-- C170: in floating point too, the response and the solar spectrum are resampled on one common
grid, from the first to the last abscissa of the response; rounding moves no point of it outside the
band, so the mask drops nothing and the arrays match: the in-band flux and irradiance are computed,
whatever the spline functions return. -/
theorem C170_common_grid (F : FP) (spline : Spline (RF F)) (s : Solar (RF F)) (rsr : RsrArg (RF F)) (scale : RF F)
    (det : Nat) (a b d : ℝ) (gs gr : ℝ → ℝ) (h : FpSolarCall spline s rsr scale det a b d gs gr)
    (hb : SolarBandFp F a b d) :
    ∃ G : List ℝ, FpGrid G a b d ∧ ∃ v w s' s'',
      Solar.inbandSolarflux spline rsr scale det s = (.ok v, s') ∧
      Solar.inbandSolarirradiance spline rsr scale det s = (.ok w, s'') ∧
      NP.trapezoid (G.map fun t => RF.of (gs t) * RF.of (gr t)) (G.map RF.of) = .ok v ∧
      s'.ipol_wavelength = G.map RF.of ∧ s'.ipol_irradiance = G.map fun t => RF.of (gs t) := by
  obtain ⟨G, hG, _, _, s', s'', h1, h2, h3, h4⟩ := fp_band_values spline s rsr scale det a b d gs gr h hb
  exact ⟨G, hG, _, _, s', s'', h1, h2, trapezoid_val _ _ (by simp), h3, h4⟩

theorem near0_abs {δ : ℝ} {a : XF} {x : ℝ} (h : Near0 δ a x) (h0 : 0 ≤ δ) (h1 : δ ≤ 0.1) :
    ∃ y, a = fin y ∧ |y - x| ≤ x * (2 * δ) := by
  rcases h with ⟨rfl, rfl⟩ | h
  · exact ⟨0, rfl, by simp⟩
  · exact near_abs h h0 h1

/-- the values the spline functions may take: nothing, or of moderate size -/
def Moderate (a b : ℝ) (g : ℝ → ℝ) : Prop := ∀ t, a ≤ t → t ≤ b → g t = 0 ∨ (1e-50 ≤ g t ∧ g t ≤ 1e20)

theorem fp_product {x y : ℝ} (hx : x = 0 ∨ (1e-50 ≤ x ∧ x ≤ 1e20)) (hy : y = 0 ∨ (1e-50 ≤ y ∧ y ≤ 1e20)) :
    In0 1e-170 1e50 (x * y) ∧ Near0 uu (RF.of x * RF.of y : RF F) (x * y) := by
  have hz : x * y = 0 → In0 1e-170 1e50 (x * y) ∧ Near0 uu (RF.of x * RF.of y : RF F) (x * y) := by
    intro e
    refine ⟨Or.inl e, Or.inl ⟨e, ?_⟩⟩
    show F.rnd (x * y) = _
    rw [e]; exact rnd_zero F
  rcases hx with rfl | ⟨h1, h2⟩
  · exact hz (by simp)
  rcases hy with rfl | ⟨h3, h4⟩
  · exact hz (by simp)
  have p1 : (1e-50 : ℝ) * 1e-50 ≤ x * y := mul_le_mul h1 h3 (by norm_num) (le_trans (by norm_num) h1)
  have p2 : x * y ≤ 1e20 * 1e20 := mul_le_mul h2 h4 (le_trans (by norm_num) h3) (by norm_num)
  refine ⟨Or.inr ⟨le_trans (by norm_num) p1, le_trans p2 (by norm_num)⟩, Or.inr ?_⟩
  exact near_rnd F (le_trans (by norm_num) p1) (le_trans p2 (by norm_num))

/-- the range of an integral whose samples are nothing or of moderate size -/
theorem trap_range {l u : ℝ} (l0 : 0 < l) (lu : l ≤ u) (f : ℝ → ℝ) : ∀ w : List ℝ, Gaps w → (∀ x ∈ w, In0 l u (f x)) →
    0 ≤ trap w (w.map f) ∧ (trap w (w.map f) = 0 ∨ 1e-20 * l / 2 ≤ trap w (w.map f)) ∧
      trap w (w.map f) ≤ w.length * (1e9 * u)
  | [], _, _ => by simp [trap]
  | [a], _, _ => by
    have : 0 ≤ 1e9 * u := by norm_num; linarith
    simpa [trap] using this
  | a :: b :: w, hg, hv => by
    obtain ⟨i0, i1, i2⟩ := trap_range l0 lu f (b :: w) hg.2 fun x hx => hv x (List.mem_cons_of_mem _ hx)
    obtain ⟨⟨g1, g2⟩, _⟩ := hg
    have e : trap (a :: b :: w) ((a :: b :: w).map f) = (b - a) * ((f a + f b) / 2) + trap (b :: w) ((b :: w).map f) := rfl
    have nn : ∀ x, In0 l u x → 0 ≤ x ∧ x ≤ u ∧ (x = 0 ∨ l ≤ x) := by
      rintro x (rfl | ⟨h1, h2⟩)
      · exact ⟨le_rfl, by linarith, Or.inl rfl⟩
      · exact ⟨by linarith, h2, Or.inr h1⟩
    obtain ⟨p1, p2, p3⟩ := nn _ (hv a (by simp))
    obtain ⟨q1, q2, q3⟩ := nn _ (hv b (by simp))
    have g0 : 0 ≤ b - a := le_trans (by norm_num) g1
    have t0 : 0 ≤ (b - a) * ((f a + f b) / 2) := mul_nonneg g0 (by linarith)
    have t1 : (b - a) * ((f a + f b) / 2) ≤ 1e9 * u := mul_le_mul g2 (by linarith) (by linarith) (by norm_num)
    have t2 : f a = 0 ∧ f b = 0 ∨ 1e-20 * l / 2 ≤ (b - a) * ((f a + f b) / 2) := by
      by_cases hz : f a = 0 ∧ f b = 0
      · exact Or.inl hz
      · right
        have : l / 2 ≤ (f a + f b) / 2 := by
          rcases p3 with p3 | p3 <;> rcases q3 with q3 | q3
          · exact absurd ⟨p3, q3⟩ hz
          all_goals linarith
        have := mul_le_mul g1 this (by linarith) g0
        linarith
    rw [e]
    refine ⟨by linarith, ?_, ?_⟩
    · rcases t2 with ⟨z1, z2⟩ | t2
      · rw [z1, z2]; simpa using i1
      · right; linarith
    · simp only [List.length_cons] at i2 ⊢
      push_cast at i2 ⊢
      linarith

/-- C170: the computed flux differs from the trapezoid integral of the product over the grid by at
most the fraction `(5 + 2 N)/2^50`, `N` the number of grid points, and the irradiance from the exact
quotient by at most `(10 + 4 N)/2^50`, where the splines take no negative values. -/
theorem C170_flux_accuracy (F : FP) (spline : Spline (RF F)) (s : Solar (RF F)) (rsr : RsrArg (RF F)) (scale : RF F)
    (det : Nat) (a b d : ℝ) (gs gr : ℝ → ℝ) (h : FpSolarCall spline s rsr scale det a b d gs gr)
    (hb : SolarBandFp F a b d) (hs : Moderate a b gs) (hr : Moderate a b gr) :
    ∃ G : List ℝ, FpGrid G a b d ∧ ∃ (v : ℝ) (s' : Solar (RF F)),
      Solar.inbandSolarflux spline rsr scale det s = (.ok (RF.of v), s') ∧
      |v - trap G (G.map fun t => gs t * gr t)| ≤ trap G (G.map fun t => gs t * gr t) * ((5 + 2 * G.length) / 2 ^ 50) ∧
      (0 < trap G (G.map gr) → ∃ (w : ℝ) (s'' : Solar (RF F)),
        Solar.inbandSolarirradiance spline rsr scale det s = (.ok (RF.of w), s'') ∧
        |w - trap G (G.map fun t => gs t * gr t) / trap G (G.map gr)| ≤
          trap G (G.map fun t => gs t * gr t) / trap G (G.map gr) * ((10 + 4 * G.length) / 2 ^ 50)) := by
  obtain ⟨G, hG, hgap, hlen, s', s'', h1, h2, _, _⟩ := fp_band_values spline s rsr scale det a b d gs gr h hb
  have hin := hG.2.2.2.1
  have hu := uu_small
  have hu0 := uu_pos
  norm_num at hu
  have hl : (G.length : ℝ) ≤ 1048576 := by exact_mod_cast hlen
  have hl0 : (0 : ℝ) ≤ G.length := Nat.cast_nonneg _
  have hNu : (G.length : ℝ) * uu ≤ 1048576 * uu := mul_le_mul_of_nonneg_right hl hu0.le
  have hN0 : 0 ≤ (G.length : ℝ) * uu := by positivity
  have f1 : List.Forall₂ (fun (x : RF F) (y : ℝ) => In0 1e-170 1e50 y ∧ Near0 uu x y)
      (G.map fun t => RF.of (gs t) * RF.of (gr t)) (G.map fun t => gs t * gr t) := by
    rw [List.forall₂_map_left_iff, List.forall₂_map_right_iff, List.forall₂_same]
    intro t ht
    exact fp_product (hs t (hin t ht).1 (hin t ht).2) (hr t (hin t ht).1 (hin t ht).2)
  have f2 : List.Forall₂ (fun (x : RF F) (y : ℝ) => In0 1e-170 1e50 y ∧ Near0 0 x y)
      (G.map fun t => RF.of (gr t)) (G.map gr) := by
    rw [List.forall₂_map_left_iff, List.forall₂_map_right_iff, List.forall₂_same]
    intro t ht
    rcases hr t (hin t ht).1 (hin t ht).2 with e | ⟨e1, e2⟩
    · rw [e]; exact ⟨Or.inl rfl, Or.inl ⟨rfl, rfl⟩⟩
    · exact ⟨Or.inr ⟨le_trans (by norm_num) e1, le_trans e2 (by norm_num)⟩,
        Or.inr (near_refl (lt_of_lt_of_le (by norm_num) e1))⟩
  obtain ⟨n1, i1⟩ := trapVal_near F hu0.le (by linarith) hgap f1 hlen
  obtain ⟨n2, i2⟩ := trapVal_near F le_rfl (by norm_num) hgap f2 hlen
  obtain ⟨v, ev, hv⟩ := near0_abs n1 (by nlinarith) (by norm_num; linarith)
  refine ⟨G, hG, v, s', by rw [h1, ev]; rfl, ?_, ?_⟩
  · refine hv.trans (le_of_eq ?_)
    unfold uu; ring
  · intro hpos
    rcases n2 with ⟨e, _⟩ | n2
    · exact absurd e hpos.ne'
    have hq : Near0 ((10 + 4 * G.length) * uu)
        (trapVal (G.map fun t => RF.of (gs t) * RF.of (gr t)) (G.map RF.of) /
          trapVal (G.map fun t => RF.of (gr t)) (G.map RF.of) : RF F)
        (trap G (G.map fun t => gs t * gr t) / trap G (G.map gr)) := by
      rcases n1 with ⟨e1, e2⟩ | n1
      · left
        refine ⟨by rw [e1, zero_div], ?_⟩
        obtain ⟨q, eq, hq⟩ := n2.pos
        have e2' : trapVal (α := RF F) (G.map fun t => RF.of (gs t) * RF.of (gr t)) (G.map RF.of) = fin 0 := e2
        have eq' : trapVal (α := RF F) (G.map fun t => RF.of (gr t)) (G.map RF.of) = fin q := eq
        rw [e2', eq']
        show F.rd (XF.div (fin 0) (fin q)) = _
        have : XF.div (fin 0) (fin q) = fin (0 / q) := fin_div _ hq.ne'
        rw [this, zero_div]; exact rnd_zero F
      · right
        have r1 : 0 < trap G (G.map fun t => gs t * gr t) := n1.1
        have c1 := trap_range (l := 1e-100) (u := 1e40) (by norm_num) (by norm_num) (fun t => gs t * gr t) G hgap (by
          intro t ht
          rcases hs t (hin t ht).1 (hin t ht).2 with e | ⟨h1, h2⟩
          · left; rw [e, zero_mul]
          rcases hr t (hin t ht).1 (hin t ht).2 with e | ⟨h3, h4⟩
          · left; rw [e, mul_zero]
          right
          have p1 : (1e-50 : ℝ) * 1e-50 ≤ gs t * gr t := mul_le_mul h1 h3 (by norm_num) (le_trans (by norm_num) h1)
          have p2 : gs t * gr t ≤ 1e20 * 1e20 := mul_le_mul h2 h4 (le_trans (by norm_num) h3) (by norm_num)
          exact ⟨le_trans (by norm_num) p1, le_trans p2 (by norm_num)⟩)
        have c2 := trap_range (l := 1e-50) (u := 1e20) (by norm_num) (by norm_num) gr G hgap
          (fun t ht => hr t (hin t ht).1 (hin t ht).2)
        obtain ⟨_, c1, c1'⟩ := c1
        obtain ⟨_, c2, c2'⟩ := c2
        replace c1 := c1.resolve_left r1.ne'
        replace c2 := c2.resolve_left hpos.ne'
        have c1'' : trap G (G.map fun t => gs t * gr t) ≤ 1048576 * (1e9 * 1e40) :=
          c1'.trans (mul_le_mul_of_nonneg_right hl (by norm_num))
        have c2'' : trap G (G.map gr) ≤ 1048576 * (1e9 * 1e20) := c2'.trans (mul_le_mul_of_nonneg_right hl (by norm_num))
        refine (near_div F n1 n2 (by linarith) ?_ ?_).mono (by linarith)
        · rw [le_div_iff₀ hpos]
          refine le_trans (mul_le_mul_of_nonneg_left c2'' (by norm_num)) (le_trans (by norm_num) c1)
        · rw [div_le_iff₀ hpos]
          refine c1''.trans (le_trans ?_ (mul_le_mul_of_nonneg_left c2 (by norm_num)))
          norm_num
    obtain ⟨w, ew, hw⟩ := near0_abs hq (by positivity) (by norm_num; linarith)
    refine ⟨w, s'', by rw [h2, ew]; rfl, hw.trans (le_of_eq ?_)⟩
    unfold uu; ring

/-- a band from 1 to 3 micron with step 0.5 -/
theorem exSolarBand : SolarBandFp F 1 3 0.5 where
  fa := float_one
  fb := by have := float_nat (F := F) 3 (by norm_num); simpa using this
  low := by norm_num
  high := by norm_num
  step := by norm_num
  wide := by norm_num
  many := by norm_num

/-- spline functions: the constants 2 (for the spectrum) and 1 (for the response) -/
noncomputable def exSpline2 : Spline (RF Double.fp) := fun x _ => .ok fun _ => match x with
  | [_, _, _] => RF.of 2
  | _ => RF.of 1

noncomputable def exSunFp : Solar (RF Double.fp) where
  wavespace := "wavelength"
  wavelength := some [RF.of 0, RF.of 2, RF.of 4]
  wavenumber := none
  irradiance := [RF.of 2, RF.of 2, RF.of 2]
  dlambda := RF.of 0.5
  irradianceUnit := "W/m2/micron"
  ipol_wavelength := []
  ipol_irradiance := []

noncomputable def exResp : RsrArg (RF Double.fp) :=
  .curve [("wavelength", .arr [RF.of 1, RF.of 3]), ("response", .arr [RF.of 1, RF.of 1])]

theorem exSolarCall : FpSolarCall exSpline2 exSunFp exResp (RF.of 1) 1 1 3 0.5 (fun _ => 2) (fun _ => 1) where
  step := rfl
  spectrum := ⟨_, _, rfl, rfl, fun _ => rfl⟩
  response := by
    have e1 : (RF.of 1 * RF.of 1 : RF Double.fp) = RF.of 1 := by
      show Double.fp.rnd (1 * 1) = _
      rw [one_mul]; exact rnd_one _
    have e3 : (RF.of 3 * RF.of 1 : RF Double.fp) = RF.of 3 := by
      show Double.fp.rnd (3 * 1) = _
      rw [mul_one]; exact (exSolarBand (F := Double.fp)).fb
    refine ⟨_, _, _, _, Or.inl rfl, rfl, rfl, ?_, ?_, rfl, fun _ => rfl⟩
    · simp [e1]
    · simp [e3]

example : ∃ G : List ℝ, FpGrid G 1 3 0.5 ∧ ∃ (v : ℝ) (s' : Solar (RF Double.fp)),
    Solar.inbandSolarflux exSpline2 exResp (RF.of 1) 1 exSunFp = (.ok (RF.of v), s') ∧
    |v - trap G (G.map fun _ => 2 * 1)| ≤ trap G (G.map fun _ => 2 * 1) * ((5 + 2 * G.length) / 2 ^ 50) := by
  obtain ⟨G, hG, v, s', h1, h2, _⟩ := C170_flux_accuracy Double.fp _ _ _ _ _ _ _ _ _ _ exSolarCall exSolarBand
    (fun t _ _ => Or.inr (by norm_num)) (fun t _ _ => Or.inr (by norm_num))
  exact ⟨G, hG, v, s', h1, h2⟩

end Verif.Props
