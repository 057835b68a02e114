import Verif.Lemmas.Solar
import Verif.Lemmas.CentralWave
import Verif.Props.Rsr
import Mathlib.Analysis.Calculus.Deriv.Inv
/-
Properties C52-C58: the solar irradiance spectrum.
-/
namespace Verif.Props
open XF Model PyNum Lemmas Spec

/-! ### C52 -/

/-- C52: in wavenumber space the sample (w, E) of the file has become the sample
(1e4/w, E*w^2/10), in reverse order, and there are no wavelengths any more. -/
theorem C52_wavenumber_spectrum (c : Curve) (hpos : ∀ p ∈ c, 0 < p.1) (dl : Option XF) :
    ∃ s, solarNew (.ok (finL (c.map Prod.fst), finL (c.map Prod.snd))) (some "wavenumber") dl = .ok s ∧
      s.wavenumber = some (finL ((c.map fun p => 1e4 / p.1).reverse)) ∧
      s.irradiance = finL ((c.map fun p => p.2 * p.1 ^ 2 / 10).reverse) ∧
      s.wavelength = none ∧ s.irradianceUnit = "mW/m^2 (cm^{-1})^{-1}" ∧ s.wavespace = "wavenumber" := by
  have e1 : (finL (c.map Prod.snd)).reverse = finL (c.reverse.map Prod.snd) := by
    rw [List.map_reverse, finL_reverse]
  have e2 : (finL (c.map Prod.fst)).reverse = finL (c.reverse.map Prod.fst) := by
    rw [List.map_reverse, finL_reverse]
  unfold solarNew
  simp only [bind, Except.bind, Option.getD_some, if_true, Solar.convert2wavenumber, notNone]
  rw [e1, e2, bcast2_fin_mul _ _ (by simp), zipWith_map_map]
  simp only
  rw [bcast2_fin_mul _ _ (by simp), zipWith_map_map]
  refine ⟨_, rfl, ?_, ?_, rfl, rfl, rfl⟩
  · show some _ = some _
    congr 1
    simp only [finL, List.map_map, ← List.map_reverse]
    apply List.map_congr_left
    intro p hp
    exact wn_of_fin (hpos p (by simpa using hp))
  · show List.map _ _ = _
    simp only [finL, List.map_map, ← List.map_reverse]
    apply List.map_congr_left
    intro p hp
    simp only [Function.comp, ofSci_eq, fin_mul, fin_inj]
    norm_num; ring

/-- C52: pointwise energy conservation, with the derivative of wavenumber by wavelength: the
irradiance per wavenumber (in milliwatt) times |d wavenumber / d wavelength| is the irradiance
per wavelength. -/
theorem C52_energy (E w : ℝ) (hw : 0 < w) :
    E * w ^ 2 / 10 * |deriv (fun x : ℝ => 1e4 / x) w| = 1000 * E := by
  have hd : HasDerivAt (fun x : ℝ => 1e4 / x) (1e4 * (-(w ^ 2)⁻¹)) w := by
    have := (hasDerivAt_inv hw.ne').const_mul (1e4 : ℝ)
    simpa [div_eq_mul_inv] using this
  rw [hd.deriv]
  rw [abs_mul, abs_neg, abs_of_pos (show (0:ℝ) < 1e4 by norm_num), abs_of_pos (by positivity)]
  field_simp; ring

example : (2.0 : ℝ) * 0.5 ^ 2 / 10 * |deriv (fun x : ℝ => 1e4 / x) 0.5| = 1000 * 2 :=
  by have := C52_energy 2 0.5 (by norm_num); norm_num at this ⊢

/-- C52: wavenumbers increase if wavelengths do. -/
theorem C52_increasing (c : Curve) (hpos : ∀ p ∈ c, 0 < p.1) (hinc : Increasing (c.map Prod.fst)) :
    Increasing ((c.map fun p => 1e4 / p.1).reverse) := by
  have := C20_wavenumbers_increase c hpos hinc
  rwa [List.map_reverse, List.map_map] at this

example : Increasing (([(0.5, 2), (0.6, 3)].map fun p : ℝ × ℝ => 1e4 / p.1).reverse) :=
  C52_increasing [(0.5, 2), (0.6, 3)] (by intro p hp; simp at hp; rcases hp with rfl | rfl <;> norm_num)
    (by simp [Increasing]; norm_num)

/-- a spectrum of four samples -/
noncomputable def exSpectrum : Curve := [(1, 4), (2, 3), (3, 2), (4, 1)]

example : ∃ s, solarNew (.ok (finL (exSpectrum.map Prod.fst), finL (exSpectrum.map Prod.snd))) (some "wavenumber") none =
      .ok s ∧ s.wavenumber = some (finL [1e4 / 4, 1e4 / 3, 1e4 / 2, 1e4 / 1]) ∧
      s.irradiance = finL [1 * 4 ^ 2 / 10, 2 * 3 ^ 2 / 10, 3 * 2 ^ 2 / 10, 4 * 1 ^ 2 / 10] := by
  obtain ⟨s, h1, h2, h3, _⟩ := C52_wavenumber_spectrum exSpectrum
    (by intro p hp; simp [exSpectrum] at hp; rcases hp with rfl | rfl | rfl | rfl <;> norm_num) none
  exact ⟨s, h1, h2, h3⟩

/-! ### C53 -/

/-- C53: in wavenumber space the solar constant is the integral over wavenumber, otherwise over
wavelength; with neither it raises TypeError. -/
theorem C53_solar_constant (s : Solar XF) (x y : List ℝ) (hl : x.length = y.length) (hy : s.irradiance = finL y) :
    (s.wavenumber = some (finL x) → s.solarConstant = .ok (fin (trap x y))) ∧
    (s.wavenumber = none → s.wavelength = some (finL x) → s.solarConstant = .ok (fin (trap x y))) ∧
    (s.wavenumber = none → s.wavelength = none → s.solarConstant = .error .typeError) := by
  refine ⟨?_, ?_, ?_⟩
  · intro h
    unfold Solar.solarConstant
    rw [h, hy]; exact trapezoid_fin x y hl
  · intro h1 h2
    unfold Solar.solarConstant
    rw [h1, h2, hy]; exact trapezoid_fin x y hl
  · intro h1 h2
    unfold Solar.solarConstant
    rw [h1, h2]

example (s : Solar XF) (h : s.irradiance = finL [4, 3]) (h1 : s.wavenumber = none) (h2 : s.wavelength = some (finL [1, 2])) :
    s.solarConstant = .ok (fin (trap [1, 2] [4, 3])) :=
  (C53_solar_constant s [1, 2] [4, 3] rfl h).2.1 h1 h2

theorem trap_pos (x y : List ℝ) (hl : x.length = y.length) (h2 : 2 ≤ x.length) (hinc : Increasing x)
    (hy : ∀ v ∈ y, 0 < v) : 0 < trap x y := by
  match x, y, hl, h2 with
  | a :: b :: x, c :: d :: y, hl, _ =>
    have hab : a < b := (List.pairwise_cons.1 hinc).1 b (by simp)
    have h1 : 0 ≤ trap (b :: x) (d :: y) := by
      have := trap_nonneg Prod.fst Prod.snd ((b :: x).zip (d :: y)) (by
        rw [zip_map_fst (by simpa using hl)]
        exact Increasing.nonDec (List.pairwise_cons.1 hinc).2) (by
        intro p hp
        exact (hy _ (List.mem_cons_of_mem _ (List.of_mem_zip hp).2)).le)
      rwa [zip_map_fst (by simpa using hl), zip_map_snd (by simpa using hl)] at this
    have h3 := hy c (by simp)
    have h4 := hy d (by simp)
    have : 0 < (b - a) * ((c + d) / 2) := mul_pos (by linarith) (by linarith)
    show 0 < (b - a) * ((c + d) / 2) + _
    linarith

/-- C53: the solar constant of a positive spectrum of at least two samples at increasing
wavelengths is positive, in both spaces. -/
theorem C53_positive (c : Curve) (hpos : ∀ p ∈ c, 0 < p.1 ∧ 0 < p.2) (h2 : 2 ≤ c.length)
    (hinc : Increasing (c.map Prod.fst)) (ws : String) (hws : ws = "wavelength" ∨ ws = "wavenumber") (dl : Option XF) :
    ∃ s v, solarNew (.ok (finL (c.map Prod.fst), finL (c.map Prod.snd))) (some ws) dl = .ok s ∧
      s.solarConstant = .ok (fin v) ∧ 0 < v := by
  rcases hws with rfl | rfl
  · unfold solarNew
    simp only [bind, Except.bind, Option.getD_some]
    refine ⟨_, _, rfl, ((C53_solar_constant _ (c.map Prod.fst) (c.map Prod.snd) (by simp) rfl).2.1 rfl rfl), ?_⟩
    apply trap_pos _ _ (by simp) (by simpa using h2) hinc
    intro v hv
    obtain ⟨p, hp, rfl⟩ := List.mem_map.1 hv
    exact (hpos p hp).2
  · obtain ⟨s, h1, hw, hi, _⟩ := C52_wavenumber_spectrum c (fun p hp => (hpos p hp).1) dl
    refine ⟨s, _, h1, ((C53_solar_constant s _ _ (by simp) hi).1 hw), ?_⟩
    apply trap_pos _ _ (by simp) (by simpa using h2) (C52_increasing c (fun p hp => (hpos p hp).1) hinc)
    intro v hv
    rw [List.mem_reverse] at hv
    obtain ⟨p, hp, rfl⟩ := List.mem_map.1 hv
    obtain ⟨q1, q2⟩ := hpos p hp
    positivity

example : ∃ s v, solarNew (.ok (finL (exSpectrum.map Prod.fst), finL (exSpectrum.map Prod.snd))) (some "wavenumber") none =
      .ok s ∧ s.solarConstant = .ok (fin v) ∧ 0 < v :=
  C53_positive exSpectrum
    (by intro p hp; simp [exSpectrum] at hp; rcases hp with rfl | rfl | rfl | rfl <;> norm_num) (by simp [exSpectrum])
    (by simp [exSpectrum, Increasing]; norm_num) _ (Or.inr rfl) none

/-! ### C54, C55 -/

/-- the arguments of an in-band call on a spectrum, with finite data on an increasing grid -/
structure BandCall (spline : Spline XF) (s : Solar XF) (rsr : RsrArg XF) (scale : ℝ) (det : Nat)
    (a b d : ℝ) (gs gr : ℝ → ℝ) : Prop where
  /-- the step -/
  step : s.dlambda = fin d ∧ 0 < d
  /-- the spectrum and its interpolation -/
  spectrum : ∃ x y, (if s.wavespace = "wavelength" then s.wavelength else s.wavenumber) = some (finL x) ∧
    s.irradiance = finL y ∧ Interpolates spline x y gs
  /-- the response curve and its interpolation -/
  response : ∃ w r, CurveOf s.wavespace det rsr w r ∧ (w.map (· * scale)).head? = some a ∧
    (w.map (· * scale)).getLast? = some b ∧ Interpolates spline (w.map (· * scale)) r gr

theorem bandCurve_of {ws : String} {det : Nat} {rsr : RsrArg XF} {w r : List ℝ} (h : CurveOf ws det rsr w r) (scale : ℝ) :
    bandCurve ws rsr (fin scale) det = .ok (finL (w.map (· * scale)), finL r) := by
  have hm : (finL w).map (· * fin scale) = finL (w.map (· * scale)) := by simp [finL, Function.comp_def]
  have ga : ∀ (d : DetRsr XF) k xs, d.get? k = some (.arr xs) → getArr d k = .ok xs := by
    intro d k xs hk
    unfold getArr
    rw [getItem_ok_iff.2 hk]; rfl
  cases h with
  | single d _ _ hw hr =>
    unfold bandCurve
    simp only [bind, Except.bind, pure, Except.pure]
    rw [ga d _ _ hw, ga d _ _ hr]
    simp only
    rw [hm]
  | several b d _ _ hd hw hr =>
    unfold bandCurve
    simp only [bind, Except.bind, pure, Except.pure]
    rw [getItem_ok_iff.2 hd]
    simp only
    rw [ga d _ _ hw, ga d _ _ hr]
    simp only
    rw [hm]

/-- the grid of a band wider than half a step -/
noncomputable def bandGrid (a b d : ℝ) : List ℝ :=
  steps a ((b - a) / (rintR ((b - a) / d)).toNat) (rintR ((b - a) / d)).toNat

theorem band_values (spline : Spline XF) (s : Solar XF) (rsr : RsrArg XF) (scale : ℝ) (det : Nat)
    (a b d : ℝ) (gs gr : ℝ → ℝ) (h : BandCall spline s rsr scale det a b d gs gr) (hwide : d / 2 < b - a) :
    RegularGrid (bandGrid a b d) a b d ∧ ∃ s',
      Solar.inbandSolarflux spline rsr (fin scale) det s =
        (.ok (fin (trap (bandGrid a b d) ((bandGrid a b d).map fun t => gs t * gr t))), s') ∧
      (∃ s'', Solar.inbandSolarirradiance spline rsr (fin scale) det s =
        (.ok (fin (trap (bandGrid a b d) ((bandGrid a b d).map fun t => gs t * gr t)) /
          fin (trap (bandGrid a b d) ((bandGrid a b d).map gr))), s'')) ∧
      s'.ipol_wavelength = finL (bandGrid a b d) ∧ s'.ipol_irradiance = finL ((bandGrid a b d).map gs) := by
  obtain ⟨⟨hd, hd0⟩, ⟨x, y, hx, hy, fs, hfs, hgs⟩, ⟨w, r, hc, ha, hb, fr, hfr, hgr⟩⟩ := h
  have hq : 1 / 2 < (b - a) / d := by rw [lt_div_iff₀ hd0]; linarith
  have hreg := steps_regular (a := a) (b := b) hd0 hq
  have hgrid := regularGrid_fin (a := a) (b := b) hd0 hq
  change RegularGrid (bandGrid a b d) a b d at hreg
  change _ = Except.ok (finL (bandGrid a b d)) at hgrid
  generalize bandGrid a b d = G at *
  have hmapf : ∀ (f : XF → XF) (g : ℝ → ℝ), (∀ t, f (fin t) = fin (g t)) → (finL G).map f = finL (G.map g) := by
    intro f g hfg
    simp [finL, Function.comp_def, hfg]
  have hband : bandResampled spline s.wavespace s.dlambda rsr (fin scale) det =
      .ok ((fin a, fin b), finL (G.map gr)) := by
    unfold bandResampled
    rw [bandCurve_of hc scale]
    simp only [bind, Except.bind, pyIndex_head ha, pyIndex_last hb]
    rw [hd, hgrid]
    simp only
    rw [hfr]
    simp only
    rw [hmapf fr gr hgr]; rfl
  have hsol : solarResampled spline s (some (fin a, fin b)) = .ok (finL G, finL (G.map gs)) := by
    unfold solarResampled
    have hax : s.axis = some (finL x) := hx
    simp only [solarInterval, bind, Except.bind, hd, hgrid, hax, splineAxis, hy, hfs]
    rw [hmapf fs gs hgs]; rfl
  have hin : ((finL G).zip (finL (G.map gs))).filter (fun p => ge p.1 (fin a) && le p.1 (fin b)) =
      (finL G).zip (finL (G.map gs)) := by
    rw [List.filter_eq_self]
    intro p hp
    obtain ⟨t, ht, he⟩ := List.mem_map.1 (List.of_mem_zip hp).1
    obtain ⟨h1, h2⟩ := steps_bounds hreg t ht
    rw [← he]; simp [h1, h2]
  have hlen : (finL G).length = (finL (G.map gs)).length := by simp
  have hprod : NP.bcast2 (· * ·) (finL (G.map gs)) (finL (G.map gr)) = .ok (finL (G.map fun t => gs t * gr t)) := by
    rw [bcast2_fin_mul _ _ (by simp), zipWith_map_map]
  have hfold : ∀ flux, foldBand flux (fin a, fin b) (finL G) (finL (G.map gs)) (finL (G.map gr)) =
      .ok (if flux then fin (trap G (G.map fun t => gs t * gr t))
        else fin (trap G (G.map fun t => gs t * gr t)) / fin (trap G (G.map gr))) := by
    intro flux
    unfold foldBand
    simp only
    rw [hin, List.map_fst_zip hlen.le, List.map_snd_zip hlen.ge, hprod]
    simp only [bind, Except.bind]
    rw [trapezoid_fin _ _ (by simp)]
    simp only
    rw [trapezoid_fin _ _ (by simp)]
    cases flux <;> rfl
  have hval : ∀ flux, bandValue spline s rsr flux (fin scale) det =
      .ok (if flux then fin (trap G (G.map fun t => gs t * gr t))
        else fin (trap G (G.map fun t => gs t * gr t)) / fin (trap G (G.map gr))) := by
    intro flux
    unfold bandValue
    rw [hband]
    simp only [bind, Except.bind]
    rw [hsol]
    exact hfold flux
  refine ⟨hreg, ?_⟩
  obtain ⟨s', h1, _, _, h4⟩ := bandCalculations_run spline s rsr true (fin scale) det
  obtain ⟨s'', h1', _, _, _⟩ := bandCalculations_run spline s rsr false (fin scale) det
  rw [hval] at h1 h1'
  obtain ⟨e1, e2⟩ := h4 _ _ hband hsol
  exact ⟨s', h1, ⟨s'', h1'⟩, e1, e2⟩

/-- C55 (when the band is wider than half a step): response and spectrum are resampled on one
common regular grid from the first to the last abscissa of the response, nothing is masked
away, and the flux is the trapezoid integral of their product over that grid. -/
theorem C55_common_grid_partial (spline : Spline XF) (s : Solar XF) (rsr : RsrArg XF) (scale : ℝ) (det : Nat)
    (a b d : ℝ) (gs gr : ℝ → ℝ) (h : BandCall spline s rsr scale det a b d gs gr) (hwide : d / 2 < b - a) :
    ∃ G : List ℝ, RegularGrid G a b d ∧ ∃ s',
      Solar.inbandSolarflux spline rsr (fin scale) det s = (.ok (fin (trap G (G.map fun t => gs t * gr t))), s') ∧
      (∃ s'', Solar.inbandSolarirradiance spline rsr (fin scale) det s =
        (.ok (fin (trap G (G.map fun t => gs t * gr t)) / fin (trap G (G.map gr))), s'')) ∧
      s'.ipol_wavelength = finL G ∧ s'.ipol_irradiance = finL (G.map gs) :=
  ⟨bandGrid a b d, band_values spline s rsr scale det a b d gs gr h hwide⟩

/-- C55 is false of the code for a band of at most half a step: it is sampled at its first
abscissa only, the flux is 0 and the irradiance NaN, whatever the spectrum. -/
theorem C55_narrow_band (spline : Spline XF) (s : Solar XF) (rsr : RsrArg XF) (scale : ℝ) (det : Nat)
    (a b d : ℝ) (gs gr : ℝ → ℝ) (h : BandCall spline s rsr scale det a b d gs gr) (hab : a < b)
    (hnarrow : b - a ≤ d / 2) :
    ∃ s' s'', Solar.inbandSolarflux spline rsr (fin scale) det s = (.ok (fin 0), s') ∧
      s'.ipol_wavelength = [fin a] ∧
      Solar.inbandSolarirradiance spline rsr (fin scale) det s = (.ok XF.nan, s'') := by
  obtain ⟨⟨hd, hd0⟩, ⟨x, y, hx, hy, fs, hfs, hgs⟩, ⟨w, r, hc, ha, hb, fr, hfr, hgr⟩⟩ := h
  have hr0 : rintR ((b - a) / d) = 0 :=
    rintR_half (div_nonneg (by linarith) hd0.le) (by rw [div_le_iff₀ hd0]; linarith)
  have hgrid : regularGrid (fin a) (fin b) (fin d) = .ok [fin a] := by
    unfold regularGrid
    rw [fin_sub, fin_div _ hd0.ne', rint_fin, hr0]
    rfl
  have hband : bandResampled spline s.wavespace s.dlambda rsr (fin scale) det =
      .ok ((fin a, fin b), [fin (gr a)]) := by
    unfold bandResampled
    rw [bandCurve_of hc scale]
    simp only [bind, Except.bind, pyIndex_head ha, pyIndex_last hb]
    rw [hd, hgrid]
    simp only
    rw [hfr]
    simp only [List.map_cons, List.map_nil, hgr]; rfl
  have hsol : solarResampled spline s (some (fin a, fin b)) = .ok ([fin a], [fin (gs a)]) := by
    unfold solarResampled
    have hax : s.axis = some (finL x) := hx
    simp only [solarInterval, bind, Except.bind, hd, hgrid, hax, splineAxis, hy, hfs, List.map_cons, List.map_nil, hgs]
    rfl
  have hval : ∀ flux, bandValue spline s rsr flux (fin scale) det =
      .ok (if flux then fin 0 else fin 0 / fin 0) := by
    intro flux
    unfold bandValue
    rw [hband]
    simp only [bind, Except.bind]
    rw [hsol]
    have hf : ([fin a].zip [fin (gs a)]).filter (fun p => ge p.1 (fin a) && le p.1 (fin b)) = [(fin a, fin (gs a))] := by
      simp [hab.le]
    unfold foldBand
    simp only
    rw [hf]
    have e1 : NP.bcast2 (· * ·) ([(fin a, fin (gs a))].map Prod.snd) [fin (gr a)] = .ok [fin (gs a * gr a)] := rfl
    have e2 : ∀ v, NP.trapezoid [fin v] ([(fin a, fin (gs a))].map Prod.fst) = .ok (fin 0) := by
      intro v; exact trapezoid_fin [a] [v] rfl
    simp only [bind, Except.bind]
    rw [e1]
    simp only
    rw [e2]
    simp only
    rw [e2]
    cases flux <;> rfl
  obtain ⟨s', h1, _, _, h4⟩ := bandCalculations_run spline s rsr true (fin scale) det
  obtain ⟨s'', h1', _, _, _⟩ := bandCalculations_run spline s rsr false (fin scale) det
  rw [hval] at h1 h1'
  obtain ⟨e1, e2⟩ := h4 _ _ hband hsol
  refine ⟨s', s'', h1, e1, ?_⟩
  have : (fin 0 / fin 0 : XF) = XF.nan := by rw [fin_div', if_pos rfl, signInf]; simp
  rw [Solar.inbandSolarirradiance, h1']
  simp [this]

/-- C54: the flux is the irradiance times the integral of the resampled response, and the
irradiance lies between bounds of the resampled solar irradiance when the resampled response is
not negative. -/
theorem C54_flux_and_irradiance (spline : Spline XF) (s : Solar XF) (rsr : RsrArg XF) (scale : ℝ) (det : Nat)
    (a b d : ℝ) (gs gr : ℝ → ℝ) (h : BandCall spline s rsr scale det a b d gs gr) (hwide : d / 2 < b - a) :
    ∃ G F s', RegularGrid G a b d ∧
      Solar.inbandSolarflux spline rsr (fin scale) det s = (.ok (fin F), s') ∧
      s'.ipol_irradiance = finL (G.map gs) ∧
      (trap G (G.map gr) ≠ 0 → ∃ I s'', Solar.inbandSolarirradiance spline rsr (fin scale) det s = (.ok (fin I), s'') ∧
        F = I * trap G (G.map gr) ∧
        ∀ m M, (∀ t ∈ G, 0 ≤ gr t) → (∀ t ∈ G, m ≤ gs t ∧ gs t ≤ M) → m ≤ I ∧ I ≤ M) := by
  obtain ⟨G, hG, s', h1, ⟨s'', h2⟩, _, h4⟩ := C55_common_grid_partial spline s rsr scale det a b d gs gr h hwide
  refine ⟨G, _, s', hG, h1, h4, ?_⟩
  intro hne
  rw [fin_div _ hne] at h2
  refine ⟨_, s'', h2, by field_simp, ?_⟩
  intro m M hnn hb
  have hx : NonDec (G.map id) := by rw [List.map_id]; exact Increasing.nonDec hG.2.2.1
  have hpos : 0 < trap G (G.map gr) := by
    have := trap_nonneg id gr G hx hnn
    rw [List.map_id] at this
    exact lt_of_le_of_ne this (Ne.symm hne)
  have hm := trap_mean_bounds id gr gs G hx hnn m M (fun t ht => (hb t ht).1) (fun t ht => (hb t ht).2)
  rw [List.map_id] at hm
  have e : (G.map fun t => gr t * gs t) = G.map fun t => gs t * gr t := by
    apply List.map_congr_left; intro t _; ring
  rw [e] at hm
  exact ⟨by rw [le_div_iff₀ hpos]; exact hm.1, by rw [div_le_iff₀ hpos]; exact hm.2⟩

/-- C54: scaling the solar spectrum scales flux and irradiance, for an interpolation that is
homogeneous in the ordinates. -/
theorem C54_scaling (spline : Spline XF) (s : Solar XF) (rsr : RsrArg XF) (scale : ℝ) (det : Nat)
    (a b d : ℝ) (gs gr : ℝ → ℝ) (h : BandCall spline s rsr scale det a b d gs gr) (hwide : d / 2 < b - a)
    (hlin : ∀ x y g c, Interpolates spline x y g → Interpolates spline x (y.map (c * ·)) fun t => c * g t)
    (c : ℝ) (y : List ℝ) (hy : s.irradiance = finL y) :
    ∃ F s₁ s₂, Solar.inbandSolarflux spline rsr (fin scale) det s = (.ok (fin F), s₁) ∧
      Solar.inbandSolarflux spline rsr (fin scale) det { s with irradiance := finL (y.map (c * ·)) } =
        (.ok (fin (c * F)), s₂) ∧
      ∀ I s₃, Solar.inbandSolarirradiance spline rsr (fin scale) det s = (.ok (fin I), s₃) →
        ∃ s₄, Solar.inbandSolarirradiance spline rsr (fin scale) det { s with irradiance := finL (y.map (c * ·)) } =
          (.ok (fin (c * I)), s₄) := by
  have h' : BandCall spline { s with irradiance := finL (y.map (c * ·)) } rsr scale det a b d
      (fun t => c * gs t) gr := by
    refine ⟨h.step, ?_, h.response⟩
    obtain ⟨x, y', hx, hy', hi⟩ := h.spectrum
    have : y' = y := by
      have h6 : finL y' = finL y := by rw [← hy', hy]
      exact (List.map_injective_iff.2 (fun a b h => by simpa using h)) h6
    subst this
    exact ⟨x, _, hx, rfl, hlin x y' gs c hi⟩
  obtain ⟨_, s₁, f1, ⟨s₃, i1⟩, _⟩ := band_values _ _ _ _ _ _ _ _ _ _ h hwide
  obtain ⟨_, s₂, f2, ⟨s₄, i2⟩, _⟩ := band_values _ _ _ _ _ _ _ _ _ _ h' hwide
  generalize bandGrid a b d = G at *
  have e : trap G (G.map fun t => c * gs t * gr t) = c * trap G (G.map fun t => gs t * gr t) := by
    have := trap_smul id (fun t => gs t * gr t) c G
    rw [List.map_id] at this
    rw [← this]
    congr 1
    apply List.map_congr_left; intro t _; ring
  rw [e] at f2 i2
  refine ⟨_, s₁, s₂, f1, f2, ?_⟩
  intro I s5 hI
  rw [i1] at hI
  have hI' := Except.ok.inj (Prod.mk.inj hI).1
  by_cases hz : trap G (G.map gr) = 0
  · rw [hz, fin_div', if_pos rfl] at hI'
    unfold signInf at hI'
    split at hI'
    · cases hI'
    · split at hI' <;> cases hI'
  · rw [fin_div _ hz, fin_inj] at hI'
    refine ⟨s₄, ?_⟩
    rw [i2, fin_div _ hz, ← hI', mul_div_assoc]

/-! ### C56, C57 -/

/-- a call that does not name a step -/
inductive SolarCall where
  | flux (rsr : RsrArg XF) (scale : XF) (det : Nat)
  | irradiance (rsr : RsrArg XF) (scale : XF) (det : Nat)

/-- perform it -/
noncomputable def SolarCall.run (spline : Spline XF) : SolarCall → PySt (Solar XF) XF
  | .flux r c d => Solar.inbandSolarflux spline r c d
  | .irradiance r c d => Solar.inbandSolarirradiance spline r c d

theorem call_run (spline : Spline XF) (call : SolarCall) (s : Solar XF) :
    SameSpectrum s (call.run spline s).2 ∧ (call.run spline s).2.dlambda = s.dlambda ∧
    ∀ t, SameSpectrum s t → t.dlambda = s.dlambda → (call.run spline t).1 = (call.run spline s).1 := by
  have key : ∀ rsr flux scale det, SameSpectrum s (Solar.bandCalculations spline rsr flux scale det s).2 ∧
      (Solar.bandCalculations spline rsr flux scale det s).2.dlambda = s.dlambda ∧
      ∀ t, SameSpectrum s t → t.dlambda = s.dlambda →
        (Solar.bandCalculations spline rsr flux scale det t).1 = (Solar.bandCalculations spline rsr flux scale det s).1 := by
    intro rsr flux scale det
    obtain ⟨s', h1, h2, h3, _⟩ := bandCalculations_run spline s rsr flux scale det
    refine ⟨by rw [h1]; exact h2, by rw [h1]; exact h3, ?_⟩
    intro t ht hd
    obtain ⟨t', g1, _⟩ := bandCalculations_run spline t rsr flux scale det
    rw [h1, g1]
    exact bandValue_core spline s t ht hd rsr flux scale det
  cases call with
  | flux r c d => exact key r true c d
  | irradiance r c d => exact key r false c d

/-- C56: whatever in-band calls were made before (successful or not), a call returns what it
would return on the fresh object. -/
theorem C56_history_independent (spline : Spline XF) (s : Solar XF) (history : List SolarCall) (call : SolarCall) :
    (call.run spline (history.foldl (fun t c => (c.run spline t).2) s)).1 = (call.run spline s).1 := by
  have inv : ∀ (h : List SolarCall) (t : Solar XF), SameSpectrum s t → t.dlambda = s.dlambda →
      SameSpectrum s (h.foldl (fun t c => (c.run spline t).2) t) ∧
      (h.foldl (fun t c => (c.run spline t).2) t).dlambda = s.dlambda := by
    intro h
    induction h with
    | nil => intro t ht hd; exact ⟨ht, hd⟩
    | cons c h ih =>
      intro t ht hd
      obtain ⟨h1, h2, _⟩ := call_run spline c t
      refine ih _ ?_ (h2.trans hd)
      exact ⟨h1.1.trans ht.1, h1.2.1.trans ht.2.1, h1.2.2.1.trans ht.2.2.1, h1.2.2.2.1.trans ht.2.2.2.1,
        h1.2.2.2.2.trans ht.2.2.2.2⟩
  obtain ⟨h1, h2⟩ := inv history s ⟨rfl, rfl, rfl, rfl, rfl⟩ rfl
  exact (call_run spline call s).2.2 _ h1 h2

/-- C57, the part that holds: `interpolate` without a step leaves every later in-band result
unchanged.  What is missing: calls naming a step. -/
theorem C57_without_step_partial (spline : Spline XF) (s : Solar XF) (ival : Option (XF × XF)) (call : SolarCall) :
    (call.run spline (Solar.interpolate spline none ival s).2).1 = (call.run spline s).1 := by
  apply (call_run spline call s).2.2
  · have := interpolate_run spline none ival s
    simp only at this
    rw [this]
    cases solarResampled spline s ival <;> exact ⟨rfl, rfl, rfl, rfl, rfl⟩
  · have := interpolate_run spline none ival s
    simp only at this
    rw [this]
    cases solarResampled spline s ival <;> rfl

/-- the spectrum x^2 at 1..5 micron with step 1 -/
noncomputable def exSolar : Solar XF where
  wavelength := some (finL [1, 2, 3, 4, 5])
  wavenumber := none
  irradiance := finL [1, 4, 9, 16, 25]
  wavespace := "wavelength"
  dlambda := fin 1
  irradianceUnit := ""
  ipol_wavelength := []
  ipol_irradiance := []

/-- a flat response from 1 to 5 micron -/
noncomputable def exFlat : RsrArg XF :=
  .curve [("wavelength", .arr (finL [1, 2, 3, 4, 5])), ("response", .arr (finL [1, 1, 1, 1, 1]))]

theorem exFlat_curve : CurveOf "wavelength" 1 exFlat [1, 2, 3, 4, 5] [1, 1, 1, 1, 1] := .single _ _ _ rfl rfl

theorem exCall (spline : Spline XF) (hq : Interpolates spline [1, 2, 3, 4, 5] [1, 4, 9, 16, 25] fun t => t ^ 2)
    (h1 : Interpolates spline [1, 2, 3, 4, 5] [1, 1, 1, 1, 1] fun _ => 1) (d : ℝ) (hd : 0 < d) :
    BandCall spline { exSolar with dlambda := fin d } exFlat 1 1 1 5 d (fun t => t ^ 2) fun _ => 1 := by
  refine ⟨⟨rfl, hd⟩, ⟨_, _, rfl, rfl, hq⟩, ⟨[1, 2, 3, 4, 5], [1, 1, 1, 1, 1], .single _ _ _ rfl rfl, by simp, by simp, ?_⟩⟩
  simpa using h1

theorem exFlux (spline : Spline XF) (hq : Interpolates spline [1, 2, 3, 4, 5] [1, 4, 9, 16, 25] fun t => t ^ 2)
    (h1 : Interpolates spline [1, 2, 3, 4, 5] [1, 1, 1, 1, 1] fun _ => 1) :
    (Solar.inbandSolarflux spline exFlat (fin 1) 1 exSolar).1 = .ok (fin 42) ∧
    (Solar.inbandSolarflux spline exFlat (fin 1) 1 { exSolar with dlambda := fin 4 }).1 = .ok (fin 52) := by
  have hr : ∀ n : ℕ, rintR (n : ℝ) = n := by
    intro n; unfold rintR; simp
  constructor
  · obtain ⟨_, s', h, _⟩ := band_values _ _ _ _ _ _ _ _ _ _ (exCall spline hq h1 1 one_pos) (by norm_num)
    have e4 : ((5 : ℝ) - 1) / 1 = ((4 : ℕ) : ℝ) := by norm_num
    have e5 : bandGrid 1 5 1 = [1, 2, 3, 4, 5] := by
      unfold bandGrid
      rw [e4, hr 4]
      simp [steps, List.range_succ]; norm_num
    rw [e5] at h
    have h' := congrArg Prod.fst h
    refine h'.trans ?_
    simp only [trap, List.map_cons, List.map_nil]
    norm_num
  · obtain ⟨_, s', h, _⟩ := band_values _ _ _ _ _ _ _ _ _ _ (exCall spline hq h1 4 (by norm_num)) (by norm_num)
    have e4 : ((5 : ℝ) - 1) / 4 = ((1 : ℕ) : ℝ) := by norm_num
    have e5 : bandGrid 1 5 4 = [1, 5] := by
      unfold bandGrid
      rw [e4, hr 1]
      simp [steps, List.range_succ]
    rw [e5] at h
    have h' := congrArg Prod.fst h
    refine h'.trans ?_
    simp only [trap, List.map_cons, List.map_nil]
    norm_num

/-- C57 is false of the code: with any interpolation that reproduces the constant and the square
from five samples (as a cubic spline does), the flux of this band is 42 on the fresh object and
52 after `interpolate(dlambda=4)`. -/
theorem C57_step_persists (spline : Spline XF)
    (hq : Interpolates spline [1, 2, 3, 4, 5] [1, 4, 9, 16, 25] fun t => t ^ 2)
    (h1 : Interpolates spline [1, 2, 3, 4, 5] [1, 1, 1, 1, 1] fun _ => 1) :
    (Solar.inbandSolarflux spline exFlat (fin 1) 1 exSolar).1 = .ok (fin 42) ∧
    (Solar.inbandSolarflux spline exFlat (fin 1) 1 (Solar.interpolate spline (some (fin 4)) none exSolar).2).1 =
      .ok (fin 52) := by
  obtain ⟨e1, e2⟩ := exFlux spline hq h1
  refine ⟨e1, ?_⟩
  have hr := interpolate_run spline (some (fin 4)) none exSolar
  simp only at hr
  have := (call_run spline (.flux exFlat (fin 1) 1) { exSolar with dlambda := fin 4 }).2.2
    (Solar.interpolate spline (some (fin 4)) none exSolar).2
  rw [← e2]
  apply this
  · rw [hr]
    cases solarResampled spline { exSolar with dlambda := fin 4 } none <;> exact ⟨rfl, rfl, rfl, rfl, rfl⟩
  · rw [hr]
    cases solarResampled spline { exSolar with dlambda := fin 4 } none <;> rfl

/-- an interpolation meeting the hypotheses -/
noncomputable def exSpline : Spline XF := fun _ y =>
  open Classical in if y = finL [1, 4, 9, 16, 25] then .ok (fun t => t * t) else .ok (fun _ => fin 1)

theorem exSpline_square : Interpolates exSpline [1, 2, 3, 4, 5] [1, 4, 9, 16, 25] fun t => t ^ 2 := by
  refine ⟨fun t => t * t, by simp [exSpline], ?_⟩
  intro t; show fin t * fin t = _; rw [fin_mul, fin_inj]; ring

theorem exSpline_one : Interpolates exSpline [1, 2, 3, 4, 5] [1, 1, 1, 1, 1] fun _ => 1 := by
  refine ⟨fun _ => fin 1, ?_, fun _ => rfl⟩
  unfold exSpline
  rw [if_neg]
  simp [finL]

example : ∃ G F s', RegularGrid G 1 5 1 ∧ Solar.inbandSolarflux exSpline exFlat (fin 1) 1 exSolar = (.ok (fin F), s') := by
  obtain ⟨G, F, s', h1, h2, _⟩ := C54_flux_and_irradiance exSpline exSolar exFlat 1 1 1 5 1 _ _
    (exCall exSpline exSpline_square exSpline_one 1 one_pos) (by norm_num)
  exact ⟨G, F, s', h1, h2⟩

example (call : SolarCall) : (call.run exSpline ([SolarCall.flux exFlat (fin 1) 1, SolarCall.irradiance exFlat (fin 2) 1].foldl
    (fun t c => (SolarCall.run exSpline c t).2) exSolar)).1 = (call.run exSpline exSolar).1 :=
  C56_history_independent exSpline exSolar _ call

example : ∃ G : List ℝ, RegularGrid G 1 5 1 ∧ ∃ s',
    Solar.inbandSolarflux exSpline exFlat (fin 1) 1 exSolar = (.ok (fin (trap G (G.map fun t => t ^ 2 * 1))), s') ∧
    s'.ipol_wavelength = finL G := by
  obtain ⟨G, h1, s', h2, -, h3, -⟩ := C55_common_grid_partial exSpline exSolar exFlat 1 1 1 5 1 _ _
    (exCall exSpline exSpline_square exSpline_one 1 one_pos) (by norm_num)
  exact ⟨G, h1, s', h2, h3⟩

example : (Solar.inbandSolarflux exSpline exFlat (fin 1) 1 (Solar.interpolate exSpline (some (fin 4)) none exSolar).2).1 =
    .ok (fin 52) := (C57_step_persists exSpline exSpline_square exSpline_one).2

example : ∃ s' s'', Solar.inbandSolarflux exSpline exFlat (fin 1) 1 { exSolar with dlambda := fin 10 } = (.ok (fin 0), s') ∧
    s'.ipol_wavelength = [fin 1] ∧
    Solar.inbandSolarirradiance exSpline exFlat (fin 1) 1 { exSolar with dlambda := fin 10 } = (.ok XF.nan, s'') :=
  C55_narrow_band exSpline _ exFlat 1 1 1 5 10 _ _ (exCall exSpline exSpline_square exSpline_one 10 (by norm_num))
    (by norm_num) (by norm_num)

/-! ### C58 -/

/-- C58 is false of the code: with an interpolation that, as scipy's, rejects abscissae that do
not increase, every response on a decreasing grid raises ValueError. -/
theorem C58_decreasing_fails (spline : Spline XF)
    (hrej : ∀ (x : List ℝ) (y : List XF), ¬ Increasing x → spline (finL x) y = .error .valueError)
    (s : Solar XF) (rsr : RsrArg XF) (scale : ℝ) (hscale : 0 < scale) (det : Nat) (w r : List ℝ)
    (hc : CurveOf s.wavespace det rsr w r) (h2 : 2 ≤ w.length) (hdec : Increasing w.reverse) (d : ℝ)
    (hd : s.dlambda = fin d) (hd0 : 0 < d) :
    (Solar.inbandSolarflux spline rsr (fin scale) det s).1 = .error .valueError ∧
    (Solar.inbandSolarirradiance spline rsr (fin scale) det s).1 = .error .valueError := by
  have hni : ¬ Increasing (w.map (· * scale)) := by
    unfold Increasing at *
    rw [List.pairwise_reverse] at hdec
    rw [List.pairwise_map]
    intro h
    match w, h2 with
    | a :: b :: w, _ =>
      have h3 := (List.pairwise_cons.1 h).1 b (by simp)
      have h4 := (List.pairwise_cons.1 hdec).1 b (by simp)
      have := mul_lt_mul_of_pos_right h4 hscale
      linarith
  have hne : w.map (· * scale) ≠ [] := by
    intro h; rw [List.map_eq_nil_iff] at h; rw [h] at h2; simp at h2
  obtain ⟨a, ha⟩ : ∃ a, (w.map (· * scale)).head? = some a := by
    cases hw : w.map (· * scale) with
    | nil => exact absurd hw hne
    | cons a l => exact ⟨a, rfl⟩
  obtain ⟨b, hb⟩ : ∃ b, (w.map (· * scale)).getLast? = some b := ⟨_, List.getLast?_eq_getLast_of_ne_nil hne⟩
  have hband : bandResampled spline s.wavespace s.dlambda rsr (fin scale) det = .error .valueError := by
    unfold bandResampled
    rw [bandCurve_of hc scale]
    simp only [bind, Except.bind, pyIndex_head ha, pyIndex_last hb]
    rw [hd]
    have hg : regularGrid (fin a) (fin b) (fin d) = .error .valueError ∨ ∃ g, regularGrid (fin a) (fin b) (fin d) = .ok g := by
      unfold regularGrid
      split
      · exact Or.inl rfl
      · split
        · exact Or.inl rfl
        · exact Or.inr ⟨_, rfl⟩
    rcases hg with hg | ⟨g, hg⟩
    · rw [hg]
    · rw [hg]
      simp only
      rw [hrej _ _ hni]
  have hval : ∀ flux, bandValue spline s rsr flux (fin scale) det = .error .valueError := by
    intro flux; unfold bandValue; rw [hband]; rfl
  constructor
  · obtain ⟨s', h, _⟩ := bandCalculations_run spline s rsr true (fin scale) det
    rw [Solar.inbandSolarflux, h, hval]
  · obtain ⟨s', h, _⟩ := bandCalculations_run spline s rsr false (fin scale) det
    rw [Solar.inbandSolarirradiance, h, hval]

open Classical in
/-- an interpolation that rejects abscissae that do not increase -/
noncomputable def exStrict : Spline XF := fun x _ =>
  if ∃ l : List ℝ, x = finL l ∧ Increasing l then .ok (fun _ => fin 1) else .error .valueError

example : (Solar.inbandSolarflux exStrict (.curve [("wavelength", .arr (finL [3, 2, 1])), ("response", .arr (finL [1, 1, 1]))])
    (fin 1) 1 exSolar).1 = .error .valueError := by
  refine (C58_decreasing_fails exStrict ?_ exSolar _ 1 one_pos 1 [3, 2, 1] [1, 1, 1] (.single _ _ _ rfl rfl)
    (by simp) (by simp [Increasing]; norm_num) 1 rfl one_pos).1
  intro x y h
  unfold exStrict
  rw [if_neg]
  rintro ⟨l, e, hl⟩
  have : x = l := (List.map_injective_iff.2 (fun a b h => by simpa using h)) e
  exact h (this ▸ hl)

end Verif.Props
