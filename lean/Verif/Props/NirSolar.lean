import Verif.Props.NirEndToEnd
import Verif.Props.Solar
/-
C157: near-infrared reflectances with the solar flux derived from the spectrum file and the stored response
curve.
-/
namespace Verif.Props
open Model Spec Lemmas PyNum XF

/-- the flux derived by a calculator whose band holds this curve for its first detector -/
theorem nirSolarflux_value (ne : NirEnv XF) (sun : Curve) (hsun : ne.solarFile = .ok (finL (sun.map Prod.fst), finL (sun.map Prod.snd)))
    (gs gr : ℝ → ℝ) (hgs : Interpolates ne.spline (sun.map Prod.fst) (sun.map Prod.snd) gs)
    (cv : RadTb XF) (hws : cv.wavespace = "wavelength") (name : String) (B : BandRsr XF)
    (hB : converterLookup cv.wavespace cv.rsrInstrument cv.rsr (some name) = .ok B) (w r : List ℝ) (cw : XF)
    (hd : B.get? "det-1" = some [("response", .arr (finL r)), ("wavelength", .arr (finL w)), ("central_wavelength", .num cw)])
    (a b : ℝ) (ha : w.head? = some a) (hb : w.getLast? = some b) (hgr : Interpolates ne.spline w r gr)
    (hwide : 0.00025 < b - a) :
    ∃ G, RegularGrid G a b 0.0005 ∧ nirSolarflux ne cv name = .ok (fin (trap G (G.map fun t => gs t * gr t))) := by
  have h1 : w.map (· * (1 : ℝ)) = w := by simp
  obtain ⟨s, hs, hs1, hs2, hs3, hs4⟩ : ∃ s, solarNew ne.solarFile (some "wavelength") (some (0.0005 : XF)) = .ok s ∧
      s.wavespace = "wavelength" ∧ s.dlambda = fin 0.0005 ∧ s.wavelength = some (finL (sun.map Prod.fst)) ∧
      s.irradiance = finL (sun.map Prod.snd) := by
    rw [hsun]
    exact ⟨_, rfl, rfl, by simp [ofSci_eq], rfl, rfl⟩
  have hcall : BandCall ne.spline s (.dets B) 1 1 a b 0.0005 gs gr := by
    refine ⟨⟨hs2, by norm_num⟩, ⟨_, _, by rw [if_pos hs1]; exact hs3, hs4, hgs⟩, w, r, ?_, by rw [h1]; exact ha, by rw [h1]; exact hb,
      by rw [h1]; exact hgr⟩
    exact .several B _ w r hd (by rw [if_pos hs1]; rfl) rfl
  obtain ⟨G, hG, s', e, -⟩ := C55_common_grid_partial ne.spline s (.dets B) 1 1 a b 0.0005 gs gr hcall (by norm_num at hwide ⊢; linarith)
  refine ⟨G, hG, ?_⟩
  unfold nirSolarflux
  rw [hws] at hB ⊢
  rw [hs]
  simp only [bind, Except.bind]
  rw [hB]
  simp only
  have h10 : (1.0 : XF) = fin 1 := by rw [ofSci_eq]; norm_num
  rw [h10, e]

/-- a calculator that derives its flux is one that is given the same flux -/
theorem calculator_flux (ne : NirEnv XF) (h5open : Content → Option (H5File XF)) (platform instrument : String) (band : BandArg XF)
    (det : String) (w w' : World) (t : List World) (r : Reader XF)
    (hr : readerNew ne.env h5open (some platform) (some instrument) none w = (.ok r, w', t))
    (cv : RadTb XF) (hcv : RadTb.new (.ok r.sensor) platform instrument band det "wavelength" = .ok cv)
    (nw : String × XF) (hnw : nirBand cv band = .ok nw) (F : XF) (hF : nirSolarflux ne cv nw.1 = .ok F) (thr : XF) (lim : Option XF) :
    calculatorNew ne h5open platform instrument band det "wavelength" none thr lim w =
      calculatorNew ne h5open platform instrument band det "wavelength" (some F) thr lim w := by
  have key : ∀ w, Nir.new ne (.ok r.sensor) platform instrument band det "wavelength" none thr lim w =
      Nir.new ne (.ok r.sensor) platform instrument band det "wavelength" (some F) thr lim w := by
    intro w
    unfold Nir.new
    rw [eff_bind_ok (eff_lift_ok hcv w), eff_bind_ok (eff_lift_ok hcv w), eff_bind_ok (eff_lift_ok hnw w), eff_bind_ok (eff_lift_ok hnw w)]
    rw [eff_bind_ok (eff_lift_ok (show nirFlux ne cv nw.1 none = .ok F from hF) w),
      eff_bind_ok (eff_lift_ok (show nirFlux ne cv nw.1 (some F) = .ok F from rfl) w)]
  unfold calculatorNew
  rw [if_neg (by decide), if_neg (by decide), eff_bind_ok hr, eff_bind_ok hr, key]

/-- C157: as C147, but the solar flux is not given: it is the trapezoid integral, over a regular grid of 0.5 nm from
the first to the last wavelength (in micron) of the curve stored for the band's first detector, of the spectrum of
the solar file times that curve, both interpolated by the spline; also when the calculator is made for another
detector of the band. -/
theorem C157_reflectance_with_derived_flux (ne : NirEnv XF) (h5open : Content → Option (H5File XF)) (platform instrument c q : String)
    (hcan : checkAndAdjustInstrumentName platform instrument = .ok c) (w : World)
    (hcur : RsrCurrent ne.env w ∨ ne.env.cfg.download_from_internet = false) (content : Content) (f : H5File XF) (info : RsrInfo XF)
    (hw : w.files (ne.env.cfg.rsr_dir, "rsr_" ++ c ++ "_" ++ platform ++ ".h5") = some content) (ho : h5open content = some f)
    (hload : loadRsrInfo f = .ok info) (l : List String) (hl : ListsBands f l)
    (hq : bandNamed instrument q ∈ l) (n : Nat) (hn : DetectorCount f (bandNamed instrument q) n) (i : Nat) (hi : i < n)
    (lam resp : List ℝ) (hc : FileCurve f (bandNamed instrument q) (detName i) lam resp)
    (lam₁ resp₁ : List ℝ) (hc₁ : FileCurve f (bandNamed instrument q) (detName 0) lam₁ resp₁)
    (x : ℝ) (hx : HasCentral f (bandNamed instrument q) (detName 0) (fin x)) (h1 : 3.5 ≤ x) (h2 : x ≤ 3.95)
    (sun : Curve) (hsun : ne.solarFile = .ok (finL (sun.map Prod.fst), finL (sun.map Prod.snd)))
    (gs gr : ℝ → ℝ) (hgs : Interpolates ne.spline (sun.map Prod.fst) (sun.map Prod.snd) gs)
    (hgr : Interpolates ne.spline (lam₁.map (· * 1e6)) resp₁ gr)
    (a b : ℝ) (ha : (lam₁.map (· * 1e6)).head? = some a) (hb : (lam₁.map (· * 1e6)).getLast? = some b) (hwide : 0.00025 < b - a)
    (thr : ℝ) (lim : Option ℝ)
    (p : String) (hp : nirPath ne (configured ne.env w) platform instrument (bandNamed instrument q) = p) (hpne : p ≠ "")
    (hnew : w.files (OsPath.file p) = none) (hnd : (configured ne.env w).dirs p = false) (hdir : w.dirs (OsPath.dirname p) = true)
    (hround : ne.npzDecode (ne.npzEncode (tableOf lam resp)) = .ok (tableOf lam resp)) :
    ∃ G, RegularGrid G a b 0.0005 ∧
    ∃ s, Eff.result (calculatorNew ne h5open platform instrument (.name q) (detName i) "wavelength" none (fin thr)
        (lim.map fin)) w = .ok s ∧
      ∀ (px : List RealPixel) (kz kn kt kc : ArrKind) (useCo2 : Bool), px ≠ [] →
        (∀ shape, shape ≠ [] → (∀ p ∈ px, (150 ≤ p.nir ∧ p.nir < 360) ∧ 150 ≤ p.therm ∧ p.therm < 360) →
          ∃ out s', reflectance ne.nanCast ⟨shape, px.map RealPixel.toPixel, kz, kn, kt, kc, useCo2, none⟩ s = (.ok out, s') ∧
            out.values = ⟨shape, px.map (pixelReflectance lam resp (trap G (G.map fun t => gs t * gr t)) thr lim useCo2 tenth)⟩) ∧
        ((∀ p ∈ px, 1e-6 < p.nir ∧ 1e-6 < p.therm) →
          ∃ out s', reflectance ne.nanCast ⟨[px.length], px.map RealPixel.toPixel, kz, kn, kt, kc, useCo2, some none⟩ s =
              (.ok out, s') ∧
            out.values = ⟨[px.length], px.map (pixelReflectance lam resp (trap G (G.map fun t => gs t * gr t)) thr lim useCo2 id)⟩) := by
  obtain ⟨bb, hbb⟩ := quiet_updates_off ne.env (configured ne.env w) hcur
  obtain ⟨t', ht', -⟩ := reader_by_name ne.env h5open platform instrument c hcan w _ bb _ hbb
  obtain ⟨⟨r, hr⟩, hf⟩ := reader_there ne.env h5open platform instrument c hcan w hcur content f info hw ho hload
  have hrun : readerNew ne.env h5open (some platform) (some instrument) none w = (.ok r, configured ne.env w, t') := by
    unfold Eff.result at hr
    rw [ht'] at hr ⊢
    simp only at hr
    rw [hr]
  obtain ⟨g1, -, -, -, -, gb⟩ := reader_detector ne.env h5open platform instrument w r hr f hf l hl
  obtain ⟨B, hB, hBl⟩ := gb _ hq
  obtain ⟨cw, hd⟩ := bandLoaded_curve hBl hn hi hc
  obtain ⟨cw₁, hd₁⟩ := bandLoaded_curve hBl hn (show 0 < n by omega) hc₁
  obtain ⟨cv, k1, k2, k3, -⟩ := new_from_detector r.sensor platform instrument q (detName i) 0.1 g1 B hB cw lam resp hc.2.2 hd
    "wavelength" (.inl rfl) tenth_nonzero
  set k : NirArgs XF := ⟨.ok r.sensor, platform, instrument, .name q, detName i, "wavelength", none, fin thr, lim.map fin⟩
    with hk
  have hconv : k.conv = .ok cv := k1
  obtain ⟨name, j1, j2, j3, j4, j5, sn, j6, j7, -⟩ := radTbNew_inv k1
  cases j6
  obtain ⟨j7, j8⟩ := j7 (by decide)
  have hname : name = bandNamed instrument q := by
    have : converterBandname (α := XF) instrument cv.rsr (.name q) = .ok (some (bandNamed instrument q)) := rfl
    rw [this] at j5
    cases j5
    rfl
  subst hname
  have hlook : converterLookup cv.wavespace cv.rsrInstrument cv.rsr (some (bandNamed instrument q)) = .ok B := by
    unfold converterLookup
    rw [j3, j7]
    dsimp only
    rw [if_neg (by decide)]
    unfold rsrDictGetItem
    rw [show r.sensor.rsr.get? _ = some B from hB]
  have hbw : BandWavelength k cv (fin x) := by
    obtain ⟨m, hm, -, hall⟩ := hBl
    have : n = m := (detectorNames_spec f _).2.2 n m hn hm
    subst this
    obtain ⟨r0, w0, c0, -, -, a3, e⟩ := hall 0 (by omega)
    rw [hasCentral_unique a3 hx] at e
    refine ⟨B, _, ?_, getItem_ok_iff.2 e, rfl⟩
    rw [j1]
    exact hlook
  have hnw : nirBand cv (.name q) = .ok (bandNamed instrument q, fin x) := by
    obtain ⟨name', hn', h3⟩ := nirBand_eq hconv hbw
    rw [j1] at hn'
    cases hn'
    rw [show (BandArg.name q : BandArg XF) = k.band from rfl, h3, if_neg]
    simp [h1, h2]
  obtain ⟨G, hG, hF⟩ := nirSolarflux_value ne sun hsun gs gr hgs cv k2 (bandNamed instrument q) B hlook _ resp₁ cw₁ hd₁ a b ha hb hgr hwide
  refine ⟨G, hG, ?_⟩
  unfold Eff.result
  rw [calculator_flux ne h5open platform instrument (.name q) (detName i) w _ t' r hrun cv k1 _ hnw _ hF]
  exact C147_reflectance_from_file ne h5open platform instrument c q hcan w hcur content f info hw ho hload l hl hq n hn i hi lam resp hc
    x hx h1 h2 _ thr lim p hp hpne hnew hnd hdir hround

/-- C157: for a reader made for a platform and instrument and a spectrum object with step `d`, the in-band flux and
irradiance of any band and detector are those of the curve stored in the platform's file (in micron), if the curve is
wider than half a step. -/
theorem C157_inband_from_file (e : Env) (h5open : Content → Option (H5File XF)) (platform instrument c : String)
    (hcan : checkAndAdjustInstrumentName platform instrument = .ok c) (w : World)
    (hcur : RsrCurrent e w ∨ e.cfg.download_from_internet = false) (content : Content) (f : H5File XF) (info : RsrInfo XF)
    (hw : w.files (e.cfg.rsr_dir, "rsr_" ++ c ++ "_" ++ platform ++ ".h5") = some content) (ho : h5open content = some f)
    (hload : loadRsrInfo f = .ok info) (l : List String) (hl : ListsBands f l) (band : String) (hq : band ∈ l)
    (n : Nat) (hn : DetectorCount f band n) (i : Nat) (hi : i < n) (lam resp : List ℝ) (hc : FileCurve f band (detName i) lam resp)
    (spline : Spline XF) (sun : Curve) (s : Solar XF) (d : ℝ) (hd0 : 0 < d)
    (hs : solarNew (.ok (finL (sun.map Prod.fst), finL (sun.map Prod.snd))) none (some (fin d)) = .ok s)
    (gs gr : ℝ → ℝ) (hgs : Interpolates spline (sun.map Prod.fst) (sun.map Prod.snd) gs)
    (hgr : Interpolates spline (lam.map (· * 1e6)) resp gr)
    (a b : ℝ) (ha : (lam.map (· * 1e6)).head? = some a) (hb : (lam.map (· * 1e6)).getLast? = some b) (hwide : d / 2 < b - a) :
    ∃ r B G, Eff.result (readerNew e h5open (some platform) (some instrument) none) w = .ok r ∧ r.rsr.get? band = some B ∧
      RegularGrid G a b d ∧
      (Solar.inbandSolarflux spline (.dets B) 1.0 (i + 1) s).1 = .ok (fin (trap G (G.map fun t => gs t * gr t))) ∧
      (Solar.inbandSolarirradiance spline (.dets B) 1.0 (i + 1) s).1 =
        .ok (fin (trap G (G.map fun t => gs t * gr t)) / fin (trap G (G.map gr))) := by
  obtain ⟨⟨r, hr⟩, hf⟩ := reader_there e h5open platform instrument c hcan w hcur content f info hw ho hload
  obtain ⟨-, -, -, -, -, gb⟩ := reader_detector e h5open platform instrument w r hr f hf l hl
  obtain ⟨B, hB, hBl⟩ := gb _ hq
  obtain ⟨cw, hd⟩ := bandLoaded_curve hBl hn hi hc
  obtain ⟨hs1, hs2, hs3, hs4⟩ : s.wavespace = "wavelength" ∧ s.dlambda = fin d ∧ s.wavelength = some (finL (sun.map Prod.fst)) ∧
      s.irradiance = finL (sun.map Prod.snd) := by
    cases hs
    exact ⟨rfl, rfl, rfl, rfl⟩
  have h1 : (lam.map (· * 1e6)).map (· * (1 : ℝ)) = lam.map (· * 1e6) := by simp
  have h10 : (1.0 : XF) = fin 1 := by rw [ofSci_eq]; norm_num
  have hcall : BandCall spline s (.dets B) 1 (i + 1) a b d gs gr := by
    refine ⟨⟨hs2, hd0⟩, ⟨_, _, by rw [if_pos hs1]; exact hs3, hs4, hgs⟩, _, resp, ?_, by rw [h1]; exact ha, by rw [h1]; exact hb, by rw [h1]; exact hgr⟩
    exact .several B _ _ resp hd (by rw [if_pos hs1]; rfl) rfl
  obtain ⟨G, hG, s', e1, ⟨s'', e2⟩, -⟩ := C55_common_grid_partial spline s (.dets B) 1 (i + 1) a b d gs gr hcall hwide
  refine ⟨r, B, G, hr, hB, hG, ?_, ?_⟩
  · rw [h10, e1]
  · rw [h10, e2]

/-- a flat spectrum, and an interpolation that gives the second value everywhere -/
noncomputable def exEnvSun (enc : Lut XF → Content) (dec : Content → Py (Lut XF)) : NirEnv XF :=
  { exEnv37 enc dec with
    solarFile := .ok (finL [3, 3.5, 4], finL [10, 10, 10])
    spline := fun _ y => .ok fun _ => y.getD 1 (fin 0) }

example : ∃ r B G, Eff.result (readerNew (exEnv37 (fun _ => []) (fun _ => .ok (tableOf [] []))).env (openOnly "H".toList exFile37)
      (some "Suomi-NPP") (some "viirs") none) exWorld37 = .ok r ∧ r.rsr.get? "M12" = some B ∧ RegularGrid G 3.7 3.8 0.005 ∧
      (Solar.inbandSolarflux (fun _ y => .ok fun _ => y.getD 1 (fin 0)) (.dets B) 1.0 1
        ⟨some (finL [3, 3.5, 4]), none, finL [10, 10, 10], "wavelength", fin 0.005, "$W/m^2 (1e-6*m)^{-1})", [], []⟩).1 =
        .ok (fin (trap G (G.map fun _ => 10 * 1))) := by
  obtain ⟨info, hinfo⟩ := exFile37_loads
  obtain ⟨r, B, G, h1, h2, h3, h4, -⟩ := C157_inband_from_file (exEnv37 (fun _ => []) (fun _ => .ok (tableOf [] []))).env
    (openOnly "H".toList exFile37) "Suomi-NPP" "viirs" "viirs" (by decide +kernel) exWorld37 (.inr rfl) "H".toList exFile37 info
    (by rfl) (by rfl) hinfo ["M12"] ⟨_, _, _, rfl, .cons (.str _) .nil⟩ "M12" (by decide +kernel) 1 (.inl ⟨_, _, rfl, rfl, rfl⟩) 0 (by decide) _ _
    exFile37_curve (fun _ y => .ok fun _ => y.getD 1 (fin 0)) [(3, 10), (3.5, 10), (4, 10)] _ 0.005 (by norm_num) rfl
    (fun _ => 10) (fun _ => 1) ⟨_, rfl, fun _ => rfl⟩ ⟨_, rfl, fun _ => rfl⟩ 3.7 3.8
    (by simp; norm_num) (by simp; norm_num) (by norm_num)
  exact ⟨r, B, G, h1, h2, h3, h4⟩

/-- the solar flux is not given -/
example : ∃ G, RegularGrid G 3.7 3.8 0.0005 ∧ ∃ s, Eff.result (calculatorNew
      (exEnvSun (fun _ => []) (fun _ => .ok (tableOf [3.7e-6, 3.75e-6, 3.8e-6] [0, 1, 0.5])))
      (openOnly "H".toList exFile37) "Suomi-NPP" "viirs" (.name "M12") "det-1" "wavelength" none (fin 85) (some (fin 85)))
      exWorld37 = .ok s ∧
    ∃ out s', reflectance 0 ⟨[1], [⟨fin 30, fin 300, fin 290.05, fin 250⟩], .numpy, .numpy, .numpy, .numpy, true, none⟩ s = (.ok out, s') ∧
      out.values = ⟨[1], [pixelReflectance [3.7e-6, 3.75e-6, 3.8e-6] [0, 1, 0.5] (trap G (G.map fun _ => 10 * 1)) 85 (some 85) true tenth
        ⟨30, 300, 290.05, 250⟩]⟩ := by
  obtain ⟨info, hinfo⟩ := exFile37_loads
  obtain ⟨G, hG, s, h1, h2⟩ := C157_reflectance_with_derived_flux
    (exEnvSun (fun _ => []) (fun _ => .ok (tableOf [3.7e-6, 3.75e-6, 3.8e-6] [0, 1, 0.5])))
    (openOnly "H".toList exFile37) "Suomi-NPP" "viirs" "viirs" "M12" (by decide +kernel) exWorld37 (.inr rfl) "H".toList exFile37 info
    (by rfl) (by rfl) hinfo ["M12"] ⟨_, _, _, rfl, .cons (.str _) .nil⟩ (by decide +kernel) 1 (.inl ⟨_, _, rfl, rfl, rfl⟩) 0 (by decide) _ _
    exFile37_curve _ _ exFile37_curve 3.75 (((bandCentral_spec exFile37 "M12" "det-1").1 _).1 rfl) (by norm_num) (by norm_num)
    [(3, 10), (3.5, 10), (4, 10)] rfl (fun _ => 10) (fun _ => 1) ⟨_, rfl, fun _ => rfl⟩ ⟨_, rfl, fun _ => rfl⟩ 3.7 3.8
    (by simp; norm_num) (by simp; norm_num) (by norm_num) 85 (some 85)
    "/lut/tb2rad_lut_suomi-npp_viirs_m12.npz" (by rfl) (by decide) (by decide +kernel) (by decide +kernel) (by decide +kernel) rfl
  refine ⟨G, hG, s, h1, ?_⟩
  obtain ⟨out, s', h3, h4⟩ := (h2 [⟨30, 300, 290.05, 250⟩] .numpy .numpy .numpy .numpy true (by simp)).1 [1]
    (by simp) (by
      intro p hp
      simp at hp
      rcases hp with rfl
      norm_num)
  exact ⟨out, s', h3, h4⟩

end Verif.Props
