import Verif.Props.NirSolar
/-
C191: a calculator that is given the documented in-band solar flux is the one that derives it.
-/
namespace Verif.Props
open XF Model PyNum Lemmas Spec
variable {α : Type} [PyNum α]

/-- the flux derived by a converter in wavelength space -/
theorem derived_flux (ne : NirEnv α) (s : Sensor α) (p i d : String) (band : BandArg α) (res : α) (c : RadTb α)
    (h : RadTb.new (.ok s) p i band d "wavelength" res = .ok c) (name : String) (B : BandRsr α)
    (hB : s.rsr.get? name = some B) (sun : Solar α) (hs : solarNew ne.solarFile none (some 0.0005) = .ok sun) :
    nirFlux ne c name none = (Solar.inbandSolarflux ne.spline (.dets B) 1.0 1 sun).1 ∧ c.rsr = s.rsr ∧ c.instrument = i := by
  obtain ⟨_, -, j2, j3, -, -, sn, j6, j7, -⟩ := radTbNew_inv h
  cases j6
  obtain ⟨j7, j8⟩ := j7 (by decide)
  refine ⟨?_, j7, j2⟩
  show nirSolarflux ne _ name = _
  unfold nirSolarflux
  rw [j3, j7, j8, show solarNew ne.solarFile (some "wavelength") (some 0.0005) = .ok sun from hs]
  have hlook : converterLookup "wavelength" s.instrument s.rsr (some name) = .ok B := by
    unfold converterLookup
    dsimp only
    rw [if_neg (by decide)]
    unfold rsrDictGetItem
    rw [hB]
  rw [hlook]
  rfl

/-- the band name of a calculator -/
theorem nirBand_name {c : RadTb α} {band : BandArg α} {nw : String × α} (h : nirBand c band = .ok nw) :
    converterBandname c.instrument c.rsr band = .ok (some nw.1) := by
  unfold nirBand at h
  cases hb : converterBandname c.instrument c.rsr band with
  | error e => rw [hb] at h; cases h
  | ok o =>
    rw [hb] at h
    cases o with
    | none => cases h
    | some n =>
      have : nw.1 = n := by
        cases band with
        | name q =>
          simp only [bind, Except.bind, notNone] at h
          split at h
          · cases h
          split at h
          · cases h
          split at h
          · cases h
          split at h
          · cases h
          · cases h; rfl
        | number x =>
          simp only [bind, Except.bind, notNone, pure, Except.pure] at h
          split at h
          · cases h
          · cases h; rfl
        | other => cases h
      rw [this]

theorem given_flux (ne : NirEnv α) (h5open : Content → Option (H5File α)) (platform instrument det : String)
    (band : BandArg α) (thr : α) (lim : Option α) (w : World) (r : Reader α)
    (hr : Eff.result (readerNew ne.env h5open (some platform) (some instrument) none) w = .ok r)
    (name : String) (hname : ∀ n, converterBandname instrument r.rsr band = .ok (some n) → n = name)
    (B : BandRsr α) (hB : r.rsr.get? name = some B) (sun : Solar α) (hs : solarNew ne.solarFile none (some 0.0005) = .ok sun)
    (φ : α) (hφ : (Solar.inbandSolarflux ne.spline (.dets B) 1.0 1 sun).1 = .ok φ) :
    calculatorNew ne h5open platform instrument band det "wavelength" (some φ) thr lim w =
      calculatorNew ne h5open platform instrument band det "wavelength" none thr lim w := by
  unfold calculatorNew
  rw [if_neg (by decide), if_neg (by decide)]
  unfold Eff.result at hr
  rcases hh : readerNew ne.env h5open (some platform) (some instrument) none w with ⟨x, w', t⟩
  rw [hh] at hr
  cases hr
  rw [eff_bind_ok hh, eff_bind_ok hh]
  have key : Nir.new ne (.ok r.sensor) platform instrument band det "wavelength" (some φ) thr lim w' =
      Nir.new ne (.ok r.sensor) platform instrument band det "wavelength" none thr lim w' := by
    unfold Nir.new
    cases hc : RadTb.new (.ok r.sensor) platform instrument band det "wavelength" with
    | error e => rw [eff_bind_error (show Eff.lift (Except.error e) w' = (.error e, w', []) from rfl),
        eff_bind_error (show Eff.lift (Except.error e) w' = (.error e, w', []) from rfl)]
    | ok c =>
      rw [eff_bind_ok (show Eff.lift (Except.ok c) w' = (.ok c, w', []) from rfl),
        eff_bind_ok (show Eff.lift (Except.ok c) w' = (.ok c, w', []) from rfl)]
      obtain ⟨e1, e2, e3⟩ := derived_flux ne r.sensor platform instrument det band _ c hc name B hB sun hs
      cases hn : nirBand c band with
      | error e =>
        rw [eff_bind_error (show Eff.lift (Except.error e) w' = (.error e, w', []) from rfl),
          eff_bind_error (show Eff.lift (Except.error e) w' = (.error e, w', []) from rfl)]
      | ok nw =>
        have hnn : nw.1 = name := by
          have := nirBand_name hn
          rw [e2, e3] at this
          exact hname _ this
        rw [eff_bind_ok (show Eff.lift (Except.ok nw) w' = (.ok nw, w', []) from rfl),
          eff_bind_ok (show Eff.lift (Except.ok nw) w' = (.ok nw, w', []) from rfl)]
        rw [hnn, e1, hφ]
        rfl
  rw [key]

/-- C191: for a band given by name, a calculator that is given the flux computed from what the reader holds for the band, with a
solar spectrum of step 0.0005 micron, is in every respect (attributes, files, errors) the calculator made without a flux. -/
theorem C191_by_name (ne : NirEnv α) (h5open : Content → Option (H5File α)) (platform instrument q det : String)
    (thr : α) (lim : Option α) (w : World) (r : Reader α)
    (hr : Eff.result (readerNew ne.env h5open (some platform) (some instrument) none) w = .ok r)
    (B : BandRsr α) (hB : r.rsr.get? (bandNamed instrument q) = some B)
    (sun : Solar α) (hs : solarNew ne.solarFile none (some 0.0005) = .ok sun)
    (φ : α) (hφ : (Solar.inbandSolarflux ne.spline (.dets B) 1.0 1 sun).1 = .ok φ) :
    calculatorNew ne h5open platform instrument (.name q) det "wavelength" (some φ) thr lim w =
      calculatorNew ne h5open platform instrument (.name q) det "wavelength" none thr lim w :=
  given_flux ne h5open platform instrument det _ thr lim w r hr (bandNamed instrument q) (fun n h => by cases h; rfl) B hB sun hs φ hφ

/-- C191: likewise for a band given by wavelength. -/
theorem C191_by_wavelength (ne : NirEnv α) (h5open : Content → Option (H5File α)) (platform instrument det : String) (x : α)
    (thr : α) (lim : Option α) (w : World) (r : Reader α)
    (hr : Eff.result (readerNew ne.env h5open (some platform) (some instrument) none) w = .ok r)
    (b : String) (hb : getBandnameFromWavelength (.str instrument) x r.rsr = .ok (.one b))
    (B : BandRsr α) (hB : r.rsr.get? b = some B)
    (sun : Solar α) (hs : solarNew ne.solarFile none (some 0.0005) = .ok sun)
    (φ : α) (hφ : (Solar.inbandSolarflux ne.spline (.dets B) 1.0 1 sun).1 = .ok φ) :
    calculatorNew ne h5open platform instrument (.number x) det "wavelength" (some φ) thr lim w =
      calculatorNew ne h5open platform instrument (.number x) det "wavelength" none thr lim w :=
  given_flux ne h5open platform instrument det _ thr lim w r hr b
    (fun n h => by
      simp only [converterBandname, hb, bind, Except.bind, pure, Except.pure] at h
      cases h
      rfl) B hB sun hs φ hφ

/-- the documented way: the flux of M12 is computed first, then given to the calculator -/
example : ∃ (r : Reader XF) (B : BandRsr XF) (sun : Solar XF) (φ : XF),
    Eff.result (readerNew (exEnvSun (fun _ => []) (fun _ => .ok (tableOf [3.7e-6, 3.75e-6, 3.8e-6] [0, 1, 0.5]))).env
      (openOnly "H".toList exFile37) (some "Suomi-NPP") (some "viirs") none) exWorld37 = .ok r ∧
    rsrDictGetItem r.instrument r.rsr "M12" = .ok B ∧
    solarNew (.ok (finL [3, 3.5, 4], finL [10, 10, 10])) none (some 0.0005) = .ok sun ∧
    (Solar.inbandSolarflux (fun _ y => .ok fun _ => y.getD 1 (fin 0)) (.dets B) 1.0 1 sun).1 = .ok φ ∧
    calculatorNew (exEnvSun (fun _ => []) (fun _ => .ok (tableOf [3.7e-6, 3.75e-6, 3.8e-6] [0, 1, 0.5])))
      (openOnly "H".toList exFile37) "Suomi-NPP" "viirs" (.name "M12") "det-1" "wavelength" (some φ) (fin 85) none exWorld37 =
    calculatorNew (exEnvSun (fun _ => []) (fun _ => .ok (tableOf [3.7e-6, 3.75e-6, 3.8e-6] [0, 1, 0.5])))
      (openOnly "H".toList exFile37) "Suomi-NPP" "viirs" (.name "M12") "det-1" "wavelength" none (fin 85) none exWorld37 := by
  obtain ⟨info, hinfo⟩ := exFile37_loads
  have hd : (0.0005 : XF) = fin 0.0005 := ofSci_eq _ _ _
  obtain ⟨r, B, G, h1, h2, -, h4, -⟩ := C157_inband_from_file (exEnv37 (fun _ => []) (fun _ => .ok (tableOf [] []))).env
    (openOnly "H".toList exFile37) "Suomi-NPP" "viirs" "viirs" (by decide +kernel) exWorld37 (.inr rfl) "H".toList exFile37 info
    (by rfl) (by rfl) hinfo ["M12"] ⟨_, _, _, rfl, .cons (.str _) .nil⟩ "M12" (by decide +kernel) 1 (.inl ⟨_, _, rfl, rfl, rfl⟩) 0 (by decide) _ _
    exFile37_curve (fun _ y => .ok fun _ => y.getD 1 (fin 0)) [(3, 10), (3.5, 10), (4, 10)] _ 0.0005 (by norm_num) rfl
    (fun _ => 10) (fun _ => 1) ⟨_, rfl, fun _ => rfl⟩ ⟨_, rfl, fun _ => rfl⟩ 3.7 3.8
    (by simp; norm_num) (by simp; norm_num) (by norm_num)
  have hs : solarNew (.ok (finL [3, 3.5, 4], finL [10, 10, 10])) none (some (0.0005 : XF)) = .ok
      ⟨some (finL [3, 3.5, 4]), none, finL [10, 10, 10], "wavelength", fin 0.0005, "$W/m^2 (1e-6*m)^{-1})", [], []⟩ := by rw [hd]; rfl
  refine ⟨r, B, _, _, h1, ?_, hs, h4, ?_⟩
  · unfold rsrDictGetItem
    rw [h2]
  · exact C191_by_name (exEnvSun (fun _ => []) (fun _ => .ok (tableOf [3.7e-6, 3.75e-6, 3.8e-6] [0, 1, 0.5]))) _ _ _ "M12" _ _ _ _ r h1 B
      (by rw [show bandNamed "viirs" "M12" = "M12" by decide +kernel]; exact h2) _ hs _ h4

end Verif.Props
