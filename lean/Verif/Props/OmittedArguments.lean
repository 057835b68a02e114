import Verif.Props.NirSolar
import Verif.Model.Scripts
import Verif.Model.Solar
/-
C198: what omitted arguments mean.
-/
namespace Verif.Props
open XF Model PyNum Lemmas Spec

variable {α : Type} [PyNum α]

/-- C198: a converter made without options is for the first detector in wavelength space with tables in steps of 0.1 K, and its
radiances are normalised and not from a table. -/
theorem C198_converter (env : Env) (h5open : Content → Option (H5File α)) (platform instrument : String) (band : BandArg α)
    (w : World) :
    Eff.result (converterNew env h5open platform instrument band) w =
      Eff.result (converterNew env h5open platform instrument band "det-1" "wavelength" 0.1) w ∧
    ∀ c, Eff.result (converterNew env h5open platform instrument band) w = .ok c →
      c.detector = "det-1" ∧ c.wavespace = "wavelength" ∧ c.tb_resolution = 0.1 ∧
      ∀ nc tb, c.tb2radiance nc tb = c.tb2radiance nc tb none true ∧ c.makeTb2radLut nc = c.makeTb2radLut nc true := by
  refine ⟨rfl, ?_⟩
  intro c h
  unfold converterNew at h
  split at h
  · cases h
  split at h
  · cases h
  unfold Eff.result at h
  rcases hh : readerNew env h5open (some platform) (some instrument) none w with ⟨x, w', t⟩
  cases x with
  | error e =>
    rw [eff_bind_error hh] at h
    cases h
  | ok r =>
    rw [eff_bind_ok hh] at h
    have h' : RadTb.new (.ok r.sensor) platform instrument band "det-1" WAVE_LENGTH 0.1 = .ok c := h
    obtain ⟨-, -, -, j2, ⟨j1, j3, -⟩, -⟩ := radTbNew_inv h'
    exact ⟨j1, j2, j3, fun _ _ => ⟨rfl, rfl⟩⟩

/-- what a calculator was made with -/
theorem nir_limits {ne : NirEnv α} {sensor : Py (Sensor α)} {p i d ws : String} {band : BandArg α} {fl : Option α} {thr : α}
    {lim : Option α} {w : World} {n : Nir α} (h : (Nir.new ne sensor p i band d ws fl thr lim w).1 = .ok n) :
    n.sunz_threshold = thr ∧ n.masking_limit = lim := by
  unfold Nir.new at h
  cases h1 : RadTb.new sensor p i band d ws with
  | error e => rw [eff_bind_error (eff_lift_error h1 w)] at h; cases h
  | ok c =>
    rw [eff_bind_ok (eff_lift_ok h1 w)] at h
    cases h2 : nirBand c band with
    | error e => rw [eff_bind_error (eff_lift_error h2 w)] at h; cases h
    | ok nw =>
      rw [eff_bind_ok (eff_lift_ok h2 w)] at h
      cases h3 : nirFlux ne c nw.1 fl with
      | error e => rw [eff_bind_error (eff_lift_error h3 w)] at h; cases h
      | ok f =>
        rw [eff_bind_ok (eff_lift_ok h3 w)] at h
        rcases h4 : setLutfile ne p i nw.1 w with ⟨x, w4, t4⟩
        cases x with
        | error e => rw [eff_bind_error h4] at h; cases h
        | ok lf =>
          rw [eff_bind_ok h4] at h
          rcases h5 : setLut ne c lf w4 with ⟨x, w5, t5⟩
          cases x with
          | error e => rw [eff_bind_error h5] at h; cases h
          | ok lut =>
            rw [eff_bind_ok h5] at h
            cases h
            exact ⟨rfl, rfl⟩

/-- C198: a calculator made without options is for the first detector in wavelength space; its solar flux is derived, and it cuts
off and masks at a sun zenith angle of 85 degrees. -/
theorem C198_calculator (ne : NirEnv α) (h5open : Content → Option (H5File α)) (platform instrument : String) (band : BandArg α)
    (w : World) :
    Eff.result (calculatorNew ne h5open platform instrument band) w =
      Eff.result (calculatorNew ne h5open platform instrument band "det-1" "wavelength" none 85.0 (some 85.0)) w ∧
    ∀ n, Eff.result (calculatorNew ne h5open platform instrument band) w = .ok n →
      n.sunz_threshold = 85.0 ∧ n.masking_limit = some 85.0 ∧
      (Nir.emissivePart3x : PySt (Nir α) _) n = Nir.emissivePart3x true n ∧
      ∀ bt11 bt13, (Nir.deriveRad39Corr bt11 bt13 : PySt (Nir α) _) n = Nir.deriveRad39Corr bt11 bt13 "rosenfeld" n := by
  refine ⟨rfl, ?_⟩
  intro n h
  unfold calculatorNew at h
  split at h
  · cases h
  unfold Eff.result at h
  rcases hh : readerNew ne.env h5open (some platform) (some instrument) none w with ⟨x, w', t⟩
  cases x with
  | error e =>
    rw [eff_bind_error hh] at h
    cases h
  | ok r =>
    rw [eff_bind_ok hh] at h
    obtain ⟨j1, j2⟩ := nir_limits h
    exact ⟨j1, j2, rfl, fun _ _ => rfl⟩

/-- C198: a band is looked up within 0.1 micron and must be the only one. -/
theorem C198_lookup (sensor : InstVal) (wavelength : α) (rsr : Rsr α) (r : Reader α) :
    getBandnameFromWavelength sensor wavelength rsr = getBandnameFromWavelength sensor wavelength rsr 0.1 false ∧
    r.bandnameFromWavelength wavelength = r.bandnameFromWavelength wavelength 0.1 false := ⟨rfl, rfl⟩

/-- C198: in-band fluxes and irradiances are for the first detector, with positions as given. -/
theorem C198_flux (spline : Spline α) (rsr : RsrArg α) (s : Solar α) :
    (Solar.inbandSolarflux spline rsr : PySt (Solar α) α) s = Solar.inbandSolarflux spline rsr 1.0 1 s ∧
    (Solar.inbandSolarirradiance spline rsr : PySt (Solar α) α) s = Solar.inbandSolarirradiance spline rsr 1.0 1 s := ⟨rfl, rfl⟩

/-- C198: the programs that print ranges and plot responses use thresholds of 0.15 and 0.01. -/
theorem C198_programs (reader : Py (Reader α)) (b : Option String) (wl : α) :
    findWavelengths reader b = findWavelengths reader b "det-1" 0.15 ∧ plotRsr reader b wl = plotRsr reader b wl 0.01 := ⟨rfl, rfl⟩

/-- a calculator made with a platform, an instrument and a band only -/
example : ∃ s, Eff.result (calculatorNew
      (exEnvSun (fun _ => []) (fun _ => .ok (tableOf [3.7e-6, 3.75e-6, 3.8e-6] [0, 1, 0.5])))
      (openOnly "H".toList exFile37) "Suomi-NPP" "viirs" (.name "M12")) exWorld37 = .ok s ∧ s.masking_limit = some 85.0 := by
  obtain ⟨info, hinfo⟩ := exFile37_loads
  have hG := C157_reflectance_with_derived_flux
    (exEnvSun (fun _ => []) (fun _ => .ok (tableOf [3.7e-6, 3.75e-6, 3.8e-6] [0, 1, 0.5])))
    (openOnly "H".toList exFile37) "Suomi-NPP" "viirs" "viirs" "M12" (by decide +kernel) exWorld37 (.inr rfl) "H".toList exFile37 info
    (by rfl) (by rfl) hinfo ["M12"] ⟨_, _, _, rfl, .cons (.str _) .nil⟩ (by decide +kernel) 1 (.inl ⟨_, _, rfl, rfl, rfl⟩) 0 (by decide) _ _
    exFile37_curve _ _ exFile37_curve 3.75 (((bandCentral_spec exFile37 "M12" "det-1").1 _).1 rfl) (by norm_num) (by norm_num)
    [(3, 10), (3.5, 10), (4, 10)] rfl (fun _ => 10) (fun _ => 1) ⟨_, rfl, fun _ => rfl⟩ ⟨_, rfl, fun _ => rfl⟩ 3.7 3.8
    (by simp; norm_num) (by simp; norm_num) (by norm_num) 85.0 (some 85.0)
    "/lut/tb2rad_lut_suomi-npp_viirs_m12.npz" (by rfl) (by decide) (by decide +kernel) (by decide +kernel) (by decide +kernel) rfl
  obtain ⟨G, -, s, h1, -⟩ := hG
  have h2 := (C198_calculator (exEnvSun (fun _ => []) (fun _ => .ok (tableOf [3.7e-6, 3.75e-6, 3.8e-6] [0, 1, 0.5])))
      (openOnly "H".toList exFile37) "Suomi-NPP" "viirs" (.name "M12") exWorld37)
  have h3 := h2.1.trans h1
  exact ⟨s, h3, (h2.2 s h3).2.1⟩

end Verif.Props
