import Verif.Props.RayleighKeywords
import Verif.Props.RayleighEndToEnd
import Verif.Props.Names
import Verif.Lemmas.NirNew
/-
C193: Rayleigh corrections at a given wavelength, under any names of platform and sensor.
-/
namespace Verif.Props
open Model PyNum Lemmas Spec
variable {α : Type} [PyNum α]

/-- Make a `Rayleigh` object and ask it for the correction at a wavelength in micrometer. -/
def correctionAt (da : Bool) (env : Env) (h5open : Content → Option (H5File α)) (h5lut : Content → Option (LutFile α))
    (interp : Interp3 α) (platform sensor atm aerosol : String) (wavelength : α) (sunz satz azi : List α)
    (redband : Option (List α)) : Eff (List α) := do
  let r ← rayleighNew env platform sensor atm aerosol
  getReflectance da env h5open h5lut interp r sunz satz azi (.wavelength wavelength) redband

/-- The names are those of an unknown platform, or of one with a single sensor, or the sensor is one of the
several of that platform. -/
def namesAccepted (platform sensor : String) : Prop :=
  ∀ l, INSTRUMENTS.get? platform = some (.many l) → sensor ∈ l

theorem normalizeSensor_accepted {platform sensor : String} (h : namesAccepted platform sensor) :
    ∃ s, normalizeSensor platform sensor = .ok s := by
  cases hp : INSTRUMENTS.get? platform with
  | none => exact ⟨_, C34_unknown_platform_kept _ _ hp⟩
  | some i =>
    cases i with
    | one n => exact ⟨_, C34_single_sensor_replaces _ _ n hp⟩
    | many l => exact ⟨_, C34_multi_sensor_kept _ _ l hp (h l hp)⟩

/-- the names do not matter for what is done with the table -/
theorem reflectance_table_only (da : Bool) (env : Env) (h5open h5open' : Content → Option (H5File α))
    (h5lut : Content → Option (LutFile α)) (interp : Interp3 α) (r r' : RayleighObj)
    (h : r.reflectance_lut_filename = r'.reflectance_lut_filename) (wavelength : α) (sunz satz azi : List α)
    (redband : Option (List α)) :
    getReflectance da env h5open h5lut interp r sunz satz azi (.wavelength wavelength) redband =
      getReflectance da env h5open' h5lut interp r' sunz satz azi (.wavelength wavelength) redband := by
  unfold getReflectance effectiveWavelength
  rw [h]

/-- what a `Rayleigh` object is made of -/
theorem rayleighNew_parts (env : Env) (platform sensor atm aerosol : String) (s : String)
    (hs : normalizeSensor platform sensor = .ok s) {β : Type} (f : RayleighObj → Eff β) (w : World) :
    (rayleighNew env platform sensor atm aerosol >>= f) w =
      ((rayleighConfig env aerosol atm >>= fun up => (getConfig env >>= fun _ =>
        if ¬ up ∧ env.cfg.download_from_internet then
          (downloadLuts env (some [aerosol]) >>= fun _ => pure ())
        else pure ())) >>= fun _ =>
      f ⟨platform, s, (rayleighLutDir env aerosol, "rayleigh_lut_" ++ Str.replaceChar ' ' '_' atm ++ ".h5")⟩) w := by
  unfold rayleighNew
  rcases h1 : rayleighConfig env aerosol atm w with ⟨r1, w1, t1⟩
  cases r1 with
  | error e => rw [eff_bind_error (eff_bind_error h1), eff_bind_error (eff_bind_error h1)]
  | ok up =>
    have hl : Eff.lift (normalizeSensor platform sensor) w1 = (.ok s, w1, []) := eff_lift_ok hs w1
    rcases h2 : getConfig env w1 with ⟨r2, w2, t2⟩
    cases r2 with
    | error e =>
      rw [eff_bind_error ((eff_bind_ok h1).trans (by rw [eff_bind_ok hl, eff_bind_error h2])),
        eff_bind_error ((eff_bind_ok h1).trans (by rw [eff_bind_error h2]))]
      simp
    | ok u =>
      by_cases hu : ¬ up ∧ env.cfg.download_from_internet
      · rcases h3 : (downloadLuts env (some [aerosol]) : Eff Unit) w2 with ⟨r3, w3, t3⟩
        cases r3 with
        | error e =>
          rw [eff_bind_error ((eff_bind_ok h1).trans (by
              rw [eff_bind_ok hl, eff_bind_ok h2, if_pos hu, eff_bind_error h3])),
            eff_bind_error ((eff_bind_ok h1).trans (by rw [eff_bind_ok h2, if_pos hu, eff_bind_error h3]))]
          simp
        | ok v =>
          rw [eff_bind_ok ((eff_bind_ok h1).trans (by
              rw [eff_bind_ok hl, eff_bind_ok h2, if_pos hu, eff_bind_ok h3, eff_pure])),
            eff_bind_ok ((eff_bind_ok h1).trans (by rw [eff_bind_ok h2, if_pos hu, eff_bind_ok h3, eff_pure]))]
          simp
      · rw [eff_bind_ok ((eff_bind_ok h1).trans (by
            rw [eff_bind_ok hl, eff_bind_ok h2, if_neg hu, eff_pure])),
          eff_bind_ok ((eff_bind_ok h1).trans (by rw [eff_bind_ok h2, if_neg hu, eff_pure]))]
        simp

/-- C193: with any two pairs of names that are accepted, and whatever the response files contain, the correction at
a wavelength is the same, as are the errors, the requests and the files left behind.  Missing for the documented
"any name": the names of `C193_refused`. -/
theorem C193_any_names_partial (da : Bool) (env : Env) (h5open h5open' : Content → Option (H5File α))
    (h5lut : Content → Option (LutFile α)) (interp : Interp3 α) (platform sensor platform' sensor' atm aerosol : String)
    (h : namesAccepted platform sensor) (h' : namesAccepted platform' sensor') (wavelength : α)
    (sunz satz azi : List α) (redband : Option (List α)) (w : World) :
    correctionAt da env h5open h5lut interp platform sensor atm aerosol wavelength sunz satz azi redband w =
      correctionAt da env h5open' h5lut interp platform' sensor' atm aerosol wavelength sunz satz azi redband w := by
  obtain ⟨s, hs⟩ := normalizeSensor_accepted h
  obtain ⟨s', hs'⟩ := normalizeSensor_accepted h'
  unfold correctionAt
  rw [rayleighNew_parts env platform sensor atm aerosol s hs, rayleighNew_parts env platform' sensor' atm aerosol s' hs']
  rw [reflectance_table_only da env h5open h5open' h5lut interp
    ⟨platform, s, (rayleighLutDir env aerosol, "rayleigh_lut_" ++ Str.replaceChar ' ' '_' atm ++ ".h5")⟩
    ⟨platform', s', (rayleighLutDir env aerosol, "rayleigh_lut_" ++ Str.replaceChar ' ' '_' atm ++ ".h5")⟩ rfl]

example : namesAccepted "UFO" "ufo" ∧ namesAccepted "Suomi-NPP" "ufo" ∧ namesAccepted "Sentinel-3A" "slstr" := by
  refine ⟨fun l h => ?_, fun l h => ?_, fun l h => ?_⟩
  · rw [show INSTRUMENTS.get? "UFO" = none by decide +kernel] at h; cases h
  · rw [show INSTRUMENTS.get? "Suomi-NPP" = some (.one "viirs") by decide +kernel] at h; cases h
  · rw [show INSTRUMENTS.get? "Sentinel-3A" = some (.many ["olci", "slstr"]) by decide +kernel] at h
    cases h; simp

/-- C193: a platform known with several sensors refuses any other sensor name, so not every name that has no
response file will do. -/
theorem C193_refused (da : Bool) (env : Env) (h5open : Content → Option (H5File α)) (h5lut : Content → Option (LutFile α))
    (interp : Interp3 α) (platform sensor atm aerosol : String) (h : ¬ namesAccepted platform sensor) (wavelength : α)
    (sunz satz azi : List α) (redband : Option (List α)) (w : World) (v : List α) :
    Eff.result (correctionAt da env h5open h5lut interp platform sensor atm aerosol wavelength sunz satz azi redband) w ≠ .ok v := by
  have : ∃ l, INSTRUMENTS.get? platform = some (.many l) ∧ sensor ∉ l := by
    by_contra hc
    exact h fun l hl => by_contra fun hs => hc ⟨l, hl, hs⟩
  obtain ⟨l, hl, hs⟩ := this
  have hn := C34_multi_sensor_rejected platform sensor l hl hs
  intro hv
  unfold Eff.result correctionAt rayleighNew at hv
  rcases h1 : rayleighConfig env aerosol atm w with ⟨r1, w1, t1⟩
  cases r1 with
  | error e => rw [eff_bind_error (eff_bind_error h1)] at hv; cases hv
  | ok up =>
    rw [eff_bind_error ((eff_bind_ok h1).trans (by rw [eff_bind_error (eff_lift_error hn w1)]))] at hv
    cases hv

example : ¬ namesAccepted "Sentinel-3A" "ufo" := fun h => by
  have := h ["olci", "slstr"] (by decide +kernel)
  simp at this

end Verif.Props
