import Verif.Props.Solar
/-
Property C181: spectra converted after construction, and spectra in an unknown wave space.
-/
namespace Verif.Props
open XF Model PyNum Lemmas Spec

section
variable {α : Type} [PyNum α]

/-- a spectrum whose space has no abscissa: after `convert2wavenumber`, or made for an unknown space -/
def Lost (s : Solar α) : Prop := (if s.wavespace = "wavelength" then s.wavelength else s.wavenumber) = none

theorem lost_resampled (spline : Spline α) (s : Solar α) (h : Lost s) (ival : Option (α × α)) :
    ∃ e, solarResampled spline s ival = .error e := by
  have ha : s.axis = none := h
  unfold solarResampled
  rw [ha]
  cases hi : solarInterval (none : Option (List α)) ival with
  | error e => exact ⟨e, rfl⟩
  | ok p =>
    simp only [bind, Except.bind]
    cases hg : regularGrid p.1 p.2 s.dlambda with
    | error e => exact ⟨e, rfl⟩
    | ok g => exact ⟨.valueError, rfl⟩

theorem lost_interpolate (spline : Spline α) (s : Solar α) (h : Lost s) (dl : Option α) (ival : Option (α × α)) :
    ∃ e d, Solar.interpolate spline dl ival s = (.error e, { s with dlambda := d }) := by
  cases dl with
  | none =>
    obtain ⟨e, he⟩ := lost_resampled spline s h ival
    refine ⟨e, s.dlambda, ?_⟩
    unfold Solar.interpolate
    rw [st_bind_ok (st_modify _ _), st_bind_ok (st_get _), st_bind_error (e := e) (by rw [he]; rfl)]
  | some d =>
    obtain ⟨e, he⟩ := lost_resampled spline { s with dlambda := d } h ival
    refine ⟨e, d, ?_⟩
    unfold Solar.interpolate
    rw [st_bind_ok (st_modify _ _), st_bind_ok (st_get _), st_bind_error (e := e) (by rw [he]; rfl)]

theorem lost_band (spline : Spline α) (s : Solar α) (h : Lost s) (rsr : RsrArg α) (flux : Bool) (scale : α) (det : Nat) :
    ∃ e, Solar.bandCalculations spline rsr flux scale det s = (.error e, s) := by
  unfold Solar.bandCalculations
  rw [st_bind_ok (st_get _)]
  cases hb : bandResampled spline s.wavespace s.dlambda rsr scale det with
  | error e => exact ⟨e, by exact st_bind_error (m := PySt.lift (Except.error e)) (e := e) rfl⟩
  | ok b =>
    rw [st_bind_ok (st_lift_ok rfl _)]
    obtain ⟨e, he⟩ := lost_resampled spline s h (some b.1)
    refine ⟨e, ?_⟩
    have : Solar.interpolate spline (dlambda := some s.dlambda) (ival := some b.1) s = (.error e, s) := by
      unfold Solar.interpolate
      rw [st_bind_ok (st_modify _ _), st_bind_ok (st_get _), st_bind_error (e := e) (by rw [he]; rfl)]
    rw [st_bind_error this]

theorem solarNew_plain (w e : List α) (ws : String) (h : ws ≠ "wavenumber") (dl : Option α) :
    solarNew (.ok (w, e)) (some ws) dl = .ok
      { wavelength := some w, wavenumber := none, irradiance := e, wavespace := ws
        dlambda := match dl with
          | some d => d
          | none => if ws = "wavelength" then 0.005 else 1.0 / (0.005 * 100.0)
        irradianceUnit := "$W/m^2 (1e-6*m)^{-1})", ipol_wavelength := [], ipol_irradiance := [] } := by
  unfold solarNew
  simp only [bind, Except.bind, pure, Except.pure, Option.getD_some]
  rw [if_neg h]
  cases dl <;> rfl

theorem solarNew_default (w e : List α) (dl : Option α) :
    solarNew (.ok (w, e)) none dl = solarNew (.ok (w, e)) (some "wavelength") dl := rfl

/-- C181: `convert2wavenumber` on a spectrum made in wavelength space gives it the samples, and so the
solar constant, of the spectrum made in wavenumber space from the same file.  Its unit stays the one
of wavelength space, and a second conversion raises TypeError. -/
theorem C181_converted (w e : List α) (dl dl' : Option α) (s s' : Solar α)
    (h : solarNew (.ok (w, e)) none dl = .ok s) (hc : s.convert2wavenumber = .ok s') :
    ∃ t, solarNew (.ok (w, e)) (some "wavenumber") dl' = .ok t ∧ s'.wavenumber = t.wavenumber ∧ s'.irradiance = t.irradiance ∧
      s'.wavelength = none ∧ s'.solarConstant = t.solarConstant ∧
      s'.irradianceUnit = s.irradianceUnit ∧ t.irradianceUnit ≠ s.irradianceUnit ∧
      s'.convert2wavenumber = .error .typeError := by
  rw [solarNew_default, solarNew_plain _ _ _ (by decide)] at h
  cases h
  unfold Solar.convert2wavenumber at hc
  simp only [notNone, bind, Except.bind, pure, Except.pure] at hc
  cases ha : NP.bcast2 (· * ·) e.reverse w.reverse with
  | error x => rw [ha] at hc; cases hc
  | ok a =>
  rw [ha] at hc
  dsimp only at hc
  cases hb : NP.bcast2 (· * ·) a w.reverse with
  | error x => rw [hb] at hc; cases hc
  | ok b =>
  rw [hb] at hc
  cases hc
  obtain ⟨t, ht, g⟩ : ∃ t : Solar α, solarNew (.ok (w, e)) (some "wavenumber") dl' = .ok t ∧
      t.wavelength = none ∧ t.wavenumber = some (w.reverse.map fun x => 1.0 / (1e-4 * x)) ∧ t.irradiance = b.map (· * 0.1) ∧
      t.irradianceUnit = "mW/m^2 (cm^{-1})^{-1}" := by
    unfold solarNew Solar.convert2wavenumber
    simp only [bind, Except.bind, pure, Except.pure, Option.getD_some, notNone, ha, hb, if_true]
    exact ⟨_, rfl, rfl, rfl, rfl, rfl⟩
  obtain ⟨g1, g2, g3, g4⟩ := g
  refine ⟨t, ht, g2.symm, g3.symm, rfl, ?_, rfl, ?_, rfl⟩
  · unfold Solar.solarConstant
    rw [g2, g3]
  · rw [g4]
    show "mW/m^2 (cm^{-1})^{-1}" ≠ "$W/m^2 (1e-6*m)^{-1})"
    decide

/-- C181: after such a conversion every in-band integration raises and changes nothing, and
`interpolate` raises and changes at most the step. -/
theorem C181_converted_fails (w e : List α) (dl : Option α) (s s' : Solar α)
    (h : solarNew (.ok (w, e)) none dl = .ok s) (hc : s.convert2wavenumber = .ok s') (spline : Spline α)
    (rsr : RsrArg α) (scale : α) (det : Nat) (dl' : Option α) (ival : Option (α × α)) :
    (∃ x, Solar.inbandSolarflux spline rsr scale det s' = (.error x, s')) ∧
      (∃ x, Solar.inbandSolarirradiance spline rsr scale det s' = (.error x, s')) ∧
      ∃ x d, Solar.interpolate spline dl' ival s' = (.error x, { s' with dlambda := d }) := by
  have hl : Lost s' := by
    have hw : s.wavespace = "wavelength" := by
      rw [solarNew_default, solarNew_plain _ _ _ (by decide)] at h
      cases h
      rfl
    obtain ⟨t, _, _, _, h4, _⟩ := C181_converted w e dl dl s s' h hc
    have hw' : s'.wavespace = s.wavespace := by
      unfold Solar.convert2wavenumber at hc
      simp only [bind, Except.bind, pure, Except.pure] at hc
      split at hc
      · cases hc
      · split at hc
        · cases hc
        · split at hc
          · cases hc
          · cases hc; rfl
    unfold Lost
    rw [hw', hw, if_pos rfl, h4]
  exact ⟨lost_band spline s' hl rsr true scale det, lost_band spline s' hl rsr false scale det,
    lost_interpolate spline s' hl dl' ival⟩

/-- C181: a spectrum in a wave space that is neither "wavelength" nor "wavenumber" is made without complaint
and has the solar constant of the file, but every in-band integration raises. -/
theorem C181_unknown_space (w e : List α) (ws : String) (h1 : ws ≠ "wavelength") (h2 : ws ≠ "wavenumber") (dl : Option α) :
    ∃ s t, solarNew (.ok (w, e)) (some ws) dl = .ok s ∧ solarNew (.ok (w, e)) none dl = .ok t ∧
      s.solarConstant = t.solarConstant ∧
      ∀ (spline : Spline α) (rsr : RsrArg α) (scale : α) (det : Nat),
        (∃ x, Solar.inbandSolarflux spline rsr scale det s = (.error x, s)) ∧
          ∃ x, Solar.inbandSolarirradiance spline rsr scale det s = (.error x, s) := by
  refine ⟨_, _, solarNew_plain w e ws h2 dl, (solarNew_default w e dl).trans (solarNew_plain w e _ (by decide) dl), rfl,
    fun spline rsr scale det => ?_⟩
  have hl : ∀ s : Solar α, s.wavespace = ws → s.wavenumber = none → Lost s := by
    intro s hs hn
    unfold Lost
    rw [hs, if_neg h1, hn]
  exact ⟨lost_band _ _ (hl _ rfl rfl) _ _ _ _, lost_band _ _ (hl _ rfl rfl) _ _ _ _⟩

end

/-- a two-line file -/
example : ∃ s s' : Solar XF, solarNew (.ok ([fin 1, fin 2], [fin 3, fin 4])) none none = .ok s ∧ s.convert2wavenumber = .ok s' ∧
    s'.irradianceUnit = "$W/m^2 (1e-6*m)^{-1})" ∧ ∃ x, Solar.inbandSolarflux exSpline exFlat 1 1 s' = (.error x, s') := by
  refine ⟨_, _, rfl, rfl, rfl, ?_⟩
  exact (C181_converted_fails [fin 1, fin 2] [fin 3, fin 4] none _ _ rfl rfl exSpline exFlat 1 1 none none).1

example : ∃ s : Solar XF, solarNew (.ok ([fin 1, fin 2], [fin 3, fin 4])) (some "wave_number") none = .ok s ∧
    ∃ x, Solar.inbandSolarflux exSpline exFlat 1 1 s = (.error x, s) := by
  obtain ⟨s, t, h1, _, _, h4⟩ := C181_unknown_space (α := XF) [fin 1, fin 2] [fin 3, fin 4] "wave_number" (by decide) (by decide) none
  exact ⟨s, h1, (h4 exSpline exFlat 1 1).1⟩

end Verif.Props
