import Verif.Props.LutDownload
import Verif.Props.SolarConversion
import Verif.Props.MoreConvert
import Verif.Props.Converters
/-
Further theorems of C18, C52, C67 and C136: default values and places of data, each found missing by a wrong program that no
theorem noticed.
-/
namespace Verif.Props
open XF Model PyNum Lemmas Spec

/-- C67: `download_luts()` without arguments is for every aerosol type: with a good server it succeeds, requests the address
of each type exactly once and leaves the tables of all types current. -/
theorem C67_all_types_by_default (env : Env) (w : World) (hg : ∀ t ∈ AEROSOL_TYPES, GoodLut env t) :
    Eff.result (downloadLuts env) w = .ok () ∧ (∀ t ∈ AEROSOL_TYPES, LutCurrent env (Eff.final (downloadLuts env) w) t) ∧
    ∃ urls, (Eff.final (downloadLuts env) w).requests = w.requests ++ urls ∧ urls.Perm (AEROSOL_TYPES.map lutUrl) := by
  have e : (downloadLuts env : Eff Unit) = Eff.forEach (downloadLut env false) HTTPS_RAYLEIGH_LUTS.keys := rfl
  have hp : HTTPS_RAYLEIGH_LUTS.keys.Perm AEROSOL_TYPES := by decide +kernel
  have hm : ∀ t, t ∈ HTTPS_RAYLEIGH_LUTS.keys ↔ t ∈ AEROSOL_TYPES := fun t => hp.mem_iff
  obtain ⟨h1, h2⟩ := downloads_good env HTTPS_RAYLEIGH_LUTS.keys (fun t ht => ⟨(hm t).1 ht, hg t ((hm t).1 ht)⟩) w
  unfold Eff.result Eff.final
  rw [e]
  refine ⟨h1, fun t ht => h2 t (.inl ((hm t).2 ht)), _, downloads_all env _ (fun t ht => (hm t).1 ht) w (by rw [h1]; rfl), hp.map _⟩

/-- C67: types given to `download_luts`, by either name of the argument, are the ones requested, in this order; the old name of
the argument goes before the new one. -/
theorem C67_given_types (env : Env) (w : World) (ts : List String) (hts : ∀ t ∈ ts, t ∈ AEROSOL_TYPES ∧ GoodLut env t)
    (other : Option (List String)) :
    (Eff.final (downloadLuts env (some ts)) w).requests = w.requests ++ ts.map lutUrl ∧
    (Eff.final (downloadLuts env other false (some ts)) w).requests = w.requests ++ ts.map lutUrl := by
  have h : (Eff.forEach (downloadLut env false) ts w).2.1.requests = w.requests ++ ts.map lutUrl :=
    downloads_all env ts (fun t ht => (hts t ht).1) w (by rw [(downloads_good env ts hts w).1]; rfl)
  exact ⟨h, h⟩

/-- a server with the version files of all types -/
def exampleAllLuts : Env where
  cfg := { rsr_dir := "/rsr", rayleigh_dir := "/ray", download_from_internet := true }
  server := fun _ => .answered 200 true ["TAR".toList]
  untar := fun _ => (ATM_CORRECTION_LUT_VERSION.map fun e => (e.2.2, "v1.0.1".toList), true)

theorem exampleAllLuts_good : ∀ t ∈ AEROSOL_TYPES, GoodLut exampleAllLuts t := by
  intro t ht
  have h1 : ∀ t ∈ AEROSOL_TYPES, ∃ e ∈ ATM_CORRECTION_LUT_VERSION, e.1 = t ∧ e.2.1 = "v1.0.1" := by decide +kernel
  have h2 : (ATM_CORRECTION_LUT_VERSION.map fun e => e.2.2).Nodup := by decide +kernel
  obtain ⟨⟨a, v, f⟩, he, rfl, hv⟩ := h1 t ht
  obtain rfl : v = "v1.0.1" := hv
  obtain ⟨pre, post, hs⟩ := List.append_of_mem he
  refine ⟨["TAR".toList], ⟨200, rfl, by decide⟩, f, pre.map (fun e => (e.2.2, "v1.0.1".toList)), "v1.0.1".toList,
    post.map (fun e => (e.2.2, "v1.0.1".toList)), he, ?_, ?_, [], [], [], rfl, by simp, by simp, Or.inl rfl⟩
  · show (ATM_CORRECTION_LUT_VERSION.map _, true) = _
    rw [hs, List.map_append, List.map_cons]
  · intro m hm
    obtain ⟨e, he', rfl⟩ := List.mem_map.1 hm
    rw [hs, List.map_append, List.map_cons, List.nodup_append] at h2
    have := (List.nodup_cons.1 h2.2.1).1
    intro hc
    exact this (List.mem_map.2 ⟨e, he', hc⟩)

example : LutCurrent exampleAllLuts (Eff.final (downloadLuts exampleAllLuts) emptyWorld) "rayleigh_only" :=
  (C67_all_types_by_default exampleAllLuts emptyWorld exampleAllLuts_good).2.1 _ (by decide +kernel)

example : (Eff.final (downloadLuts exampleAllLuts none false (some ["rural_aerosol"])) emptyWorld).requests =
    [lutUrl "rural_aerosol"] :=
  (C67_given_types exampleAllLuts emptyWorld ["rural_aerosol"] (fun t ht => by
    obtain rfl : t = "rural_aerosol" := by simpa using ht
    exact ⟨by decide +kernel, exampleAllLuts_good _ (by decide +kernel)⟩) none).2

/-- C52: without a step the spectrum is the one made with a step of 0.005 micron, or of 2 per cm in wavenumber space, so every
later use of it (resampling, in-band flux) is with this step. -/
theorem C52_default_step (file : Py (List XF × List XF)) :
    solarNew file none none = solarNew file (some "wavelength") (some (fin 0.005)) ∧
    solarNew file (some "wavelength") none = solarNew file (some "wavelength") (some (fin 0.005)) ∧
    solarNew file (some "wavenumber") none = solarNew file (some "wavenumber") (some (fin 2)) ∧
    ∀ ws dl s, solarNew file ws (some dl) = .ok s → s.dlambda = dl := by
  have h2 : (1.0 / (0.005 * 100.0) : XF) = fin 2 := by
    show (fin 1.0 / (fin 0.005 * fin 100.0)) = _
    rw [fin_mul, fin_div _ (by norm_num)]
    norm_num
  refine ⟨rfl, rfl, ?_, ?_⟩
  · rw [← h2]; rfl
  · intro ws dl s h
    unfold solarNew at h
    cases hf : file with
    | error e => rw [hf] at h; cases h
    | ok p =>
      obtain ⟨w, e⟩ := p
      rw [hf] at h
      simp only [bind, Except.bind, pure, Except.pure] at h
      split at h
      · unfold Solar.convert2wavenumber at h
        simp only [notNone, bind, Except.bind, pure, Except.pure] at h
        split at h
        · cases h
        · rename_i hh
          split at hh
          · cases hh
          · split at hh
            · cases hh
            · cases hh; cases h; rfl
      · cases h; rfl

example : ∃ s, solarNew (.ok (finL [3, 3.5, 4], finL [10, 10, 10])) (some "wavenumber") none = .ok s ∧ s.dlambda = fin 2 := by
  obtain ⟨-, -, h1, h2⟩ := C52_default_step (.ok (finL [3, 3.5, 4], finL [10, 10, 10]))
  have h3 : ∃ s, solarNew (.ok (finL [3, 3.5, 4], finL [10, 10, 10])) (some "wavenumber") (some (fin 2)) = .ok s := ⟨_, rfl⟩
  obtain ⟨s, hs⟩ := h3
  exact ⟨s, h1.trans hs, h2 _ _ _ hs⟩

/-- C136: where the bands are: the file, its sheet and the columns of wavelength and response. The thermal bands of Landsat-8
share a sheet and have a column each, those of Landsat-9 have a sheet each. -/
theorem C136_named_places :
    (∀ p ∈ ["Landsat-8", "Landsat-9"], ∀ e ∈ [("B1", "CoastalAerosol"), ("B2", "Blue"), ("B3", "Green"), ("B4", "Red"), ("B5", "NIR"),
      ("B6", "Cirrus"), ("B7", "SWIR1"), ("B8", "SWIR2"), ("B9", "Pan")],
      oliSource p e.1 = .ok ("oli", e.2, "Wavelength", "BA RSR [watts]")) ∧
    (∀ e ∈ [("B10", "TIRS1 10.8um band average"), ("B11", "TIRS2 12.0um band average")],
      oliSource "Landsat-8" e.1 = .ok ("tirs", "TIRS BA RSR", "wavelength [um]", e.2)) ∧
    (∀ e ∈ [("B10", "10", "="), ("B11", "11", "-")],
      oliSource "Landsat-9" e.1 = .ok ("tirs", "TIRS Band " ++ e.2.1 ++ " BA RSR", "wavelength [um]",
        "Band " ++ e.2.1 ++ " Band" ++ e.2.2 ++ "Average RSR")) := by
  refine ⟨?_, ?_, ?_⟩
  · intro p hp e he
    fin_cases hp <;> fin_cases he <;> rfl
  · intro e he
    fin_cases he <;> rfl
  · intro e he
    fin_cases he <;> rfl

variable {α : Type} [PyNum α]

/-- A converter without its temperature resolution. -/
def resolutionless (c : RadTb α) (a b : α) : RadTb α := { c with tb_resolution := a, tb_scale := b }

/-- C18: apart from zero, the temperature resolution (negative or not) has no influence on whether a converter can be made, nor on
what it holds besides the resolution and its inverse. -/
theorem C18_any_resolution (sensor : Py (Sensor α)) (p i d ws : String) (band : BandArg α) (a b : α)
    (ha : PyNum.eq a 0 = false) (hb : PyNum.eq b 0 = false) :
    RadTb.new sensor p i band d ws b = (RadTb.new sensor p i band d ws a).map fun c => resolutionless c b (1.0 / b) := by
  unfold RadTb.new
  simp only [ha, hb, Bool.false_eq_true, if_false]
  split
  · rfl
  cases sensor with
  | error e => rfl
  | ok s =>
    simp only [bind, Except.bind, pure, Except.pure]
    by_cases hn : ws = WAVE_NUMBER
    · simp only [hn, if_true]
      cases convert2wavenumber s.rsr with
      | error e => rfl
      | ok x =>
        dsimp only
        cases converterBandname i x.1 band with
        | error e => rfl
        | ok bn =>
          dsimp only
          cases converterLookup WAVE_NUMBER s.instrument x.1 bn with
          | error e => rfl
          | ok B =>
            dsimp only
            cases Dict.getItem B d with
            | error e => rfl
            | ok det =>
              dsimp only
              cases getArr det WAVE_NUMBER with
              | error e => rfl
              | ok w =>
                dsimp only
                cases getArr det "response" with
                | error e => rfl
                | ok r =>
                  dsimp only
                  cases NP.trapezoid r (w.map (· * x.2.si_scale)) <;> rfl
    · simp only [hn, if_false]
      cases converterBandname i s.rsr band with
      | error e => rfl
      | ok bn =>
        dsimp only
        cases converterLookup ws s.instrument s.rsr bn with
        | error e => rfl
        | ok B =>
          dsimp only
          cases Dict.getItem B d with
          | error e => rfl
          | ok det =>
            dsimp only
            cases getArr det ws with
            | error e => rfl
            | ok w =>
              dsimp only
              cases getArr det "response" with
              | error e => rfl
              | ok r =>
                dsimp only
                cases NP.trapezoid r (w.map (· * s.si_scale)) <;> rfl

/-- a converter with a negative resolution -/
example : ∃ c, RadTb.new (.ok exSensor) "P" "xyz" (.name "ch4") "det-1" "wavelength" (fin (-0.1)) = .ok c ∧
    c.bandname = some "ch4" ∧ c.tb_resolution = fin (-0.1) := by
  obtain ⟨c, hc, hb⟩ := exNew_wavelength
  have := C18_any_resolution (.ok exSensor) "P" "xyz" "det-1" "wavelength" (.name "ch4") 0.1 (fin (-0.1))
    (Bool.eq_false_iff.2 (nonzero_resolution tenth_nonzero)) (by
      rw [Bool.eq_false_iff]
      show ¬ PyNum.eq (α := XF) (fin (-0.1)) (fin ((0 : ℤ) : ℝ)) = true
      rw [eq_fin]
      norm_num)
  rw [hc] at this
  exact ⟨_, this, hb, rfl⟩

end Verif.Props
