import Verif.Props.Programs
import Verif.Props.OtherConvert
/-
C168: the conversion of the Landsat responses, from the two workbooks to the two files.
-/
namespace Verif.Props
open Model Spec Lemmas PyNum XF

/-- the bands of the two Landsat instruments -/
def landsatBands : List String := ["B1", "B2", "B3", "B4", "B5", "B6", "B7", "B8", "B9", "B10", "B11"]

/-- Where the responses of OLI are, for both satellites: the sheets of the bands. -/
def oliSheets : List (String × String) :=
  [("B1", "CoastalAerosol"), ("B2", "Blue"), ("B3", "Green"), ("B4", "Red"), ("B5", "NIR"), ("B6", "Cirrus"), ("B7", "SWIR1"),
   ("B8", "SWIR2"), ("B9", "Pan")]

/-- Where the responses of TIRS are: satellite, band, sheet and the heading of the column. -/
def tirsSheets : List (String × String × String × String) :=
  [("Landsat-8", "B10", "TIRS BA RSR", "TIRS1 10.8um band average"), ("Landsat-8", "B11", "TIRS BA RSR", "TIRS2 12.0um band average"),
   ("Landsat-9", "B10", "TIRS Band 10 BA RSR", "Band 10 Band=Average RSR"),
   ("Landsat-9", "B11", "TIRS Band 11 BA RSR", "Band 11 Band-Average RSR")]

/-- The place of a band: which of the two workbooks, which sheet, the columns of wavelengths and responses. -/
inductive LandsatPlace : String → String → String → String → String → String → Prop
  | oli (p b sheet : String) : (b, sheet) ∈ oliSheets → LandsatPlace p b "oli" sheet "Wavelength" "BA RSR [watts]"
  | tirs (p b sheet column : String) : (p, b, sheet, column) ∈ tirsSheets →
      LandsatPlace p b "tirs" sheet "wavelength [um]" column

/-- The configuration has the directory, the names of the two workbooks and the directory for response files. -/
structure LandsatAt (options : List (String × Conf)) (platform dir : String) (book : String → String) (out : String) : Prop where
  dir : InSection options platform "oli_tirs" "path" (.leaf (.str dir))
  oli : InSection options platform "oli_tirs" "oli" (.leaf (.str (book "oli")))
  tirs : InSection options platform "oli_tirs" "tirs" (.leaf (.str (book "tirs")))
  out : Dict.get? options "rsr_dir" = some (.leaf (.str out))

open Classical in
/-- the samples with a response above 0.002 -/
noncomputable def aboveNoise (samples : List (ℝ × ℝ)) : List (ℝ × ℝ) := samples.filter fun p => (0.002 : ℝ) < p.2

/-- The workbook has the samples (wavelengths in nm) in the two columns of the sheet, two of them or more above 0.002. -/
def InWorkbook (files : String → Option (String → Option (Frame XF))) (path sheet wcol rcol : String) (samples : List (ℝ × ℝ)) : Prop :=
  ∃ book df, files path = some book ∧ book sheet = some df ∧ Dict.get? df wcol = some (finL (samples.map Prod.fst)) ∧
    Dict.get? df rcol = some (finL (samples.map Prod.snd)) ∧ 2 ≤ (aboveNoise samples).length

theorem place_source {p b k sheet wcol rcol : String} (h : LandsatPlace p b k sheet wcol rcol) :
    oliKey b = .ok k ∧
    oliSource p b = .ok (k, sheet, wcol, rcol) ∧ (k = "oli" ∨ k = "tirs") := by
  cases h with
  | oli sheet h =>
    fin_cases h <;> exact ⟨rfl, rfl, .inl rfl⟩
  | tirs sheet column h =>
    fin_cases h <;> exact ⟨rfl, rfl, .inr rfl⟩

theorem toOption_iff {β : Type} (x : Py β) (v : β) : x.toOption = some v ↔ x = .ok v := by
  cases x <;> simp [Except.toOption]

theorem oliRSR_run {β : Type} [PyNum β] (options : List (String × Conf)) (files : String → Option (String → Option (Frame β)))
    (p dir out : String) (book : String → String) (h : LandsatAt options p dir book out) (b : String) :
    OliRSR options files b p = (do
      let key ← oliKey b
      match files (OsPath.join dir (book key)) with
      | none => .error .ioError
      | some bk => return RawSensor.ofCurve "oli_tirs" out (← oliLoad p b bk)) := by
  obtain ⟨⟨d, h1, h2⟩, ⟨d', h1', h3⟩, ⟨d'', h1'', h4⟩, h5⟩ := h
  obtain rfl : d' = d := by rw [h1] at h1'; cases h1'; rfl
  obtain rfl : d'' = d' := by rw [h1] at h1''; cases h1''; rfl
  unfold OliRSR InstrumentRSR.getOptionsFrom
  rw [(sectionOf_ok rfl).2 h1]
  simp only [bind, Except.bind]
  rw [getItem_ok_iff.2 h2, h5]
  simp only [pure, Except.pure]
  rw [(sectionOf_ok rfl).2 h1]
  simp only
  by_cases ho : OLI_BAND_NAMES.contains b = true
  · have hk : oliKey b = .ok "oli" := by unfold oliKey; rw [if_pos ho]
    simp only [hk, getItem_ok_iff.2 h3, Option.getD_some]
    rfl
  · by_cases ht : TIRS_BAND_NAMES_L8.contains b = true
    · have hk : oliKey b = .ok "tirs" := by unfold oliKey; rw [if_neg ho, if_pos ht]
      simp only [hk, getItem_ok_iff.2 h4, Option.getD_some]
      rfl
    · have hk : oliKey b = .error .valueError := by unfold oliKey; rw [if_neg ho, if_neg ht]
      simp only [hk]

/-- C168: a Landsat band is read from its own place in the workbook of its instrument, and its curve
consists of the samples with a response above 0.002, wavelengths in micron. -/
theorem C168_curve (options : List (String × Conf)) (files : String → Option (String → Option (Frame XF)))
    (p dir out : String) (book : String → String) (h : LandsatAt options p dir book out) (b k sheet wcol rcol : String)
    (hp : LandsatPlace p b k sheet wcol rcol) (samples : List (ℝ × ℝ))
    (hs : InWorkbook files (OsPath.join dir (book k)) sheet wcol rcol samples) :
    ∃ s, OliRSR options files b p = .ok s ∧ s.instrument = "oli_tirs" ∧ s.output_dir = out ∧
      HasRawCurve s (finL ((aboveNoise samples).map fun q => q.1 / 1000)) (finL ((aboveNoise samples).map Prod.snd)) := by
  obtain ⟨h1, h2, _⟩ := place_source hp
  obtain ⟨bk, df, g1, g2, g3, g4, _⟩ := hs
  refine ⟨RawSensor.ofCurve "oli_tirs" out (oliCut (finL (samples.map Prod.fst)) (finL (samples.map Prod.snd))), ?_, rfl, rfl, ?_⟩
  · rw [oliRSR_run options files p dir out book h b, h1]
    simp only [bind, Except.bind, g1, oliLoad, h2, g2, getItem_ok_iff.2 g3, getItem_ok_iff.2 g4]
    rfl
  · rw [C136_oli_samples]
    exact ⟨rfl, rfl⟩

/-- C168: a band that is none of the eleven is a ValueError; without the workbook of the instrument the
reading fails with an IOError; the responses of TIRS of any other satellite, or without the sheet, are a
ValueError; without one of the columns it is a KeyError. -/
theorem C168_errors {β : Type} [PyNum β] (options : List (String × Conf)) (files : String → Option (String → Option (Frame β)))
    (p dir out : String) (book : String → String) (h : LandsatAt options p dir book out) (b : String) :
    (b ∉ landsatBands → OliRSR options files b p = .error .valueError) ∧
    (b ∈ landsatBands.take 9 → files (OsPath.join dir (book "oli")) = none → OliRSR options files b p = .error .ioError) ∧
    (b ∈ landsatBands.drop 9 → files (OsPath.join dir (book "tirs")) = none → OliRSR options files b p = .error .ioError) ∧
    (b ∈ landsatBands.drop 9 → p ∉ ["Landsat-8", "Landsat-9"] → (files (OsPath.join dir (book "tirs"))).isSome →
      OliRSR options files b p = .error .valueError) ∧
    (∀ k sheet wcol rcol, LandsatPlace p b k sheet wcol rcol → ∀ bk, files (OsPath.join dir (book k)) = some bk →
      (bk sheet = none → OliRSR options files b p = .error .valueError) ∧
      (∀ df, bk sheet = some df → Dict.get? df wcol = none ∨ Dict.get? df rcol = none →
        OliRSR options files b p = .error .keyError)) := by
  rw [oliRSR_run options files p dir out book h b]
  refine ⟨fun hb => ?_, fun hb hf => ?_, fun hb hf => ?_, fun hb hp hf => ?_, fun k sheet wcol rcol hp bk hf => ⟨fun hs => ?_, fun df hs hd => ?_⟩⟩
  · simp only [landsatBands, List.mem_cons, List.not_mem_nil, or_false, not_or] at hb
    have h1 : OLI_BAND_NAMES.contains b = false := by
      simp [OLI_BAND_NAMES, Dict.contains, Dict.get?, hb, Ne.symm]
    have h2 : TIRS_BAND_NAMES_L8.contains b = false := by
      simp [TIRS_BAND_NAMES_L8, Dict.contains, Dict.get?, hb, Ne.symm]
    have hk : oliKey b = .error .valueError := by unfold oliKey; rw [h1, h2]; rfl
    rw [hk]
    rfl
  · have h1 : ∀ b ∈ landsatBands.take 9, (oliKey b).toOption = some "oli" := by decide +kernel
    rw [(toOption_iff _ _).1 (h1 b hb)]
    simp only [bind, Except.bind, hf]
  · have h1 : ∀ b ∈ landsatBands.drop 9, (oliKey b).toOption = some "tirs" := by decide +kernel
    rw [(toOption_iff _ _).1 (h1 b hb)]
    simp only [bind, Except.bind, hf]
  · have h1 : ∀ b ∈ landsatBands.drop 9, (oliKey b).toOption = some "tirs" := by decide +kernel
    have h2 := C136_unknown p b (.inr ⟨hb, hp⟩)
    obtain ⟨bk, hbk⟩ := Option.isSome_iff_exists.1 hf
    rw [(toOption_iff _ _).1 (h1 b hb)]
    simp only [bind, Except.bind, hbk, oliLoad, h2]
  · obtain ⟨h1, h2, _⟩ := place_source hp
    rw [h1]
    simp only [bind, Except.bind, hf, oliLoad, h2, hs]
  · obtain ⟨h1, h2, _⟩ := place_source hp
    rw [h1]
    simp only [bind, Except.bind, hf, oliLoad, h2, hs]
    by_cases hw : Dict.get? df wcol = none
    · simp only [getItem_err_iff.2 ⟨rfl, hw⟩]
    · obtain ⟨w, hw'⟩ := Option.ne_none_iff_exists'.1 hw
      simp only [getItem_ok_iff.2 hw', getItem_err_iff.2 ⟨rfl, hd.resolve_left hw⟩]

theorem place_of (p b : String) (hp : p ∈ ["Landsat-8", "Landsat-9"]) (hb : b ∈ landsatBands) :
    ∃ k sheet wcol rcol, LandsatPlace p b k sheet wcol rcol := by
  have h9 : ∀ b ∈ landsatBands, b ∈ oliSheets.map Prod.fst ∨ b ∈ ["B10", "B11"] := by decide +kernel
  rcases h9 b hb with h | h
  · obtain ⟨q, hq, rfl⟩ := List.mem_map.1 h
    exact ⟨_, _, _, _, .oli p q.1 q.2 hq⟩
  · have : ∀ p ∈ ["Landsat-8", "Landsat-9"], ∀ b ∈ ["B10", "B11"], (p, b) ∈ tirsSheets.map fun t => (t.1, t.2.1) := by decide +kernel
    obtain ⟨⟨p', b', s, c⟩, ht, e⟩ := List.mem_map.1 (this p hp b h)
    cases e
    exact ⟨_, _, _, _, .tirs _ _ s c ht⟩

/-- C168: with the workbooks of both satellites in place the program writes a file for each of them, which
reads back with the eleven bands in order and, for every band, the responses above 0.002 of its own sheet
and column. -/
theorem C168_program (o : Originals XF) (f32 : XF → XF) (dir : String → String) (book : String → String → String) (out : String)
    (h : ∀ p ∈ ["Landsat-8", "Landsat-9"], LandsatAt o.options p (dir p) (book p) out) (S : String → String → List (ℝ × ℝ))
    (hs : ∀ p ∈ ["Landsat-8", "Landsat-9"], ∀ b k sheet wcol rcol, LandsatPlace p b k sheet wcol rcol →
      InWorkbook o.frames (OsPath.join (dir p) (book p k)) sheet wcol rcol (S p b)) (fs : H5Files XF) :
    ∃ fs', runJobs f32 (oliProgram o) fs = (.ok (), fs') ∧ ∀ p ∈ ["Landsat-8", "Landsat-9"],
      ∃ f info, fs' (out, "rsr_oli_tirs_" ++ p ++ ".h5") = some f ∧ loadRsrInfo f = .ok info ∧ info.rsr.keys = landsatBands ∧
        ∀ b ∈ landsatBands, ∃ B, info.rsr.get? b = some [("det-1", B)] ∧
          B.get? "response" = some (.arr ((aboveNoise (S p b)).map fun q => f32 (fin q.2))) := by
  have key : ∀ p ∈ ["Landsat-8", "Landsat-9"], ∃ f info,
      convert2hdf5 f32 (OliRSR o.options o.frames) p landsatBands 1e-6 none = .ok ((out, "rsr_oli_tirs_" ++ p ++ ".h5"), f) ∧
      loadRsrInfo f = .ok info ∧ info.rsr.keys = landsatBands ∧ ∀ b ∈ landsatBands, ∃ B, info.rsr.get? b = some [("det-1", B)] ∧
          B.get? "response" = some (.arr ((aboveNoise (S p b)).map fun q => f32 (fin q.2))) := by
    intro p hp
    have hs : ∀ b ∈ landsatBands, ∃ s, OliRSR o.options o.frames b p = .ok s ∧ s.instrument = "oli_tirs" ∧ s.output_dir = out ∧
        HasRawCurve s (finL ((aboveNoise (S p b)).map fun q => q.1 / 1000)) (finL ((aboveNoise (S p b)).map Prod.snd)) := by
      intro b hb
      obtain ⟨k, sheet, wcol, rcol, hpl⟩ := place_of p b hp hb
      exact C168_curve o.options o.frames p (dir p) out (book p) (h p hp) b k sheet wcol rcol hpl (S p b)
        (hs p hp b k sheet wcol rcol hpl)
    haveI : Nonempty (RawSensor XF) := ⟨⟨"", "", [], []⟩⟩
    choose! s hs1 hs2 hs3 hs4 using hs
    obtain ⟨path, f, info, h1, h2, h3, h4, h5⟩ := C50_wavelengths_are_responses f32 (OliRSR o.options o.frames) p landsatBands 1e-6
      (by decide +kernel) (by decide +kernel) s hs1 (fun b => finL ((aboveNoise (S p b)).map fun q => q.1 / 1000))
      (fun b => finL ((aboveNoise (S p b)).map Prod.snd)) (fun b hb => ⟨(hs4 b hb).1, (hs4 b hb).2, by simp [finL]⟩)
    obtain ⟨_, b, rest, s', hn, hs', e⟩ := (C131_same_result f32 (OliRSR o.options o.frames) p landsatBands 1e-6 none fs).1 path f h1
    have hb : b ∈ landsatBands := by rw [hn]; simp
    rw [hs1 b hb] at hs'
    cases hs'
    rw [hs2 b hb, hs3 b hb] at e
    refine ⟨f, info, ?_, h2, h4, fun b hb => ?_⟩
    · rw [h1, e]
      have : withoutSlashes "oli_tirs" = "oli_tirs" := by decide +kernel
      rw [this]
      rfl
    · obtain ⟨c, _, hc⟩ := h5 b hb
      exact ⟨_, hc, by simp [Dict.get?, finL, Function.comp_def]⟩
  have hjob : ∀ j ∈ oliProgram o, ∃ p ∈ ["Landsat-8", "Landsat-9"],
      j = ⟨OliRSR o.options o.frames, p, landsatBands, none⟩ := by
    intro j hj
    obtain ⟨p, hp, rfl⟩ := List.mem_map.1 hj
    exact ⟨p, hp, rfl⟩
  obtain ⟨fs', g1, g2, _⟩ := C167_all_written f32 (oliProgram o) (C167_programs o f32 _ (by simp [convertPrograms])) (by
    intro j hj
    obtain ⟨p, hp, rfl⟩ := hjob j hj
    obtain ⟨f, _, hf, _⟩ := key p hp
    exact ⟨_, f, hf⟩) fs
  refine ⟨fs', g1, fun p hp => ?_⟩
  obtain ⟨f, info, k1, k2, k3, k4⟩ := key p hp
  obtain ⟨q, f', e1, e2⟩ := g2 ⟨OliRSR o.options o.frames, p, landsatBands, none⟩ (List.mem_map.2 ⟨p, hp, rfl⟩)
  have e1 : convert2hdf5 f32 (OliRSR o.options o.frames) p landsatBands 1e-6 none = .ok (q, f') := e1
  rw [k1] at e1
  cases e1
  exact ⟨f, info, e2, k2, k3, k4⟩

/-- a configuration with the workbooks of both satellites -/
def exLandsat : List (String × Conf) :=
  ("rsr_dir", .leaf (.str "/rsr")) :: ["Landsat-8", "Landsat-9"].map fun p =>
    (p ++ "-oli_tirs", .map [("path", .leaf (.str "/raw")), ("oli", .leaf (.str (p ++ "-oli.xlsx"))),
      ("tirs", .leaf (.str (p ++ "-tirs.xlsx")))])

theorem exLandsat_at (p : String) (hp : p ∈ ["Landsat-8", "Landsat-9"]) :
    LandsatAt exLandsat p "/raw" (fun k => p ++ "-" ++ k ++ ".xlsx") "/rsr" := by
  fin_cases hp <;> exact ⟨⟨_, rfl, rfl⟩, ⟨_, rfl, rfl⟩, ⟨_, rfl, rfl⟩, rfl⟩

/-- every sheet of every workbook: three samples, of which the first is noise -/
noncomputable def exLandsatBook (_ : String) : Option (String → Option (Frame XF)) :=
  some fun _ => some (("Wavelength", finL [430, 440, 450]) :: ("wavelength [um]", finL [430, 440, 450]) ::
    ("BA RSR [watts]", finL [0.001, 0.5, 1]) :: (tirsSheets.map fun t => (t.2.2.2, finL [0.001, 0.5, 1])))

theorem exLandsat_in (p b k sheet wcol rcol path : String) (h : LandsatPlace p b k sheet wcol rcol) :
    InWorkbook exLandsatBook path sheet wcol rcol [(430, 0.001), (440, 0.5), (450, 1)] := by
  refine ⟨_, _, rfl, rfl, ?_, ?_, ?_⟩
  · cases h with
    | oli sheet h => rfl
    | tirs sheet column h => rfl
  · cases h with
    | oli sheet h => rfl
    | tirs sheet column h => fin_cases h <;> rfl
  · unfold aboveNoise
    norm_num [List.filter_cons]

example (o : Originals XF) (fs : H5Files XF) : ∃ fs' f info B,
    runJobs id (oliProgram { o with options := exLandsat, frames := exLandsatBook }) fs = (.ok (), fs') ∧
    fs' ("/rsr", "rsr_oli_tirs_Landsat-9.h5") = some f ∧ loadRsrInfo f = .ok info ∧ info.rsr.get? "B11" = some [("det-1", B)] ∧
    B.get? "response" = some (.arr (finL [0.5, 1])) := by
  obtain ⟨fs', h1, h2⟩ := C168_program { o with options := exLandsat, frames := exLandsatBook } id (fun _ => "/raw")
    (fun p k => p ++ "-" ++ k ++ ".xlsx") "/rsr" exLandsat_at (fun _ _ => [(430, 0.001), (440, 0.5), (450, 1)])
    (fun p _ b k sheet wcol rcol h => exLandsat_in p b k sheet wcol rcol _ h) fs
  obtain ⟨f, info, h3, h4, _, h5⟩ := h2 "Landsat-9" (by simp)
  obtain ⟨B, h6, h7⟩ := h5 "B11" (by decide)
  refine ⟨fs', f, info, B, h1, h3, h4, h6, ?_⟩
  rw [h7]
  unfold aboveNoise
  norm_num [List.filter_cons, finL]

end Verif.Props
