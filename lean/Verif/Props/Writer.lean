import Verif.Props.ReadFile
import Verif.Lemmas.Writer
/-
Properties C50 and C51: writing response files in the internal format and reading them back.
-/
namespace Verif.Props
open Model Spec Lemmas PyNum XF
variable {α : Type} [PyNum α]

/-- The original data of one detector: wavelengths and responses of the same length. -/
def RawData (d : DetRsr α) (w r : List α) : Prop :=
  d.get? "wavelength" = some (.arr w) ∧ d.get? "response" = some (.arr r) ∧ w.length = r.length

/-- the samples with a known wavelength -/
def knownSamples (w r : List α) : List (α × α) := (w.zip r).filter fun p => !isNaN p.1

/-- `c` is the central wavelength of the samples with a known wavelength -/
def WrittenCentral (w r : List α) (c : α) : Prop :=
  getCentralWave ((knownSamples w r).map Prod.fst) ((knownSamples w r).map Prod.snd) = .ok c

theorem withoutNaN_resp (w r : List α) (h : w.length = r.length) :
    withoutNaN w r = .ok ((knownSamples w r).map Prod.snd) := by
  unfold withoutNaN knownSamples
  rw [if_pos h, select_eq w r h]

theorem withoutNaN_wvl (w r : List α) (h : w.length = r.length) :
    withoutNaN w w = .ok ((knownSamples w r).map Prod.fst) := by
  unfold withoutNaN knownSamples
  rw [if_pos rfl, select_self w r h]

theorem getArr_of {d : DetRsr α} {k : String} {xs : List α} (h : d.get? k = some (.arr xs)) :
    getArr d k = .ok xs := by
  unfold getArr; rw [getItem_ok_iff.2 h]; rfl

theorem writeSingle_run (f32 : α → α) (s : RawSensor α) (scale : α) (w r : List α) (h : RawData s.own w r) :
    ∃ c, WrittenCentral w r c ∧ writeSingle f32 s scale = .ok
      { attrs := [("central_wavelength", .num c "")],
        datasets := [("response", ⟨r.map f32, []⟩),
          ("wavelength", ⟨r.map f32, [("unit", .text (.str "m") "m"), ("scale", .num scale "")]⟩)],
        dets := [] } := by
  obtain ⟨h1, h2, h3⟩ := h
  obtain ⟨c, hc⟩ := centralWave_total ((knownSamples w r).map Prod.fst) ((knownSamples w r).map Prod.snd) (by simp)
  refine ⟨c, hc, ?_⟩
  unfold writeSingle
  rw [getArr_of h1, getArr_of h2]
  simp only [bind, Except.bind]
  rw [withoutNaN_wvl w r h3, withoutNaN_resp w r h3]
  simp only
  rw [hc]; rfl

theorem writeDetector_run (f32 : α → α) (s : RawSensor α) (w : List α) (det : String) (d : DetRsr α)
    (r : List α) (hd : s.dets.get? det = some d) (h : RawData d w r) :
    ∃ c, WrittenCentral w r c ∧ ∀ wvl, withoutNaN w w = .ok wvl → writeDetector f32 s wvl det = .ok
      ({ attrs := [("central_wavelength", .num c "")], datasets := [("response", ⟨r.map f32, []⟩)] }, r) := by
  obtain ⟨h1, h2, h3⟩ := h
  obtain ⟨c, hc⟩ := centralWave_total ((knownSamples w r).map Prod.fst) ((knownSamples w r).map Prod.snd) (by simp)
  refine ⟨c, hc, ?_⟩
  intro wvl hwvl
  rw [withoutNaN_wvl w r h3] at hwvl
  cases hwvl
  unfold writeDetector
  rw [getItem_ok_iff.2 hd]
  simp only [bind, Except.bind]
  rw [getArr_of h1, getArr_of h2]
  simp only
  rw [withoutNaN_resp w r h3]
  simp only
  rw [hc]; rfl

/-- The detectors of a band are det-1 to det-n and share the wavelengths `w` (as the writer
assumes); `r i` are the responses of detector i. -/
def DetectorData (s : RawSensor α) (n : Nat) (w : List α) (r : Nat → List α) : Prop :=
  ∀ i < n, ∃ d, s.dets.get? (detName i) = some d ∧ RawData d w (r i)

theorem writeMulti_run (f32 : α → α) (s : RawSensor α) (scale : α) (n : Nat) (w : List α) (r : Nat → List α)
    (h : DetectorData s (n + 1) w r) :
    ∃ dets, writeMulti f32 s scale ((List.range (n + 1)).map detName) = .ok
      { attrs := [("number_of_detectors", .int ((n + 1 : Nat) : Int))],
        datasets := [("wavelength", ⟨(r n).map f32, [("unit", .text (.str "m") "m"), ("scale", .num scale "")]⟩)],
        dets := dets } ∧
      ∀ i < n + 1, ∃ c, WrittenCentral w (r i) c ∧ dets.get? (detName i) = some
        { attrs := [("central_wavelength", .num c "")], datasets := [("response", ⟨(r i).map f32, []⟩)] } := by
  obtain ⟨d0, hd0, hr0⟩ := h 0 (by omega)
  have hw0 := withoutNaN_wvl w (r 0) hr0.2.2
  obtain ⟨out, arr', h1, h2, _, _, h5⟩ := writeDetectors_ok f32 s ((knownSamples w (r 0)).map Prod.fst)
    ((List.range (n + 1)).map detName) [] [] (names_nodup _) (by simp [Dict.keys]) (by
      intro d hd
      obtain ⟨i, hi, rfl⟩ := List.mem_map.1 hd
      obtain ⟨di, hdi, hri⟩ := h i (by simpa using hi)
      obtain ⟨c, _, hc⟩ := writeDetector_run f32 s w _ di (r i) hdi hri
      exact ⟨_, hc _ hw0⟩)
  have hval : ∀ i < n + 1, ∃ c, WrittenCentral w (r i) c ∧
      writeDetector f32 s ((knownSamples w (r 0)).map Prod.fst) (detName i) = .ok
      ({ attrs := [("central_wavelength", .num c "")], datasets := [("response", ⟨(r i).map f32, []⟩)] }, r i) := by
    intro i hi
    obtain ⟨di, hdi, hri⟩ := h i hi
    obtain ⟨c, hc1, hc⟩ := writeDetector_run f32 s w _ di (r i) hdi hri
    exact ⟨c, hc1, hc _ hw0⟩
  have harr : arr' = r n := by
    obtain ⟨g, hg, ha⟩ := h5 (detName n) (by simp [List.range_succ])
    obtain ⟨c, _, hc⟩ := hval n (by omega)
    rw [hc] at hg; cases hg
    exact ha
  refine ⟨out, ?_, ?_⟩
  · have hl : (List.range (n + 1)).map detName = detName 0 :: (List.range' 1 n).map detName := by
      rw [List.range_eq_range', List.range'_succ]; rfl
    have hlen : ((List.range (n + 1)).map detName).length = n + 1 := by simp
    have hm : writeMulti f32 s scale ((List.range (n + 1)).map detName) = (do
        let wavelength ← getArr (← s.dets.getItem (detName 0)) "wavelength"
        let wvl ← withoutNaN wavelength wavelength
        let (groups, arr) ← writeDetectors f32 s wvl ((List.range (n + 1)).map detName) [] []
        return { attrs := [("number_of_detectors", .int ((List.range (n + 1)).map detName).length)],
                 datasets := [saveWavelengths f32 arr scale], dets := groups }) := by
      rw [hl]; rfl
    rw [hm, getItem_ok_iff.2 hd0]
    simp only [bind, Except.bind]
    rw [getArr_of hr0.1]
    simp only
    rw [hw0]
    simp only
    rw [h1, hlen, harr]
    rfl
  · intro i hi
    obtain ⟨g, hg, hget⟩ := h2 (detName i) (List.mem_map.2 ⟨i, by simpa using hi, rfl⟩)
    obtain ⟨c, hc1, hc⟩ := hval i hi
    rw [hc] at hg; cases hg
    exact ⟨c, hc1, hget⟩

/-- the whole run, given that every band can be written -/
theorem convert_run (f32 : α → α) (ClassIn : String → String → Py (RawSensor α)) (platform : String)
    (names : List String) (scale : α) (ds : Option (List String)) (hne : names ≠ []) (hnd : names.Nodup)
    (S : String → RawSensor α) (hS : ∀ b ∈ names, ClassIn b platform = .ok (S b))
    (hw : ∀ b ∈ names, ∃ B, writeBandGroup f32 (S b) scale ds = .ok B) :
    ∃ first file, names.head? = some first ∧
      convert2hdf5 f32 ClassIn platform names scale ds = .ok
        (((S first).output_dir, "rsr_" ++ withoutSlashes (S first).instrument ++ "_" ++ platform ++ ".h5"), file) ∧
      file.attrs = globalAttrs (S first).instrument platform names ∧
      ∀ b ∈ names, ∃ B, writeBandGroup f32 (S b) scale ds = .ok B ∧ file.bands.get? b = some B := by
  have hmap : names.mapM (fun b => ClassIn b platform) = .ok (names.map S) :=
    mapM_ok _ S names hS
  have hzip : names.zip (names.map S) = names.map fun b => (b, S b) := by
    have aux : ∀ l : List String, l.zip (l.map S) = l.map fun b => (b, S b) := by
      intro l; induction l with
      | nil => rfl
      | cons a l ih => simp [ih]
    exact aux names
  obtain ⟨bands, h1, h2, _, _⟩ := writeChannels_ok f32 scale ds (names.map fun b => (b, S b)) []
    (by simpa [Function.comp_def] using hnd) (by simp [Dict.keys]) (by
      intro p hp
      obtain ⟨b, hb, rfl⟩ := List.mem_map.1 hp
      exact hw b hb)
  cases hn : names with
  | nil => exact absurd hn hne
  | cons first rest =>
    refine ⟨first, ⟨globalAttrs (S first).instrument platform names, bands⟩, rfl, ?_, by rw [hn], ?_⟩
    · unfold convert2hdf5
      rw [hn] at hmap hzip h1
      rw [hmap]
      simp only [bind, Except.bind, List.map_cons]
      rw [List.map_cons] at hzip
      rw [hzip, h1, ← hn]
      have hsl : Str.removeChar '/' (S first).instrument = withoutSlashes (S first).instrument := by
        unfold Str.removeChar withoutSlashes
        refine congrArg String.ofList ?_
        apply List.filter_congr
        intro c _
        by_cases hc : c = '/' <;> simp [hc]
      rw [hsl]
      rfl
    · intro b hb
      rw [← hn] at hb
      exact h2 (b, S b) (List.mem_map.2 ⟨b, hb, rfl⟩)

theorem globalAttrs_spec (f : H5File α) (inst platform : String) (names : List String)
    (h : f.attrs = globalAttrs inst platform names) :
    ListsBands f names ∧ PlatformIs f (some (oscarName platform)) ∧
    (∃ v, f.attrs.get? "description" = some v ∧ AttrText v ("Relative Spectral Responses for " ++ Str.upper inst)) ∧
    f.attrs.get? "sensor" = none := by
  refine ⟨⟨.object_, names.map .str, "", by rw [h]; rfl, ?_⟩, ?_, ⟨_, by rw [h]; rfl, ?_⟩, by rw [h]; rfl⟩
  · clear h
    induction names with
    | nil => exact .nil
    | cons a l ih => exact .cons (.str a) ih
  · exact PlatformIs.named _ platform (by rw [h]; rfl) ⟨.str platform, platform, rfl, .str _⟩
  · exact ⟨_, _, rfl, .str _⟩

/-- C51 (one detector per band): for distinct band names whose original data have wavelengths and
responses of equal length, the conversion succeeds; the file is named after the instrument
(without slashes) and the platform, lists the band names, and holds for every band its response
as given (in 32 bit) and the central wavelength of the samples with a known wavelength. -/
theorem C51_single_detector (f32 : α → α) (ClassIn : String → String → Py (RawSensor α)) (platform : String)
    (names : List String) (scale : α) (hne : names ≠ []) (hnd : names.Nodup)
    (S : String → RawSensor α) (hS : ∀ b ∈ names, ClassIn b platform = .ok (S b))
    (w r : String → List α) (hd : ∀ b ∈ names, RawData (S b).own (w b) (r b)) :
    ∃ first file, names.head? = some first ∧
      convert2hdf5 f32 ClassIn platform names scale none = .ok
        (((S first).output_dir, "rsr_" ++ withoutSlashes (S first).instrument ++ "_" ++ platform ++ ".h5"), file) ∧
      ListsBands file names ∧ PlatformIs file (some (oscarName platform)) ∧
      ∀ b ∈ names, DetectorCount file b 1 ∧ HasResponse file b "det-1" ((r b).map f32) ∧
        ∃ c, HasCentral file b "det-1" c ∧ WrittenCentral (w b) (r b) c := by
  obtain ⟨first, file, h1, h2, h3, h4⟩ := convert_run f32 ClassIn platform names scale none hne hnd S hS (by
    intro b hb
    obtain ⟨c, _, hc⟩ := writeSingle_run f32 (S b) scale (w b) (r b) (hd b hb)
    exact ⟨_, hc⟩)
  obtain ⟨g1, g2, _, _⟩ := globalAttrs_spec file _ platform names h3
  refine ⟨first, file, h1, h2, g1, g2, ?_⟩
  intro b hb
  obtain ⟨B, hB, hget⟩ := h4 b hb
  obtain ⟨c, hc1, hc⟩ := writeSingle_run f32 (S b) scale (w b) (r b) (hd b hb)
  rw [show writeBandGroup f32 (S b) scale none = writeSingle f32 (S b) scale from rfl, hc] at hB
  cases hB
  refine ⟨Or.inr ⟨?_, rfl⟩, ⟨_, hget, Or.inr ⟨?_, rfl⟩⟩, c, ⟨_, ⟨_, hget, Or.inr ⟨?_, rfl⟩⟩, Or.inr ⟨_, rfl⟩⟩, hc1⟩
  · intro B' hB'; rw [hget] at hB'; cases hB'; rfl
  · intro D hD; cases hD
  · intro D hD; cases hD

/-- C51 (several detectors det-1 to det-n with common wavelengths): likewise for every detector
of every band. -/
theorem C51_several_detectors (f32 : α → α) (ClassIn : String → String → Py (RawSensor α)) (platform : String)
    (names : List String) (scale : α) (hne : names ≠ []) (hnd : names.Nodup) (n : Nat)
    (S : String → RawSensor α) (hS : ∀ b ∈ names, ClassIn b platform = .ok (S b))
    (w : String → List α) (r : String → Nat → List α) (hd : ∀ b ∈ names, DetectorData (S b) (n + 1) (w b) (r b)) :
    ∃ first file, names.head? = some first ∧
      convert2hdf5 f32 ClassIn platform names scale (some ((List.range (n + 1)).map detName)) = .ok
        (((S first).output_dir, "rsr_" ++ withoutSlashes (S first).instrument ++ "_" ++ platform ++ ".h5"), file) ∧
      ListsBands file names ∧ PlatformIs file (some (oscarName platform)) ∧
      ∀ b ∈ names, DetectorCount file b (n + 1) ∧ ∀ i < n + 1,
        HasResponse file b (detName i) ((r b i).map f32) ∧
        ∃ c, HasCentral file b (detName i) c ∧ WrittenCentral (w b) (r b i) c := by
  obtain ⟨first, file, h1, h2, h3, h4⟩ := convert_run f32 ClassIn platform names scale
    (some ((List.range (n + 1)).map detName)) hne hnd S hS (by
    intro b hb
    obtain ⟨dets, hm, _⟩ := writeMulti_run f32 (S b) scale n (w b) (r b) (hd b hb)
    exact ⟨_, hm⟩)
  obtain ⟨g1, g2, _, _⟩ := globalAttrs_spec file _ platform names h3
  refine ⟨first, file, h1, h2, g1, g2, ?_⟩
  intro b hb
  obtain ⟨B, hB, hget⟩ := h4 b hb
  obtain ⟨dets, hm, hdets⟩ := writeMulti_run f32 (S b) scale n (w b) (r b) (hd b hb)
  rw [show writeBandGroup f32 (S b) scale (some ((List.range (n + 1)).map detName)) =
    writeMulti f32 (S b) scale ((List.range (n + 1)).map detName) from rfl, hm] at hB
  cases hB
  refine ⟨Or.inl ⟨_, _, hget, rfl, by simp⟩, ?_⟩
  intro i hi
  obtain ⟨c, hc1, hD⟩ := hdets i hi
  exact ⟨⟨_, hget, Or.inl ⟨_, hD, rfl⟩⟩, c, ⟨_, ⟨_, hget, Or.inl ⟨_, hD, rfl⟩⟩, Or.inr ⟨_, rfl⟩⟩, hc1⟩

/-! ### C50 -/

/-- C50 is false of the code: whatever the data, the wavelengths read back from a file written
for one detector per band are the *responses* times scale times 1e6; the responses and the
central wavelength are as written. -/
theorem C50_wavelengths_are_responses (f32 : α → α) (ClassIn : String → String → Py (RawSensor α)) (platform : String)
    (names : List String) (scale : α) (hne : names ≠ []) (hnd : names.Nodup)
    (S : String → RawSensor α) (hS : ∀ b ∈ names, ClassIn b platform = .ok (S b))
    (w r : String → List α) (hd : ∀ b ∈ names, RawData (S b).own (w b) (r b)) :
    ∃ path file info, convert2hdf5 f32 ClassIn platform names scale none = .ok (path, file) ∧
      loadRsrInfo file = .ok info ∧ info.band_names = names ∧ info.rsr.keys = names ∧
      ∀ b ∈ names, ∃ c, WrittenCentral (w b) (r b) c ∧
        info.rsr.get? b = some [("det-1", [("response", .arr ((r b).map f32)),
          ("wavelength", .arr (((r b).map f32).map fun x => x * scale * 1e6)),
          ("central_wavelength", .num c)])] := by
  obtain ⟨first, file, h1, h2, h3, h4⟩ := convert_run f32 ClassIn platform names scale none hne hnd S hS (by
    intro b hb
    obtain ⟨c, _, hc⟩ := writeSingle_run f32 (S b) scale (w b) (r b) (hd b hb)
    exact ⟨_, hc⟩)
  have hband : ∀ b ∈ names, ∃ c, WrittenCentral (w b) (r b) c ∧
      readBand file b = .ok [("det-1", [("response", .arr ((r b).map f32)),
          ("wavelength", .arr (((r b).map f32).map fun x => x * scale * 1e6)),
          ("central_wavelength", .num c)])] := by
    intro b hb
    obtain ⟨B, hB, hget⟩ := h4 b hb
    obtain ⟨c, hc1, hc⟩ := writeSingle_run f32 (S b) scale (w b) (r b) (hd b hb)
    rw [show writeBandGroup f32 (S b) scale none = writeSingle f32 (S b) scale from rfl, hc] at hB
    cases hB
    refine ⟨c, hc1, ?_⟩
    have hn : detectorNames file b = .ok [detName 0] :=
      ((detectorNames_spec file b).1 _).2 ⟨1, Or.inr ⟨fun B' hB' => by rw [hget] at hB'; cases hB'; rfl, rfl⟩, rfl⟩
    have hdet : readDetector file b (detName 0) = .ok [("response", .arr ((r b).map f32)),
          ("wavelength", .arr (((r b).map f32).map fun x => x * scale * 1e6)),
          ("central_wavelength", .num c)] := by
      rw [readDetector_iff]
      refine ⟨_, _, c, ⟨_, hget, Or.inr ⟨?_, rfl⟩⟩, ⟨_, _, scale, ⟨_, hget, Or.inr ⟨?_, rfl⟩⟩, Or.inr ⟨_, rfl⟩, rfl⟩,
        ⟨_, ⟨_, hget, Or.inr ⟨?_, rfl⟩⟩, Or.inr ⟨_, rfl⟩⟩, rfl⟩
      all_goals intro D hD; cases hD
    rw [readBand_eq, hn]
    show storeAll (readDetector file b) [detName 0] [] = _
    rw [storeAll_cons, hdet]
    rfl
  obtain ⟨g1, _, ⟨v, hv, hvt⟩, g4⟩ := globalAttrs_spec file _ platform names h3
  obtain ⟨rsr, hrsr⟩ := storeAll_succeeds (readBand file) names (fun b hb => by
    obtain ⟨c, _, hc⟩ := hband b hb
    exact ⟨_, hc⟩) []
  obtain ⟨k1, _, _, _, k5⟩ := storeAll_ok _ _ _ _ hrsr
  have hplat : ∃ p, getPlatformName file = .ok p := by
    have : file.attrs.get? "platform_name" = some (.text (.str platform) platform) := by rw [h3]; rfl
    unfold getPlatformName
    rw [getItem_ok_iff.2 this]
    exact ⟨_, rfl⟩
  obtain ⟨p, hp⟩ := hplat
  have hinst : ∃ i, getInstrument file p = .ok i := by
    unfold getInstrument
    rw [getItem_err_iff.2 ⟨rfl, g4⟩]
    exact ⟨_, rfl⟩
  obtain ⟨i, hi⟩ := hinst
  refine ⟨_, file, ⟨p, i, names, "Relative Spectral Responses for " ++ Str.upper (S first).instrument, rsr⟩, h2, ?_, rfl, ?_, ?_⟩
  · rw [load_eq, listsBands_iter file names g1]
    simp only [bind, Except.bind]
    rw [getItem_ok_iff.2 hv]
    simp only
    rw [(attrStr_iff _ _).2 hvt]
    simp only
    rw [hp]
    simp only
    rw [hi]
    simp only
    rw [readResponses_eq, hrsr]
    rfl
  · show rsr.keys = names
    rw [k5 hnd (by simp [Dict.keys])]; rfl
  · intro b hb
    obtain ⟨c, hc1, hc⟩ := hband b hb
    obtain ⟨B, hB, hget⟩ := k1 b hb
    rw [hc] at hB; cases hB
    exact ⟨c, hc1, hget⟩

/-- a one-band instrument with the wavelengths 0.5, 0.6 micron -/
noncomputable def exRawSensor : RawSensor XF where
  instrument := "avhrr/3"
  output_dir := "/out"
  own := [("wavelength", .arr (finL [0.5, 0.6])), ("response", .arr (finL [1, 0.25]))]
  dets := [("det-1", [("wavelength", .arr (finL [0.5, 0.6])), ("response", .arr (finL [1, 0.5]))]),
    ("det-2", [("wavelength", .arr (finL [0.5, 0.6])), ("response", .arr (finL [0.5, 1]))])]

/-- the class making such objects -/
noncomputable def exClass : String → String → Py (RawSensor XF) := fun _ _ => .ok exRawSensor

/-- C50 is false of the code even with exact storage: written with scale 1e-6 (micron), the
wavelengths 0.5, 0.6 are read back as 1, 0.25. -/
theorem C50_not_read_back : ∃ path file info, convert2hdf5 id exClass "Metop-B" ["ch1"] = .ok (path, file) ∧
    loadRsrInfo file = .ok info ∧ ∃ B det, info.rsr.get? "ch1" = some B ∧ B.get? "det-1" = some det ∧
      det.get? "wavelength" = some (.arr (finL [1, 0.25])) ∧
      det.get? "wavelength" ≠ some (.arr (finL [0.5, 0.6])) := by
  obtain ⟨path, file, info, h1, h2, _, _, h5⟩ := C50_wavelengths_are_responses (α := XF) id exClass "Metop-B" ["ch1"] 1e-6
    (by simp) (by simp) (fun _ => exRawSensor)
    (fun _ _ => rfl) (fun _ => finL [0.5, 0.6]) (fun _ => finL [1, 0.25]) (fun _ _ => ⟨rfl, rfl, rfl⟩)
  obtain ⟨c, _, hget⟩ := h5 "ch1" (by simp)
  refine ⟨path, file, info, h1, h2, _, _, hget, rfl, ?_, ?_⟩
  · show some (DetVal.arr (((finL [1, 0.25]).map id).map fun x => x * 1e-6 * 1e6)) = _
    congr 2
    simp only [finL_cons, finL_nil, List.map_cons, List.map_nil, id, ofSci_eq, fin_mul]
    norm_num
  · show some (DetVal.arr (((finL [1, 0.25]).map id).map fun x => x * 1e-6 * 1e6)) ≠ _
    intro h
    simp only [finL_cons, finL_nil, List.map_cons, List.map_nil, id, ofSci_eq, fin_mul, Option.some.injEq,
      DetVal.arr.injEq, List.cons.injEq, fin_inj] at h
    norm_num at h

/-- C50, the part that holds: the responses are read back as written (in 32 bit).  What is
missing: the wavelengths. -/
theorem C50_responses_partial (f32 : α → α) (ClassIn : String → String → Py (RawSensor α)) (platform : String)
    (names : List String) (scale : α) (hne : names ≠ []) (hnd : names.Nodup)
    (S : String → RawSensor α) (hS : ∀ b ∈ names, ClassIn b platform = .ok (S b))
    (w r : String → List α) (hd : ∀ b ∈ names, RawData (S b).own (w b) (r b)) :
    ∃ path file info, convert2hdf5 f32 ClassIn platform names scale none = .ok (path, file) ∧
      loadRsrInfo file = .ok info ∧ info.rsr.keys = names ∧
      ∀ b ∈ names, ∃ B det, info.rsr.get? b = some B ∧ B.keys = ["det-1"] ∧ B.get? "det-1" = some det ∧
        det.get? "response" = some (.arr ((r b).map f32)) := by
  obtain ⟨path, file, info, h1, h2, _, h4, h5⟩ := C50_wavelengths_are_responses f32 ClassIn platform names scale
    hne hnd S hS w r hd
  refine ⟨path, file, info, h1, h2, h4, ?_⟩
  intro b hb
  obtain ⟨c, _, hget⟩ := h5 b hb
  exact ⟨_, _, hget, rfl, rfl, rfl⟩

example : ∃ first file, convert2hdf5 id exClass "Metop-B" ["ch1", "ch2"] =
      .ok ((("/out" : String), "rsr_avhrr3_Metop-B.h5"), file) ∧ ListsBands file ["ch1", "ch2"] ∧
      HasResponse file "ch2" "det-1" (finL [1, 0.25]) ∧ first = "ch1" := by
  obtain ⟨first, file, h1, h2, h3, _, h5⟩ := C51_single_detector (α := XF) id exClass "Metop-B" ["ch1", "ch2"] 1e-6
    (by simp) (by simp) (fun _ => exRawSensor)
    (fun _ _ => rfl) (fun _ => finL [0.5, 0.6]) (fun _ => finL [1, 0.25]) (fun _ _ => ⟨rfl, rfl, rfl⟩)
  refine ⟨first, file, ?_, h3, ?_, by simpa using h1.symm⟩
  · rw [h2]; rfl
  · simpa using (h5 "ch2" (by simp)).2.1

example : ∃ path file, convert2hdf5 id exClass "Metop-B" ["ch1"] (detectors := some ["det-1", "det-2"]) = .ok (path, file) ∧
    DetectorCount file "ch1" 2 ∧ HasResponse file "ch1" "det-2" (finL [0.5, 1]) := by
  obtain ⟨first, file, _, h2, _, _, h5⟩ := C51_several_detectors (α := XF) id exClass "Metop-B" ["ch1"] 1e-6
    (by simp) (by simp) 1 (fun _ => exRawSensor)
    (fun _ _ => rfl) (fun _ => finL [0.5, 0.6]) (fun _ i => if i = 0 then finL [1, 0.5] else finL [0.5, 1])
    (by
      intro b _ i hi
      have : i = 0 ∨ i = 1 := by omega
      rcases this with rfl | rfl
      · exact ⟨_, rfl, rfl, rfl, rfl⟩
      · exact ⟨_, rfl, rfl, rfl, rfl⟩)
  obtain ⟨h6, h7⟩ := h5 "ch1" (by simp)
  refine ⟨_, file, h2, h6, ?_⟩
  have := (h7 1 (by omega)).1
  rw [List.map_id] at this
  exact this

end Verif.Props
