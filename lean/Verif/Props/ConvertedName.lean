import Verif.Props.TextConvert
import Verif.Props.Reader
/-
C143: a response file that was converted is found by platform and instrument.
-/
namespace Verif.Props
open XF Model PyNum Lemmas Spec
variable {α : Type} [PyNum α]

/-- All objects of the converter are for this instrument and have this output directory. -/
def ConverterFor (ClassIn : String → String → Py (RawSensor α)) (platform instrument out : String) (names : List String) :
    Prop :=
  ∀ b ∈ names, ∀ s, ClassIn b platform = .ok s → s.instrument = instrument ∧ s.output_dir = out

theorem converted_path (f32 : α → α) (ClassIn : String → String → Py (RawSensor α)) (platform inst out : String)
    (names : List String) (scale : α) (ds : Option (List String)) (hc : ConverterFor ClassIn platform inst out names)
    (path : Path) (file : H5File α) (h : convert2hdf5 f32 ClassIn platform names scale ds = .ok (path, file)) :
    path = (out, "rsr_" ++ withoutSlashes inst ++ "_" ++ platform ++ ".h5") := by
  unfold convert2hdf5 at h
  cases hi : (names.mapM fun b => ClassIn b platform) with
  | error e => rw [hi] at h; cases h
  | ok l =>
    rw [hi] at h
    cases l with
    | nil => cases h
    | cons first rest =>
      simp only [bind, Except.bind] at h
      cases hw : writeChannels f32 scale ds (names.zip (first :: rest)) [] with
      | error e => rw [hw] at h; cases h
      | ok bands =>
        rw [hw] at h
        simp only [pure, Except.pure, Except.ok.injEq, Prod.mk.injEq] at h
        cases names with
        | nil => cases hi
        | cons b bs =>
          rw [List.mapM_cons] at hi
          simp only [bind, Except.bind, pure, Except.pure] at hi
          cases hb : ClassIn b platform with
          | error e => rw [hb] at hi; cases hi
          | ok s =>
            rw [hb] at hi
            dsimp only at hi
            cases hr : (bs.mapM fun b => ClassIn b platform) with
            | error e => rw [hr] at hi; cases hi
            | ok l =>
              rw [hr] at hi
              cases hi
              obtain ⟨e1, e2⟩ := hc b (List.mem_cons_self ..) _ hb
              rw [← h.1, e1, e2, removeSlash_eq]

theorem rsrName_inj {a b platform : String} (h : "rsr_" ++ a ++ "_" ++ platform ++ ".h5" = "rsr_" ++ b ++ "_" ++ platform ++ ".h5") :
    a = b := by
  have e := congrArg String.toList h
  simp only [String.toList_append, List.append_assoc] at e
  have e := List.append_cancel_left e
  exact String.ext (List.append_cancel_right e)

/-- C143, exactly: a reader made for the platform of the conversion opens the converted file if and
only if the adjusted instrument name is the converter's instrument without slashes. -/
theorem C143_exactly (env : Env) (h5open : Content → Option (H5File α)) (f32 : α → α)
    (ClassIn : String → String → Py (RawSensor α)) (platform inst : String) (names : List String) (scale : α)
    (ds : Option (List String)) (hc : ConverterFor ClassIn platform inst env.cfg.rsr_dir names) (path : Path) (file : H5File α)
    (h : convert2hdf5 f32 ClassIn platform names scale ds = .ok (path, file)) (arg : String) (w : World) (r : Reader α)
    (hr : Eff.result (readerNew env h5open (some platform) (some arg) none) w = .ok r) :
    r.filename = path ↔ checkAndAdjustInstrumentName platform arg = .ok (withoutSlashes inst) := by
  have hp := converted_path f32 ClassIn platform inst _ names scale ds hc path file h
  obtain ⟨c, h1, -, -, -, h2, -⟩ := C38_by_names env h5open platform arg w r hr
  rw [h2, hp, h1]
  constructor
  · intro e
    rw [rsrName_inj (Prod.mk.inj e).2]
  · intro e
    cases e
    rfl

/-- C143 is false for instruments with a dash in their name: whatever instrument the reader is given,
it does not open the converted file. -/
theorem C143_dash_never_found (env : Env) (h5open : Content → Option (H5File α)) (f32 : α → α)
    (ClassIn : String → String → Py (RawSensor α)) (platform inst : String) (names : List String) (scale : α)
    (ds : Option (List String)) (hc : ConverterFor ClassIn platform inst env.cfg.rsr_dir names) (path : Path) (file : H5File α)
    (h : convert2hdf5 f32 ClassIn platform names scale ds = .ok (path, file)) (hd : '-' ∈ inst.toList) (arg : String)
    (w : World) (r : Reader α) (hr : Eff.result (readerNew env h5open (some platform) (some arg) none) w = .ok r) :
    r.filename ≠ path := by
  intro e
  have h1 := (C143_exactly env h5open f32 ClassIn platform inst names scale ds hc path file h arg w r hr).1 e
  obtain ⟨c, h2, h3⟩ := C31_canonical platform arg
  rw [h1] at h2
  cases h2
  exact (h3 '-' (by simp [withoutSlashes, hd])).2.1 rfl

/-- C143 is false: the converters for MERSI-RM (FY-3G) and MSU-GS write files that no reader for the
platform opens. -/
theorem C143_not_found (env : Env) (h5open : Content → Option (H5File α)) (f32 : α → α)
    (options : List (String × Conf)) (files : String → Option (List (List α))) (dir : String) (file : String → String)
    (names : List String) (scale : α) (path : Path) (f : H5File α) (arg platform : String) (w : World) (r : Reader α)
    (hr : Eff.result (readerNew env h5open (some platform) (some arg) none) w = .ok r) :
    (platform = "FY-3G" → OriginalsAt options platform "mersi-rm" (chNames 8) dir file env.cfg.rsr_dir →
      (∀ b ∈ names, b ∈ chNames 8) → convert2hdf5 f32 (MersiRMRSR options files) platform names scale none = .ok (path, f) →
      r.filename ≠ path) ∧
    (OriginalsAt options platform "msu-gs" (chNames 10) dir file env.cfg.rsr_dir →
      (∀ b ∈ names, b ∈ chNames 10) → convert2hdf5 f32 (MsugsRSR options files) platform names scale none = .ok (path, f) →
      r.filename ≠ path) := by
  have key : ∀ (bands : List String) (inst : String) (load : List (List α) → Py (RawCurve α)),
      OriginalsAt options platform inst bands dir file env.cfg.rsr_dir → (∀ b ∈ names, b ∈ bands) →
      ConverterFor (fun b p => textClass options files bands (some inst) .warn load b p) platform inst env.cfg.rsr_dir names := by
    intro bands inst load ho hsub b hb s hs
    dsimp only at hs
    rw [textClass_run _ _ _ _ _ _ _ _ _ _ _ ho (hsub b hb)] at hs
    split at hs
    · simp only [bind, Except.bind] at hs
      split at hs
      · cases hs
      · cases hs
        exact ⟨rfl, rfl⟩
    · cases hs
      exact ⟨rfl, rfl⟩
  constructor
  · rintro rfl ho hsub h
    refine C143_dash_never_found env h5open f32 (MersiRMRSR options files) "FY-3G" "mersi-rm" names scale none ?_ path f h
      (by decide) arg w r hr
    have := key (chNames 8) "mersi-rm" (fun ls => mersirmLoad ls) ho hsub
    intro b hb s hs
    exact this b hb s (by
      unfold MersiRMRSR at hs
      rw [show instrumentOr "FY-3G" "mersi-rm" = some "mersi-rm" by decide +kernel] at hs
      exact hs)
  · intro ho hsub h
    exact C143_dash_never_found env h5open f32 (MsugsRSR options files) platform "msu-gs" names scale none
      (key (chNames 10) "msu-gs" (fun ls => msugsLoad ls) ho hsub) path f h (by decide) arg w r hr

theorem lower_of_noUpper {s : String} (h : IsCanonical (withoutSlashes s)) : Str.lower s = s := by
  unfold Str.lower
  have : s.toList.map Str.lowerChar = s.toList := by
    conv_rhs => rw [← List.map_id s.toList]
    apply List.map_congr_left
    intro c hc
    unfold Str.lowerChar
    by_cases hs : c = '/'
    · subst hs; rfl
    · rw [if_neg (h c (by simp [withoutSlashes, hc, hs])).2.2]; rfl
  rw [this, String.ofList_toList]

theorem canonical_withoutSlashes {s : String} (h : IsCanonical (withoutSlashes s)) : canonical s = withoutSlashes s := by
  have hl := lower_of_noUpper h
  rw [← stripInstrument_eq]
  unfold stripInstrument
  rw [hl, removeSlash_eq]
  unfold Str.removeChar
  rw [List.filter_eq_self.2, String.ofList_toList]
  intro c hc
  simpa using (h c hc).2.1

/-- C143, the part that holds: when the converter's instrument has no dash and no upper-case letter and
is one of the platform's (or the platform is not listed), a reader for the platform and that instrument
finds the converted file and holds its bands and responses. -/
theorem C143_found_partial (env : Env) (h5open : Content → Option (H5File α)) (f32 : α → α)
    (ClassIn : String → String → Py (RawSensor α)) (platform inst : String) (names : List String) (scale : α)
    (hne : names ≠ []) (hnd : names.Nodup) (S : String → RawSensor α) (hS : ∀ b ∈ names, ClassIn b platform = .ok (S b))
    (wl rs : String → List α) (hd : ∀ b ∈ names, RawData (S b).own (wl b) (rs b))
    (hc : ConverterFor ClassIn platform inst env.cfg.rsr_dir names) (hcan : IsCanonical (withoutSlashes inst))
    (hp : inst ∈ platformInstruments platform ∨ INSTRUMENTS.get? platform = none) :
    ∃ path file, convert2hdf5 f32 ClassIn platform names scale none = .ok (path, file) ∧
      ∀ w content, RsrCurrent env w ∨ env.cfg.download_from_internet = false →
        w.files path = some content → h5open content = some file →
        ∃ r, Eff.result (readerNew env h5open (some platform) (some inst) none) w = .ok r ∧ r.filename = path ∧
          r.rsr.keys = names ∧ ∀ b ∈ names, ∃ B det, r.rsr.get? b = some B ∧ B.get? "det-1" = some det ∧
            det.get? "response" = some (.arr ((rs b).map f32)) := by
  obtain ⟨path, file, info, h1, h2, h3, h4⟩ := C50_responses_partial f32 ClassIn platform names scale hne hnd S hS wl rs hd
  refine ⟨path, file, h1, ?_⟩
  intro w content hq hw ho
  have hpath := converted_path f32 ClassIn platform inst _ names scale none hc path file h1
  have hadj : checkAndAdjustInstrumentName platform inst = .ok (withoutSlashes inst) := by
    rw [← canonical_withoutSlashes hcan]
    rcases hp with hp | hp
    · exact C31_listed_instrument_kept platform inst inst hp (.inl (lower_of_noUpper hcan))
    · exact C31_unknown_platform platform inst hp
  obtain ⟨b, hb⟩ := quiet_updates_off env (configured env w) hq
  obtain ⟨t', ht', -⟩ := reader_by_name env h5open platform inst _ hadj w _ b _ hb
  have hfd : fileData h5open (configured env w) path = .ok info := by
    unfold fileData
    rw [show (configured env w).files path = some content from hw]
    simp only [ho, h2]
  unfold Eff.result
  rw [ht', ← hpath, hfd]
  refine ⟨_, rfl, rfl, h3, ?_⟩
  intro b hb
  obtain ⟨B, det, g1, -, g2, g3⟩ := h4 b hb
  exact ⟨B, det, g1, g2, g3⟩

/-- a converter of one instrument -/
noncomputable def exConverter (inst : String) : String → String → Py (RawSensor XF) :=
  fun _ _ => .ok { exRawSensor with instrument := inst, output_dir := "/rsr" }

theorem exConverter_for (inst platform : String) (names : List String) :
    ConverterFor (exConverter inst) platform inst "/rsr" names := by
  intro b _ s hs
  cases hs
  exact ⟨rfl, rfl⟩

/-- AVHRR/3 on Metop-B: the file is found under the name with the slash -/
example : ∃ path file, convert2hdf5 id (exConverter "avhrr/3") "Metop-B" ["ch1"] = .ok (path, file) ∧
    ∀ content, ∃ r, Eff.result (readerNew exampleEnv (openOnly content file) (some "Metop-B") (some "avhrr/3") none)
      (worldWith path content) = .ok r ∧ r.filename = path ∧ r.rsr.keys = ["ch1"] := by
  obtain ⟨path, file, info, h0, -⟩ := C50_responses_partial (α := XF) id (exConverter "avhrr/3") "Metop-B" ["ch1"] 1e-6
    (by simp) (by simp) (fun _ => { exRawSensor with instrument := "avhrr/3", output_dir := "/rsr" }) (fun _ _ => rfl)
    (fun _ => finL [0.5, 0.6]) (fun _ => finL [1, 0.25]) (fun _ _ => ⟨rfl, rfl, rfl⟩)
  refine ⟨path, file, h0, fun content => ?_⟩
  obtain ⟨path', file', h1, h2⟩ := C143_found_partial (α := XF) exampleEnv (openOnly content file) id (exConverter "avhrr/3")
    "Metop-B" "avhrr/3" ["ch1"] 1e-6
    (by simp) (by simp) (fun _ => { exRawSensor with instrument := "avhrr/3", output_dir := "/rsr" }) (fun _ _ => rfl)
    (fun _ => finL [0.5, 0.6]) (fun _ => finL [1, 0.25]) (fun _ _ => ⟨rfl, rfl, rfl⟩) (exConverter_for _ _ _)
    (by unfold IsCanonical; decide +kernel) (.inl (by decide))
  rw [h0] at h1
  cases h1
  have hv : path ≠ ("/rsr", "PYSPECTRAL_RSR_VERSION") := by
    rw [converted_path id _ _ _ _ _ _ _ (exConverter_for _ _ _) path file h0]
    decide +kernel
  obtain ⟨r, g1, g2, g3, -⟩ := h2 (worldWith path content) content
    (.inl ⟨"v1.6.1".toList, by
      show (if _ then _ else _) = _
      exact if_neg (Ne.symm hv), [], [], [], rfl, by simp, by simp, Or.inl rfl⟩) (by simp [worldWith]) (by simp [openOnly])
  exact ⟨r, g1, g2, g3⟩

/-- MSU-GS/A: no reader for Arctica-M-N1 opens the converted file -/
example (path : Path) (file : H5File XF) (h5open : Content → Option (H5File XF))
    (h : convert2hdf5 id (exConverter "msu-gsa") "Arctica-M-N1" ["ch1"] = .ok (path, file)) (arg : String) (w : World) (r : Reader XF)
    (hr : Eff.result (readerNew exampleEnv h5open (some "Arctica-M-N1") (some arg) none) w = .ok r) : r.filename ≠ path :=
  C143_dash_never_found exampleEnv h5open id (exConverter "msu-gsa") "Arctica-M-N1" "msu-gsa" ["ch1"] 1e-6 none
    (exConverter_for _ _ _) path file h (by decide) arg w r hr

/-- the conversion of the example is made, so there is such a file -/
example : ∃ path file, convert2hdf5 id (exConverter "msu-gsa") "Arctica-M-N1" ["ch1"] = .ok (path, file) ∧
    path = ("/rsr", "rsr_msu-gsa_Arctica-M-N1.h5") ∧
    checkAndAdjustInstrumentName "Arctica-M-N1" "msu-gsa" = .ok "msugsa" := by
  obtain ⟨path, file, info, h0, -⟩ := C50_responses_partial (α := XF) id (exConverter "msu-gsa") "Arctica-M-N1" ["ch1"] 1e-6
    (by simp) (by simp) (fun _ => { exRawSensor with instrument := "msu-gsa", output_dir := "/rsr" }) (fun _ _ => rfl)
    (fun _ => finL [0.5, 0.6]) (fun _ => finL [1, 0.25]) (fun _ _ => ⟨rfl, rfl, rfl⟩)
  exact ⟨path, file, h0, by
    rw [converted_path id _ _ _ _ _ _ _ (exConverter_for _ _ _) path file h0]
    decide +kernel, by decide +kernel⟩

end Verif.Props
