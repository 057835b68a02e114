import Verif.Props.ReadFile
import Verif.Props.LutDownload
/-
Properties C38, C39 and C42 (and the reader's part of C46 and C68): constructing a reader.
-/
namespace Verif.Props
open Model Spec Lemmas PyNum XF
variable {α : Type} [PyNum α]

/-! ### C38 -/

theorem quiet_updates_off (env : Env) (w : World) (h : RsrCurrent env w ∨ env.cfg.download_from_internet = false) :
    ∃ b, downloadRsrUpdates env none false w = (.ok b, w, []) := by
  by_cases hc : RsrCurrent env w
  · exact ⟨false, updates_current env w hc none false⟩
  · have hd : env.cfg.download_from_internet = false := h.resolve_left hc
    refine ⟨true, ?_⟩
    unfold downloadRsrUpdates
    rw [eff_bind_ok (show Eff.get w = (.ok w, w, []) from rfl)]
    simp only [rsrUptodate_false env w hc, hd, Bool.false_eq_true, if_false, not_false_eq_true, if_true]
    rfl

/-- the data read from one file -/
def fileData (h5open : Content → Option (H5File α)) (w : World) (p : Path) : Py (RsrInfo α) :=
  match w.files p with
  | none => .error .fileNotFound
  | some c => match h5open c with
    | none => .error .ioError
    | some f => loadRsrInfo f

/-- the end of the constructor: nothing but reading -/
theorem readerLoad_run (h5open : Content → Option (H5File α)) (p : Path) (pl i : Option String) (w : World) :
    readerLoad h5open p pl i w = ((fileData h5open w p).map (readerOf p pl i), w, []) := by
  have hopen : openRsrFile h5open p w = (match w.files p with
      | none => .error .fileNotFound
      | some c => match h5open c with
        | none => .error .ioError
        | some f => .ok f, w, []) := by
    unfold openRsrFile
    rw [eff_bind_ok (show Eff.get w = (.ok w, w, []) from rfl)]
    cases w.files p with
    | none => rfl
    | some c => cases h : h5open c <;> simp only [h] <;> rfl
  unfold fileData readerLoad
  cases hw : w.files p with
  | none =>
    rw [hw] at hopen
    rw [eff_bind_error hopen]; rfl
  | some c =>
    rw [hw] at hopen
    cases hh : h5open c with
    | none =>
      simp only [hh] at hopen ⊢
      rw [eff_bind_error hopen]; rfl
    | some f =>
      simp only [hh] at hopen ⊢
      rw [eff_bind_ok hopen]
      have hlift : Eff.lift (loadRsrInfo f) w = (loadRsrInfo f, w, []) := rfl
      cases hl : loadRsrInfo f with
      | error e => rw [hl] at hlift; rw [eff_bind_error hlift]; rfl
      | ok info => rw [hl] at hlift; rw [eff_bind_ok hlift]; rfl

theorem reader_by_file (env : Env) (h5open : Content → Option (H5File α)) (path : Path) (w : World) :
    readerNew env h5open none none (some path) w =
      ((fileData h5open w path).map (readerOf path none none), configured env w,
       [withDir env.cfg.rsr_dir w, configured env w]) := by
  unfold readerNew
  rw [eff_bind_ok (getConfig_run env w)]
  rw [eff_bind_ok (show Eff.lift (sanitizeInputs env.cfg.rsr_dir (some path) none none) (configured env w) =
    (.ok (path, none, none), configured env w, []) from rfl)]
  simp only [Option.isNone_some, Bool.false_eq_true, if_false]
  rw [readerLoad_run]
  rfl

theorem reader_by_name (env : Env) (h5open : Content → Option (H5File α)) (platform instrument c : String)
    (hc : checkAndAdjustInstrumentName platform instrument = .ok c) (w w' : World) (b : Bool) (t : List World)
    (hu : downloadRsrUpdates env none false (configured env w) = (.ok b, w', t)) :
    ∃ t', readerNew env h5open (some platform) (some instrument) none w =
      ((fileData h5open w' (env.cfg.rsr_dir, "rsr_" ++ c ++ "_" ++ platform ++ ".h5")).map
        (readerOf (env.cfg.rsr_dir, "rsr_" ++ c ++ "_" ++ platform ++ ".h5") (some platform) (some c)), w', t') ∧
      ∀ x ∈ t', x = withDir env.cfg.rsr_dir w ∨ x = configured env w ∨ x ∈ t := by
  unfold readerNew
  rw [eff_bind_ok (getConfig_run env w)]
  rw [eff_bind_ok (show Eff.lift (sanitizeInputs env.cfg.rsr_dir none (some platform) (some instrument)) (configured env w) =
    (.ok ((env.cfg.rsr_dir, getRsrFilename platform c), some platform, some c), configured env w, []) by
      simp only [Eff.lift, sanitizeInputs, hc]; rfl)]
  simp only [Option.isNone_none, if_true]
  rw [eff_bind_ok hu, readerLoad_run]
  refine ⟨_, rfl, ?_⟩
  intro x hx; simp at hx; exact hx

theorem reader_update_fails (env : Env) (h5open : Content → Option (H5File α)) (platform instrument c : String)
    (hc : checkAndAdjustInstrumentName platform instrument = .ok c) (w w' : World) (e : PyErr) (t : List World)
    (hu : downloadRsrUpdates env none false (configured env w) = (.error e, w', t)) :
    ∃ t', readerNew env h5open (some platform) (some instrument) none w = (.error e, w', t') := by
  unfold readerNew
  rw [eff_bind_ok (getConfig_run env w)]
  rw [eff_bind_ok (show Eff.lift (sanitizeInputs env.cfg.rsr_dir none (some platform) (some instrument)) (configured env w) =
    (.ok ((env.cfg.rsr_dir, getRsrFilename platform c), some platform, some c), configured env w, []) by
      simp only [Eff.lift, sanitizeInputs, hc]; rfl)]
  simp only [Option.isNone_none, if_true]
  rw [eff_bind_error hu]
  exact ⟨_, rfl⟩

/-- C38: anything but a file name alone, or both names and no file name, raises ValueError;
nothing is requested and no file is touched. -/
theorem C38_arguments_rejected (env : Env) (h5open : Content → Option (H5File α))
    (platform instrument : Option String) (filename : Option Path) (w : World)
    (h : ¬ (filename ≠ none ∧ platform = none ∧ instrument = none) ∧
      ¬ (filename = none ∧ platform ≠ none ∧ instrument ≠ none)) :
    Eff.result (readerNew env h5open platform instrument filename) w = .error .valueError ∧
    Quiet (readerNew env h5open platform instrument filename) w := by
  have hs : sanitizeInputs env.cfg.rsr_dir filename platform instrument = .error .valueError := by
    unfold sanitizeInputs
    cases filename <;> cases platform <;> cases instrument <;> simp_all
  have e : readerNew env h5open platform instrument filename w =
      (.error .valueError, configured env w, [withDir env.cfg.rsr_dir w, configured env w]) := by
    unfold readerNew
    rw [eff_bind_ok (getConfig_run env w)]
    rw [eff_bind_error (show Eff.lift (sanitizeInputs env.cfg.rsr_dir filename platform instrument) (configured env w) =
      (.error .valueError, configured env w, []) by rw [hs]; rfl)]
    rfl
  refine ⟨by unfold Eff.result; rw [e], quiet_of_eq e ⟨rfl, rfl⟩ ?_⟩
  intro x hx
  simp only [List.mem_cons, List.not_mem_nil, or_false] at hx
  rcases hx with rfl | rfl <;> exact ⟨rfl, rfl⟩

/-- a platform without an instrument; and both names and a file -/
example : Eff.result (readerNew exampleEnv (fun _ => (none : Option (H5File XF))) (some "NOAA-20") none none) emptyWorld = .error .valueError ∧
    Eff.result (readerNew exampleEnv (fun _ => (none : Option (H5File XF))) (some "NOAA-20") (some "viirs") (some ("/a", "b")))
      emptyWorld = .error .valueError :=
  ⟨(C38_arguments_rejected _ _ _ _ _ _ (by simp)).1, (C38_arguments_rejected _ _ _ _ _ _ (by simp)).1⟩

/-- C38: with platform and instrument, a reader that is constructed keeps the given platform
name and the canonical instrument name, and holds the data of
rsr_dir/rsr_<instrument>_<platform>.h5 as it is after the update check. -/
theorem C38_by_names (env : Env) (h5open : Content → Option (H5File α)) (platform instrument : String) (w : World)
    (r : Reader α) (hr : Eff.result (readerNew env h5open (some platform) (some instrument) none) w = .ok r) :
    ∃ c, checkAndAdjustInstrumentName platform instrument = .ok c ∧ IsCanonical c ∧
      r.platform_name = some platform ∧ r.instrument = .str c ∧
      r.filename = (env.cfg.rsr_dir, "rsr_" ++ c ++ "_" ++ platform ++ ".h5") ∧
      r.unit = "1e-6 m" ∧ r.si_scale = 1e-6 ∧
      ∃ content f info,
        (Eff.final (readerNew env h5open (some platform) (some instrument) none) w).files r.filename = some content ∧
        h5open content = some f ∧ loadRsrInfo f = .ok info ∧
        r.rsr = info.rsr ∧ r.band_names = info.band_names ∧ r.description = info.description := by
  obtain ⟨c, hc, hcan⟩ := C31_canonical platform instrument
  refine ⟨c, hc, hcan, ?_⟩
  rcases hu : downloadRsrUpdates env none false (configured env w) with ⟨res, w', t⟩
  cases res with
  | error e =>
    obtain ⟨t', ht'⟩ := reader_update_fails env h5open platform instrument c hc w w' e t hu
    unfold Eff.result at hr
    rw [ht'] at hr; cases hr
  | ok b =>
    obtain ⟨t', ht', _⟩ := reader_by_name env h5open platform instrument c hc w w' b t hu
    unfold Eff.result at hr
    unfold Eff.final
    rw [ht'] at hr ⊢
    simp only at hr ⊢
    unfold fileData at hr
    cases hw : w'.files (env.cfg.rsr_dir, "rsr_" ++ c ++ "_" ++ platform ++ ".h5") with
    | none => rw [hw] at hr; cases hr
    | some content =>
      rw [hw] at hr
      simp only at hr
      cases hh : h5open content with
      | none => rw [hh] at hr; cases hr
      | some f =>
        rw [hh] at hr
        simp only at hr
        cases hl : loadRsrInfo f with
        | error e => rw [hl] at hr; cases hr
        | ok info =>
          rw [hl] at hr
          cases hr
          exact ⟨rfl, rfl, rfl, rfl, rfl, content, f, info, hw, hh, hl, rfl, rfl, rfl⟩

/-- C38: with a file name nothing is requested and no file is touched; a reader that is
constructed holds the data and both names of that file. -/
theorem C38_by_filename (env : Env) (h5open : Content → Option (H5File α)) (path : Path) (w : World) :
    Quiet (readerNew env h5open none none (some path)) w ∧
    (w.files path = none → Eff.result (readerNew env h5open none none (some path)) w = .error .fileNotFound) ∧
    ∀ r, Eff.result (readerNew env h5open none none (some path)) w = .ok r →
      r.filename = path ∧ ∃ content f info, w.files path = some content ∧ h5open content = some f ∧
        loadRsrInfo f = .ok info ∧ r.platform_name = info.platform_name ∧ r.instrument = info.instrument ∧
        r.rsr = info.rsr ∧ r.band_names = info.band_names ∧ r.description = info.description := by
  have e := reader_by_file env h5open path w
  refine ⟨quiet_of_eq e ⟨rfl, rfl⟩ ?_, ?_, ?_⟩
  · intro x hx
    simp only [List.mem_cons, List.not_mem_nil, or_false] at hx
    rcases hx with rfl | rfl <;> exact ⟨rfl, rfl⟩
  · intro hn
    unfold Eff.result fileData at *
    rw [e, hn]; rfl
  · intro r hr
    unfold Eff.result at hr
    rw [e] at hr
    unfold fileData at hr
    cases hw : w.files path with
    | none => rw [hw] at hr; cases hr
    | some content =>
      rw [hw] at hr
      simp only at hr
      cases hh : h5open content with
      | none => rw [hh] at hr; cases hr
      | some f =>
        rw [hh] at hr
        simp only at hr
        cases hl : loadRsrInfo f with
        | error e => rw [hl] at hr; cases hr
        | ok info =>
          rw [hl] at hr
          cases hr
          exact ⟨rfl, content, f, info, rfl, hh, hl, rfl, rfl, rfl, rfl, rfl⟩

/-- h5py that can read exactly one content -/
def openOnly (c : Content) (f : H5File α) : Content → Option (H5File α) := fun c' => if c' = c then some f else none

/-- a world holding one file (and a current version file) -/
def worldWith (p : Path) (c : Content) : World where
  files := fun q => if q = p then some c else if q = ("/rsr", "PYSPECTRAL_RSR_VERSION") then some "v1.6.1".toList else none
  dirs := fun _ => true
  requests := []

theorem worldWith_reads (c : Content) (p : Path) (env : Env) (f : H5File α) (info : RsrInfo α)
    (hl : loadRsrInfo f = .ok info) :
    Eff.result (readerNew env (openOnly c f) none none (some p)) (worldWith p c) =
      .ok (readerOf p none none info) := by
  unfold Eff.result
  rw [reader_by_file]
  have : fileData (openOnly c f) (worldWith p c) p = .ok info := by
    unfold fileData worldWith openOnly
    simp [hl]
  rw [this]; rfl

example : ∃ r : Reader XF, Eff.result (readerNew exampleEnv (openOnly "H".toList exFile) none none (some ("/data", "x.h5")))
    (worldWith ("/data", "x.h5") "H".toList) = .ok r ∧ r.platform_name = some "FY-3A" :=
  ⟨_, worldWith_reads _ _ _ _ _ exFile_loads, rfl⟩

/-- a missing file -/
example : Eff.result (readerNew exampleEnv (openOnly "H".toList exFile) none none (some ("/data", "y.h5")))
    (worldWith ("/data", "x.h5") "H".toList) = .error .fileNotFound :=
  (C38_by_filename _ _ _ _).2.1 (by decide)

/-! ### C46 and C68 for readers -/

/-- C46: constructing a reader while the data are current requests nothing and changes no file. -/
theorem C46_reader_no_request (env : Env) (h5open : Content → Option (H5File α)) (platform instrument : Option String)
    (filename : Option Path) (w : World) (h : RsrCurrent env w) :
    Quiet (readerNew env h5open platform instrument filename) w := by
  by_cases hbad : ¬ (filename ≠ none ∧ platform = none ∧ instrument = none) ∧
      ¬ (filename = none ∧ platform ≠ none ∧ instrument ≠ none)
  · exact (C38_arguments_rejected env h5open platform instrument filename w hbad).2
  · rw [not_and_or, not_not, not_not] at hbad
    rcases hbad with ⟨hf, rfl, rfl⟩ | ⟨rfl, hp, hi⟩
    · obtain ⟨p, rfl⟩ := Option.ne_none_iff_exists'.1 hf
      exact (C38_by_filename env h5open p w).1
    · obtain ⟨p, rfl⟩ := Option.ne_none_iff_exists'.1 hp
      obtain ⟨i, rfl⟩ := Option.ne_none_iff_exists'.1 hi
      obtain ⟨c, hc, _⟩ := C31_canonical p i
      obtain ⟨b, hb⟩ := quiet_updates_off env (configured env w) (Or.inl h)
      obtain ⟨t', ht', hx⟩ := reader_by_name env h5open p i c hc w _ b _ hb
      refine quiet_of_eq ht' ⟨rfl, rfl⟩ ?_
      intro x hxm
      rcases hx x hxm with rfl | rfl | h <;> first | exact ⟨rfl, rfl⟩ | cases h

example : Quiet (readerNew exampleEnv (fun _ => (none : Option (H5File XF))) (some "NOAA-20") (some "viirs") none)
    (emptyWorld.setFile ("/rsr", "PYSPECTRAL_RSR_VERSION") (some "v1.6.1".toList)) :=
  C46_reader_no_request _ _ _ _ _ _ ⟨"v1.6.1".toList, rfl, [], [], [], rfl, by simp, by simp, Or.inl rfl⟩

/-- C68: with downloads switched off, constructing a reader requests nothing and changes no
file, whatever the state of the data. -/
theorem C68_reader_switched_off (env : Env) (h5open : Content → Option (H5File α))
    (platform instrument : Option String) (filename : Option Path) (w : World)
    (h : env.cfg.download_from_internet = false) :
    Quiet (readerNew env h5open platform instrument filename) w := by
  by_cases hbad : ¬ (filename ≠ none ∧ platform = none ∧ instrument = none) ∧
      ¬ (filename = none ∧ platform ≠ none ∧ instrument ≠ none)
  · exact (C38_arguments_rejected env h5open platform instrument filename w hbad).2
  · rw [not_and_or, not_not, not_not] at hbad
    rcases hbad with ⟨hf, rfl, rfl⟩ | ⟨rfl, hp, hi⟩
    · obtain ⟨p, rfl⟩ := Option.ne_none_iff_exists'.1 hf
      exact (C38_by_filename env h5open p w).1
    · obtain ⟨p, rfl⟩ := Option.ne_none_iff_exists'.1 hp
      obtain ⟨i, rfl⟩ := Option.ne_none_iff_exists'.1 hi
      obtain ⟨c, hc, _⟩ := C31_canonical p i
      obtain ⟨b, hb⟩ := quiet_updates_off env (configured env w) (Or.inr h)
      obtain ⟨t', ht', hx⟩ := reader_by_name env h5open p i c hc w _ b _ hb
      refine quiet_of_eq ht' ⟨rfl, rfl⟩ ?_
      intro x hxm
      rcases hx x hxm with rfl | rfl | h <;> first | exact ⟨rfl, rfl⟩ | cases h

example : Quiet (readerNew (otherEnv exampleEnv exampleEnv.server false) (fun _ => (none : Option (H5File XF)))
    (some "NOAA-20") (some "viirs") none) emptyWorld :=
  C68_reader_switched_off _ _ _ _ _ _ rfl

/-! ### C39 -/

/-- C39 is false: two readers for different platforms and instruments use the same file. -/
theorem C39_shared_file_name : ∃ p₁ i₁ p₂ i₂ : String, p₁ ≠ p₂ ∧
    checkAndAdjustInstrumentName p₁ i₁ = .ok i₁ ∧ checkAndAdjustInstrumentName p₂ i₂ = .ok i₂ ∧ i₁ ≠ i₂ ∧
    getRsrFilename p₁ i₁ = getRsrFilename p₂ i₂ := by
  refine ⟨"X", "oli_tirs", "tirs_X", "oli", by decide, ?_, ?_, by decide, by decide⟩
  · rw [C31_unknown_platform _ _ (by decide)]; decide
  · rw [C31_unknown_platform _ _ (by decide)]; decide

theorem split_last_underscore {a b c d : List Char} (h : a ++ '_' :: b = c ++ '_' :: d)
    (hb : '_' ∉ b) (hd : '_' ∉ d) : a = c ∧ b = d := by
  induction a generalizing c with
  | nil =>
    cases c with
    | nil => simp at h; exact ⟨rfl, h⟩
    | cons x c =>
      simp at h
      exfalso; apply hb; rw [h.2]; simp
  | cons x a ih =>
    cases c with
    | nil =>
      simp at h
      exfalso; apply hd; rw [← h.2]; simp
    | cons y c =>
      simp at h
      obtain ⟨h1, h2⟩ := ih h.2
      exact ⟨by rw [h.1, h1], h2⟩

/-- C39, the part that holds: for platform names without underscore, different platforms or
instruments have different file names. -/
theorem C39_distinct_files_partial (p₁ i₁ p₂ i₂ : String) (h₁ : '_' ∉ p₁.toList) (h₂ : '_' ∉ p₂.toList)
    (h : getRsrFilename p₁ i₁ = getRsrFilename p₂ i₂) : p₁ = p₂ ∧ i₁ = i₂ := by
  have e := congrArg String.toList h
  simp only [getRsrFilename, String.toList_append, List.append_assoc] at e
  have e' := List.append_cancel_left e
  have e2 : (i₁.toList ++ '_' :: p₁.toList) = (i₂.toList ++ '_' :: p₂.toList) := by
    have : (i₁.toList ++ '_' :: p₁.toList) ++ ".h5".toList = (i₂.toList ++ '_' :: p₂.toList) ++ ".h5".toList := by
      simpa using e'
    exact List.append_cancel_right this
  obtain ⟨h3, h4⟩ := split_last_underscore e2 h₁ h₂
  exact ⟨String.ext h4, String.ext h3⟩

example : getRsrFilename "Landsat-8" "oli_tirs" ≠ getRsrFilename "Landsat-8" "oli" :=
  fun h => by simpa using (C39_distinct_files_partial _ _ _ _ (by decide) (by decide) h).2

/-- C39: no platform of the instrument table has an underscore in its name, so the satellites
pyspectral knows never share a response file. -/
theorem C39_known_platforms (p₁ i₁ p₂ i₂ : String) (h₁ : p₁ ∈ INSTRUMENTS.map Prod.fst)
    (h₂ : p₂ ∈ INSTRUMENTS.map Prod.fst) (h : getRsrFilename p₁ i₁ = getRsrFilename p₂ i₂) : p₁ = p₂ ∧ i₁ = i₂ := by
  have tab : ∀ p ∈ INSTRUMENTS.map Prod.fst, '_' ∉ p.toList := by decide +kernel
  exact C39_distinct_files_partial p₁ i₁ p₂ i₂ (tab _ h₁) (tab _ h₂) h

example : getRsrFilename "Landsat-8" "oli_tirs" ≠ getRsrFilename "Landsat-9" "oli_tirs" := by
  intro h
  have := (C39_known_platforms "Landsat-8" "oli_tirs" "Landsat-9" "oli_tirs" (by decide) (by decide) h).1
  simp at this

/-! ### C42 -/

/-- C42 is false: for a multi-instrument platform and a file without sensor attribute the
reader's instrument is a list, and looking up a band alias raises TypeError. -/
theorem C42_list_instrument : ∃ (env : Env) (h5open : Content → Option (H5File XF)) (w : World) (p : Path) (r : Reader XF),
    Eff.result (readerNew env h5open none none (some p)) w = .ok r ∧
    (∃ a b l, r.instrument = .list (a :: b :: l)) ∧
    rsrDictGetItem r.instrument r.rsr "m05" = .error .typeError :=
  ⟨exampleEnv, openOnly "H".toList exFile, worldWith ("/data", "x.h5") "H".toList, ("/data", "x.h5"), _,
    worldWith_reads _ _ _ _ _ exFile_loads, ⟨_, _, _, rfl⟩, rfl⟩

/-- C42, the part that holds: if the file names its sensor, or its platform carries a single
instrument (or is unknown), the instrument is one name or None and every lookup returns or
raises KeyError. -/
theorem C42_single_instrument_partial (env : Env) (h5open : Content → Option (H5File α)) (w : World) (p : Path)
    (r : Reader α) (hr : Eff.result (readerNew env h5open none none (some p)) w = .ok r)
    (content : Content) (f : H5File α) (hw : w.files p = some content) (hf : h5open content = some f)
    (hs : f.attrs.get? "sensor" ≠ none ∨ ∀ q l, r.platform_name = some q → INSTRUMENTS.get? q ≠ some (.many l)) :
    (r.instrument = .none ∨ ∃ s, r.instrument = .str s) ∧
    ∀ key, (∃ b, rsrDictGetItem r.instrument r.rsr key = .ok b) ∨
      rsrDictGetItem r.instrument r.rsr key = .error .keyError := by
  obtain ⟨_, content', f', info, h1, h2, h3, h4, h5, _⟩ := (C38_by_filename env h5open p w).2.2 r hr
  rw [hw] at h1; cases h1
  rw [hf] at h2; cases h2
  have hi := (C41_names_from_file f info h3).2
  rw [← h5] at hi
  rw [h4] at hs
  have hinst : r.instrument = .none ∨ ∃ s, r.instrument = .str s := by
    generalize r.instrument = i at hi ⊢
    cases hi with
    | sensor v s _ _ => exact Or.inr ⟨s, rfl⟩
    | single _ p i _ _ => exact Or.inr ⟨i, rfl⟩
    | unknown _ _ => exact Or.inl rfl
    | several h0 q l hq hl =>
      rcases hs with hs | hs
      · exact absurd h0 hs
      · exact absurd hl (hs q l hq)
  refine ⟨hinst, ?_⟩
  intro key
  have items : ∀ k, (∃ b, Dict.getItem r.rsr k = .ok b) ∨ Dict.getItem r.rsr k = .error .keyError := by
    intro k
    cases hk : Dict.get? r.rsr k with
    | some b => exact Or.inl ⟨b, getItem_ok_iff.2 hk⟩
    | none => exact Or.inr (getItem_err_iff.2 ⟨rfl, hk⟩)
  unfold rsrDictGetItem
  cases hk : Dict.get? r.rsr key with
  | some b => exact Or.inl ⟨b, rfl⟩
  | none =>
    rcases hinst with hi | ⟨s, hi⟩
    · rw [hi]
      simp only [bind, Except.bind, pure, Except.pure, Option.bind_none]
      cases bn_generic.get? key with
      | none => exact Or.inr rfl
      | some std => exact items std
    · rw [hi]
      simp only [bind, Except.bind, pure, Except.pure]
      cases (BANDNAMES.get? s).bind (·.get? key) with
      | some std => exact items std
      | none =>
        cases bn_generic.get? key with
        | none => exact Or.inr rfl
        | some std => exact items std

end Verif.Props
