import Verif.Model.MetimageConvert
import Verif.Props.ViirsConvert
import Verif.Props.SheetConvert
import Verif.Props.Reader
/-
C203: the METimage program, from the netCDF file to what is read back from the response file.
-/
namespace Verif.Props
open Model Spec Lemmas PyNum XF
variable {α : Type} [PyNum α]

/-- The bands of METimage in the order of their wavelengths, with the group and the variable of their responses. -/
def metimageBands : List (String × String × String) :=
  [("vii-4", "VISNIR", "ISRF_cw_443"), ("vii-8", "VISNIR", "ISRF_cw_555"), ("vii-12", "VISNIR", "ISRF_cw_668"),
   ("vii-15", "VISNIR", "ISRF_cw_752"), ("vii-16", "VISNIR", "ISRF_cw_763"), ("vii-17", "VISNIR", "ISRF_cw_865"),
   ("vii-20", "VISNIR", "ISRF_cw_914"), ("vii-22", "SMWIR", "ISRF_cw_1240"), ("vii-23", "SMWIR", "ISRF_cw_1375"),
   ("vii-24", "SMWIR", "ISRF_cw_1630"), ("vii-25", "SMWIR", "ISRF_cw_2250"), ("vii-26", "SMWIR", "ISRF_cw_3740"),
   ("vii-28", "SMWIR", "ISRF_cw_3959"), ("vii-30", "SMWIR", "ISRF_cw_4050"), ("vii-33", "LVWIR", "ISRF_cw_6725"),
   ("vii-34", "LVWIR", "ISRF_cw_7325"), ("vii-35", "LVWIR", "ISRF_cw_8540"), ("vii-37", "LVWIR", "ISRF_cw_10690"),
   ("vii-39", "LVWIR", "ISRF_cw_12020"), ("vii-40", "LVWIR", "ISRF_cw_13345")]

/-- The samples of a variable of the file, none of them missing. -/
def NcHas (nc : NcGroups XF) (group name : String) (samples : List (ℝ × ℝ)) : Prop :=
  ∃ g, Dict.get? nc group = some g ∧ Dict.get? g name = some (samples.map fun p => (fin p.1, fin p.2))

/-- The largest response, which is positive. -/
def LargestIs (samples : List (ℝ × ℝ)) (M : ℝ) : Prop := (∃ p ∈ samples, p.2 = M) ∧ (∀ p ∈ samples, p.2 ≤ M) ∧ 0 < M

theorem metimageKeys : METIMAGE_BAND_NAMES_DICT.keys = metimageBands.map Prod.fst := by decide +kernel

theorem metimageNames_nodup : (metimageBands.map Prod.fst).Nodup := by decide +kernel

theorem metimageSource_at (t : String × String × String) (ht : t ∈ metimageBands) : metimageSource t.1 = .ok t.2 := by
  have : ∀ t ∈ metimageBands, metimageSource t.1 = .ok t.2 := by decide +kernel
  exact this t ht

theorem metimage_section {options : List (String × Conf)} {platform path out : String}
    (h : OriginalAt options platform "metimage" path out) : sectionPath options (platform ++ "-metimage") = .ok (path, out) :=
  sectionPath_at h (by rw [String.append_assoc]; rfl)

/-- one band of the file -/
theorem metimage_one (f32 : XF → XF) (options : List (String × Conf)) (files : String → Option (NcGroups XF)) (platform path out : String)
    (h : OriginalAt options platform "metimage" path out) (nc : NcGroups XF) (hf : files path = some nc)
    (t : String × String × String) (ht : t ∈ metimageBands) (samples : List (ℝ × ℝ)) (M : ℝ)
    (hs : NcHas nc t.2.1 t.2.2 samples) (hM : LargestIs samples M) :
    ∃ c u cw, MetImageRSR options files t.1 platform = .ok (out, some c) ∧
      SortedUnique (samples.map fun p => (p.1, p.2 / M)) u ∧
      getCentralWave (finL (u.map Prod.fst)) (finL (u.map Prod.snd)) = .ok cw ∧
      metimageBand f32 c = .ok
        { attrs := [("number_of_detectors", .int 1)],
          datasets := [("wavelength", ⟨(finL (u.map Prod.fst)).map f32,
            [("unit", .text (.str "m") "m"), ("scale", .num 1e-6 "")]⟩)],
          dets := [("det-1", ⟨[("central_wavelength", .num cw "")],
            [("response", ⟨(finL (u.map Prod.snd)).map f32, []⟩)]⟩)] } := by
  obtain ⟨h1, h2, h3⟩ := hM
  obtain ⟨c, u, cw, k1, k2, k3, k4⟩ := C137_metimage_samples_partial f32 samples M h1 h2 h3
  refine ⟨c, u, cw, ?_, k2, k3, k4⟩
  obtain ⟨g, g1, g2⟩ := hs
  unfold MetImageRSR
  rw [metimage_section h]
  simp only [bind, Except.bind, hf, metimageSource_at t ht, ncRows, g1, getItem_ok_iff.2 g2, List.map_map, Function.comp_def]
  have : metimageLoad (samples.map fun p => fin p.1) (samples.map fun p => fin p.2) = .ok c := by
    rw [← k1]
    unfold finL
    rw [List.map_map, List.map_map]
    rfl
  rw [this]
  rfl

/-- C203: if the file of original responses has all twenty bands, METimage is converted: the response file is written where a
reader for the platform looks for it, and reading it back gives every band, in order, with one detector that has the
different wavelengths of its own samples in ascending order, each with the response of the first sample at it divided by the
largest response of the band (both in 32 bit). -/
theorem C203_roundtrip (f32 : XF → XF) (options : List (String × Conf)) (files : String → Option (NcGroups XF)) (path out : String)
    (h : OriginalAt options "Metop-SG-A1" "metimage" path out) (nc : NcGroups XF) (hf : files path = some nc)
    (samples : String → List (ℝ × ℝ)) (M : String → ℝ)
    (hs : ∀ t ∈ metimageBands, NcHas nc t.2.1 t.2.2 (samples t.1) ∧ LargestIs (samples t.1) (M t.1)) (fs : H5Files XF) :
    ∃ file info, metimageProgram f32 options files fs = (.ok (), fs.put (out, "rsr_metimage_Metop-SG-A1.h5") file) ∧
      loadRsrInfo file = .ok info ∧ info.platform_name = some "Metop-SG-A1" ∧ info.instrument = .str "metimage" ∧
      info.band_names = metimageBands.map Prod.fst ∧ info.rsr.keys = metimageBands.map Prod.fst ∧
      ∀ t ∈ metimageBands, ∃ u cw, SortedUnique ((samples t.1).map fun p => (p.1, p.2 / M t.1)) u ∧
        getCentralWave (finL (u.map Prod.fst)) (finL (u.map Prod.snd)) = .ok cw ∧
        info.rsr.get? t.1 = some [("det-1", detEntry ((finL (u.map Prod.snd)).map f32) (readBack f32 (finL (u.map Prod.fst))) cw)] := by
  have hB : ∀ b, ∃ (u : List (ℝ × ℝ)) (cw : XF), b ∈ metimageBands.map Prod.fst → ∃ c,
      MetImageRSR options files b "Metop-SG-A1" = .ok (out, some c) ∧
      SortedUnique ((samples b).map fun p => (p.1, p.2 / M b)) u ∧
      getCentralWave (finL (u.map Prod.fst)) (finL (u.map Prod.snd)) = .ok cw ∧
      metimageBand f32 c = .ok
        { attrs := [("number_of_detectors", .int 1)],
          datasets := [("wavelength", ⟨(finL (u.map Prod.fst)).map f32,
            [("unit", .text (.str "m") "m"), ("scale", .num 1e-6 "")]⟩)],
          dets := [("det-1", ⟨[("central_wavelength", .num cw "")],
            [("response", ⟨(finL (u.map Prod.snd)).map f32, []⟩)]⟩)] } := by
    intro b
    by_cases hb : b ∈ metimageBands.map Prod.fst
    · obtain ⟨t, ht, rfl⟩ := List.mem_map.1 hb
      obtain ⟨c, u, cw, k⟩ := metimage_one f32 options files _ path out h nc hf t ht _ _ (hs t ht).1 (hs t ht).2
      exact ⟨u, cw, fun _ => ⟨c, k⟩⟩
    · exact ⟨[], .nan, fun h => absurd h hb⟩
  choose U Z hB using hB
  generalize hBd : (fun b : String => (H5Band.mk [("number_of_detectors", .int 1)]
    [("wavelength", ⟨(finL ((U b).map Prod.fst)).map f32, [("unit", .text (.str "m") "m"), ("scale", .num 1e-6 "")]⟩)]
    [("det-1", ⟨[("central_wavelength", .num (Z b) "")], [("response", ⟨(finL ((U b).map Prod.snd)).map f32, []⟩)]⟩)] : H5Band XF)) = B
  have hloop := bands_run (metimageBandSteps f32 options files "Metop-SG-A1") B (metimageAttrs "Metop-SG-A1") (metimageBands.map Prod.fst) []
    (by
      intro b hb groups hg
      obtain ⟨c, h1, -, -, h4⟩ := hB b hb
      unfold metimageBandSteps
      rw [st_bind_ok (st_lift_ok h1 _)]
      have hcontains : groups.contains b = false := by
        have := get?_eq_none_iff.2 hg
        simp [Dict.contains, this]
      rw [st_bind_ok (a := ()) (s' := ⟨metimageAttrs "Metop-SG-A1", groups.set b H5Band.empty⟩) (by
        rw [createBand_run]; simp [hcontains])]
      simp only
      rw [st_bind_ok (st_lift_ok h4 _), ← set_new _ hg, ← hBd]
      show ((.ok () : Py Unit), H5File.onBand _ _ _) = _
      unfold H5File.onBand
      simp only [set_set]) metimageNames_nodup (by intro b _; simp [Dict.keys])
  rw [List.nil_append] at hloop
  generalize hfile : (H5File.mk (metimageAttrs "Metop-SG-A1") ((metimageBands.map Prod.fst).map fun b => (b, B b)) : H5File XF) = file at hloop
  have hget : ∀ b ∈ metimageBands.map Prod.fst, file.bands.get? b = some (B b) := by
    intro b hb
    rw [← hfile]
    refine get?_of_mem ?_ (List.mem_map.2 ⟨b, hb, rfl⟩)
    simp only [Dict.WF, List.map_map, Function.comp_def]
    exact metimageNames_nodup
  obtain ⟨info, g1, g2, _, g4, g5⟩ := load_of_items file (metimageBands.map Prod.fst) metimageNames_nodup
    ⟨.object_, METIMAGE_BAND_NAMES_DICT.keys.map .str, "", by rw [← hfile]; rfl, by rw [metimageKeys]; exact textOf_map _⟩
    "Relative Spectral Responses for METIMAGE" _ (by rw [← hfile]; rfl) ⟨_, _, rfl, .str _⟩ "Metop-SG-A1" "Metop-SG-A1"
    (by rw [← hfile]; rfl) (by rw [← hfile]; rfl) (fun _ => 1)
    (fun b _ => readBack f32 (finL ((U b).map Prod.fst))) (fun b _ => (finL ((U b).map Prod.snd)).map f32) (fun b _ => Z b) (by
      intro b hb
      exact Or.inl ⟨_, _, hget b hb, by rw [← hBd]; rfl, by simp⟩) (by
      intro b hb i hi
      obtain rfl : i = 0 := by omega
      have hgb := hget b hb
      rw [← hBd] at hgb
      refine ⟨⟨_, hgb, Or.inl ⟨_, rfl, rfl⟩⟩,
        ⟨(finL ((U b).map Prod.fst)).map f32, .num 1e-6 "", 1e-6, ⟨_, hgb, Or.inr ⟨?_, rfl⟩⟩, Or.inr ⟨_, rfl⟩, rfl⟩,
        ⟨_, ⟨_, hgb, Or.inl ⟨_, rfl, rfl⟩⟩, Or.inr ⟨_, rfl⟩⟩⟩
      intro D' hD'
      cases hD'
      rfl)
  obtain ⟨-, -, i3, i4, -⟩ := load_inv file info g1
  have hp : info.platform_name = some "Metop-SG-A1" := by
    have : getPlatformName file = .ok (some "Metop-SG-A1") := by rw [← hfile]; rfl
    rw [this] at i3
    exact (Except.ok.inj i3).symm
  have hi : info.instrument = .str "metimage" := by
    have : getInstrument file (some "Metop-SG-A1") = .ok (.str "metimage") := by rw [← hfile]; rfl
    rw [hp, this] at i4
    exact (Except.ok.inj i4).symm
  refine ⟨file, info, ?_, g1, hp, hi, g2, g4, ?_⟩
  · obtain ⟨c, h1, -⟩ := hB "vii-4" (by decide)
    unfold metimageProgram
    rw [st_forEach_cons]
    have : generateMetimageFile f32 options files "Metop-SG-A1" fs = (.ok (), fs.put (out, "rsr_metimage_Metop-SG-A1.h5") file) := by
      unfold generateMetimageFile
      rw [st_bind_ok (st_lift_ok h1 _), metimageKeys]
      simp only [hloop]
      rfl
    rw [st_bind_ok this]
    rfl
  · intro t ht
    have hb : t.1 ∈ metimageBands.map Prod.fst := List.mem_map.2 ⟨t, ht, rfl⟩
    obtain ⟨B', c1, c2, c3⟩ := g5 t.1 hb
    obtain ⟨c, -, h2, h3, -⟩ := hB t.1 hb
    refine ⟨_, _, h2, h3, ?_⟩
    rw [c1, list_of_keys B' 1 (fun _ => detEntry _ _ _) c2 (fun i hi => c3 i hi)]
    rfl

/-- C203: a reader for METimage on this satellite reads this file. -/
theorem C203_found (env : Env) (h5open : Content → Option (H5File α)) (w : World) (r : Reader α)
    (hr : Eff.result (readerNew env h5open (some "Metop-SG-A1") (some "metimage") none) w = .ok r) :
    r.filename = (env.cfg.rsr_dir, "rsr_metimage_Metop-SG-A1.h5") := by
  obtain ⟨c, h3, -, -, -, h4, -⟩ := C38_by_names env h5open _ _ w r hr
  have : checkAndAdjustInstrumentName "Metop-SG-A1" "metimage" = .ok "metimage" := by decide +kernel
  rw [this] at h3
  cases h3
  exact h4

/-! ### C204: failures -/

theorem metimageBand_only (f32 : α → α) (options : List (String × Conf)) (files : String → Option (NcGroups α)) (platform band : String) :
    OnlyBand (metimageBandSteps f32 options files platform band) band := by
  unfold metimageBandSteps
  refine .bind (.lift _ _) fun v => .bind (.create _) fun _ => ?_
  split
  · exact fun _ => ⟨rfl, fun _ _ => rfl⟩
  · exact .bind (.lift _ _) fun _ => .change _ _

theorem metimage_fail (f32 : α → α) (options : List (String × Conf)) (files : String → Option (NcGroups α)) (platform band : String)
    (e : PyErr) (he : MetImageRSR options files band platform = .error e) (L : List String) : ∀ f : H5File α, f.bands.get? band = none →
    ((PySt.forEach (metimageBandSteps f32 options files platform) L f).2.attrs = f.attrs ∧
      (PySt.forEach (metimageBandSteps f32 options files platform) L f).2.bands.get? band = none) ∧
    (band ∈ L → ∃ e', (PySt.forEach (metimageBandSteps f32 options files platform) L f).1 = .error e') := by
  induction L with
  | nil => intro f hf; exact ⟨⟨rfl, hf⟩, by simp⟩
  | cons b L ih =>
    intro f hf
    rw [st_forEach_cons]
    by_cases hb : b = band
    · subst hb
      have : metimageBandSteps f32 options files platform b f = (.error e, f) := by
        unfold metimageBandSteps
        exact st_bind_error (st_lift_error he f)
      rw [st_bind_error this]
      exact ⟨⟨rfl, hf⟩, fun _ => ⟨e, rfl⟩⟩
    · obtain ⟨h1, h2⟩ := metimageBand_only f32 options files platform b f
      have h2 := h2 band (fun h => hb h.symm)
      cases hr : metimageBandSteps f32 options files platform b f with
      | mk r f' =>
        rw [hr] at h1 h2
        cases r with
        | error e' =>
          rw [st_bind_error hr]
          exact ⟨⟨h1, h2.trans hf⟩, fun _ => ⟨e', rfl⟩⟩
        | ok _ =>
          rw [st_bind_ok hr]
          obtain ⟨⟨i1, i2⟩, i3⟩ := ih f' (h2.trans hf)
          refine ⟨⟨i1.trans h1, i2⟩, fun hm => i3 ?_⟩
          rcases List.mem_cons.1 hm with h | h
          · exact absurd h.symm hb
          · exact h

omit [PyNum α] in
theorem metimageAttrs_lists (f : H5File α) (platform : String) (h : f.attrs = metimageAttrs platform) :
    ListsBands f (metimageBands.map Prod.fst) :=
  ⟨.object_, METIMAGE_BAND_NAMES_DICT.keys.map .str, "", by rw [h]; rfl, by rw [metimageKeys]; exact textOf_map _⟩

/-- The variable of a band is not in the file. -/
def NcLacks (nc : NcGroups α) (group name : String) : Prop :=
  Dict.get? nc group = none ∨ ∃ g, Dict.get? nc group = some g ∧ Dict.get? g name = none

theorem metimage_lacks (options : List (String × Conf)) (files : String → Option (NcGroups α)) (platform path out : String)
    (h : OriginalAt options platform "metimage" path out) (nc : NcGroups α) (hf : files path = some nc)
    (t : String × String × String) (ht : t ∈ metimageBands) (hl : NcLacks nc t.2.1 t.2.2) :
    ∃ e, MetImageRSR options files t.1 platform = .error e := by
  unfold MetImageRSR
  rw [metimage_section h]
  simp only [bind, Except.bind, hf, metimageSource_at t ht, ncRows]
  rcases hl with h1 | ⟨g, h1, h2⟩
  · rw [h1]; exact ⟨_, rfl⟩
  · rw [h1]
    simp only [Dict.getItem, h2]
    exact ⟨_, rfl⟩

theorem metimage_one_program (f32 : α → α) (options : List (String × Conf)) (files : String → Option (NcGroups α)) (fs fs' : H5Files α)
    (e : PyErr) (h : generateMetimageFile f32 options files "Metop-SG-A1" fs = (.error e, fs')) :
    metimageProgram f32 options files fs = (.error e, fs') := by
  unfold metimageProgram
  rw [st_forEach_cons, st_bind_error h]

/-- C204, missing: the two cases below.  No file is changed when the configuration has no section for the platform, or when the file of
original responses lacks the first band. -/
theorem C204_unchanged_partial (f32 : α → α) (options : List (String × Conf)) (files : String → Option (NcGroups α)) (fs : H5Files α)
    (h : Dict.get? options "Metop-SG-A1-metimage" = none ∨ ∃ path out nc, OriginalAt options "Metop-SG-A1" "metimage" path out ∧
      files path = some nc ∧ NcLacks nc "VISNIR" "ISRF_cw_443") :
    ∃ e, metimageProgram f32 options files fs = (.error e, fs) := by
  have key : ∃ e, MetImageRSR options files "vii-4" "Metop-SG-A1" = .error e := by
    rcases h with h | ⟨path, out, nc, h1, h2, h3⟩
    · refine ⟨.keyError, ?_⟩
      unfold MetImageRSR sectionPath Dict.getItem
      rw [show ("Metop-SG-A1" ++ "-metimage" : String) = "Metop-SG-A1-metimage" from rfl, h]
      rfl
    · exact metimage_lacks options files _ path out h1 nc h2 ("vii-4", "VISNIR", "ISRF_cw_443") (by decide) h3
  obtain ⟨e, he⟩ := key
  refine ⟨e, metimage_one_program f32 options files fs fs e ?_⟩
  unfold generateMetimageFile
  exact st_bind_error (st_lift_error he fs)

/-- C204 is false when the file of original responses lacks another band: the program fails, the response file that was there
before is lost, and the new one cannot be read. -/
theorem C204_lacking_band_destroys (f32 : XF → XF) (options : List (String × Conf)) (files : String → Option (NcGroups XF))
    (path out : String) (h : OriginalAt options "Metop-SG-A1" "metimage" path out) (nc : NcGroups XF) (hf : files path = some nc)
    (samples : List (ℝ × ℝ)) (M : ℝ) (hs : NcHas nc "VISNIR" "ISRF_cw_443" samples) (hM : LargestIs samples M)
    (t : String × String × String) (ht : t ∈ metimageBands) (hl : NcLacks nc t.2.1 t.2.2) (fs : H5Files XF) :
    ∃ e file, metimageProgram f32 options files fs = (.error e, fs.put (out, "rsr_metimage_Metop-SG-A1.h5") file) ∧
      ∀ info, loadRsrInfo file ≠ .ok info := by
  obtain ⟨c, _, _, h1, -⟩ := metimage_one f32 options files _ path out h nc hf ("vii-4", "VISNIR", "ISRF_cw_443") (by decide) samples M hs hM
  obtain ⟨e, he⟩ := metimage_lacks options files _ path out h nc hf t ht hl
  have hb : t.1 ∈ metimageBands.map Prod.fst := List.mem_map.2 ⟨t, ht, rfl⟩
  obtain ⟨⟨i1, i2⟩, i3⟩ := metimage_fail f32 options files "Metop-SG-A1" t.1 e he (metimageBands.map Prod.fst)
    ⟨metimageAttrs "Metop-SG-A1", []⟩ rfl
  obtain ⟨e, i3⟩ := i3 hb
  refine ⟨e, _, metimage_one_program f32 options files fs _ e ?_,
    not_loaded_absent _ _ (metimageAttrs_lists _ "Metop-SG-A1" i1) t.1 hb i2⟩
  unfold generateMetimageFile
  rw [st_bind_ok (st_lift_ok h1 _), metimageKeys]
  simp only [i3]
  rfl

/-- C204 is false when there is no file of original responses: the missing file is only noticed (by an AttributeError) after the
response file that was there before is lost. -/
theorem C204_no_file_destroys (f32 : α → α) (options : List (String × Conf)) (files : String → Option (NcGroups α)) (path out : String)
    (h : OriginalAt options "Metop-SG-A1" "metimage" path out) (hf : files path = none) (fs : H5Files α) :
    ∃ file, metimageProgram f32 options files fs = (.error .attributeError, fs.put (out, "rsr_metimage_Metop-SG-A1.h5") file) ∧
      ∀ info, loadRsrInfo file ≠ .ok info := by
  have key : ∀ b, MetImageRSR options files b "Metop-SG-A1" = .ok (out, none) := by
    intro b
    unfold MetImageRSR
    rw [metimage_section h]
    simp only [bind, Except.bind, hf]
    rfl
  have hrun : PySt.forEach (metimageBandSteps f32 options files "Metop-SG-A1") METIMAGE_BAND_NAMES_DICT.keys
      ⟨metimageAttrs "Metop-SG-A1", []⟩ = (.error .attributeError, ⟨metimageAttrs "Metop-SG-A1", [("vii-4", H5Band.empty)]⟩) := by
    rw [metimageKeys]
    unfold metimageBands
    rw [List.map_cons, st_forEach_cons]
    apply st_bind_error
    unfold metimageBandSteps
    rw [st_bind_ok (st_lift_ok (key _) _)]
    rfl
  refine ⟨_, metimage_one_program f32 options files fs _ _ ?_,
    not_loaded_absent ⟨metimageAttrs "Metop-SG-A1", [("vii-4", H5Band.empty)]⟩ _ (metimageAttrs_lists _ "Metop-SG-A1" rfl) "vii-8"
      (by decide) rfl⟩
  unfold generateMetimageFile
  rw [st_bind_ok (st_lift_ok (key _) _)]
  simp only [hrun]
  rfl

/-- a configuration and a file in which all bands have the same three samples, the first wavelength twice -/
noncomputable def exNc : NcGroups XF :=
  ["VISNIR", "SMWIR", "LVWIR"].map fun g => (g, metimageBands.map fun t => (t.2.2, [(fin 2, fin 1), (fin 1, fin 2), (fin 2, fin 3)]))

theorem exNc_at : OriginalAt (exOriginal "Metop-SG-A1-metimage") "Metop-SG-A1" "metimage" "/raw/file" "/rsr" :=
  ⟨⟨_, rfl, rfl⟩, rfl⟩

theorem exNc_has (t : String × String × String) (ht : t ∈ metimageBands) :
    NcHas exNc t.2.1 t.2.2 [(2, 1), (1, 2), (2, 3)] := by
  fin_cases ht <;> exact ⟨_, rfl, rfl⟩

theorem exNc_largest : LargestIs [(2, 1), (1, 2), (2, 3)] 3 :=
  ⟨⟨(2, 3), by simp, rfl⟩, by simp; norm_num, by norm_num⟩

example (fs : H5Files XF) : ∃ file info, metimageProgram id (exOriginal "Metop-SG-A1-metimage") (fun _ => some exNc) fs =
      (.ok (), fs.put ("/rsr", "rsr_metimage_Metop-SG-A1.h5") file) ∧
    loadRsrInfo file = .ok info ∧ info.rsr.keys.length = 20 := by
  obtain ⟨file, info, h1, h2, -, -, -, h3, -⟩ := C203_roundtrip id _ (fun _ => some exNc) _ _ exNc_at exNc rfl
    (fun _ => [(2, 1), (1, 2), (2, 3)]) (fun _ => 3) (fun t ht => ⟨exNc_has t ht, exNc_largest⟩) fs
  exact ⟨file, info, h1, h2, by rw [h3]; rfl⟩

/-- the same without the group of the longest wavelengths -/
noncomputable def exNcShort : NcGroups XF :=
  ["VISNIR", "SMWIR"].map fun g => (g, metimageBands.map fun t => (t.2.2, [(fin 2, fin 1), (fin 1, fin 2), (fin 2, fin 3)]))

example (fs : H5Files XF) : ∃ e file, metimageProgram id (exOriginal "Metop-SG-A1-metimage") (fun _ => some exNcShort) fs =
      (.error e, fs.put ("/rsr", "rsr_metimage_Metop-SG-A1.h5") file) ∧ ∀ info, loadRsrInfo file ≠ .ok info :=
  C204_lacking_band_destroys id _ (fun _ => some exNcShort) _ _ exNc_at exNcShort rfl [(2, 1), (1, 2), (2, 3)] 3
    ⟨_, rfl, rfl⟩ exNc_largest ("vii-40", "LVWIR", "ISRF_cw_13345") (by decide) (.inl rfl) fs

example (fs : H5Files XF) : ∃ e, metimageProgram id (exOriginal "Metop-SG-A1-metimage") (fun _ => some []) fs = (.error e, fs) :=
  C204_unchanged_partial id _ (fun _ => some []) fs (.inr ⟨_, _, _, exNc_at, rfl, .inl rfl⟩)

end Verif.Props
