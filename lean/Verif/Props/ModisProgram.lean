import Verif.Props.Modis
import Verif.Props.ViirsConvert
import Verif.Props.Reader
import Verif.Model.ModisProgram
/-
Properties C206 and C207: the MODIS converter with the files it leaves behind.
-/
namespace Verif.Props
open XF Model PyNum Lemmas Spec
variable {α : Type} [PyNum α]

theorem mapM_each {β γ : Type} (f : β → Py γ) (l : List β) (r : List γ) (h : l.mapM f = .ok r) : ∀ x ∈ l, ∃ y, f x = .ok y := by
  induction l generalizing r with
  | nil => simp
  | cons x l ih =>
    rw [List.mapM_cons] at h
    cases hx : f x with
    | error e => rw [hx] at h; cases h
    | ok y =>
      rw [hx] at h
      cases hl : l.mapM f with
      | error e => rw [hl] at h; cases h
      | ok ys =>
        intro z hz
        rcases List.mem_cons.1 hz with rfl | hz
        · exact ⟨y, hx⟩
        · exact ih ys hl z hz

theorem modis_forall₂_mem {β γ : Type} {R : β → γ → Prop} {l : List β} {m : List γ} (h : List.Forall₂ R l m) {x : β} (hx : x ∈ l) :
    ∃ y ∈ m, R x y := by
  induction h with
  | nil => simp at hx
  | cons hab _ ih =>
    rcases List.mem_cons.1 hx with rfl | hx
    · exact ⟨_, by simp, hab⟩
    · obtain ⟨y, h1, h2⟩ := ih hx
      exact ⟨y, by simp [h1], h2⟩

theorem modisDetectors_run (f32 : α → α) (band : String) (constant : Bool) (D : String × RawCurve α → H5Det α)
    (L : List (String × RawCurve α)) (hD : ∀ p ∈ L, modisDetector f32 constant p.2 = .ok (D p))
    (at_ : Attrs α) (groups : Dict String (H5Band α)) : ∀ B : H5Band α, (L.map Prod.fst).Nodup →
    (∀ p ∈ L, p.1 ∉ B.dets.keys) →
    PySt.forEach (modisDetectorSteps f32 band constant) L ⟨at_, groups.set band B⟩ =
      (.ok (), ⟨at_, groups.set band { B with dets := B.dets ++ L.map fun p => (p.1, D p) }⟩) := by
  induction L with
  | nil => intro B _ _; simp only [List.map_nil, List.append_nil]; rfl
  | cons p L ih =>
    intro B hnd hdis
    rw [List.map_cons, List.nodup_cons] at hnd
    rw [st_forEach_cons]
    have hstep : modisDetectorSteps f32 band constant p ⟨at_, groups.set band B⟩ =
        (.ok (), ⟨at_, groups.set band { B with dets := B.dets ++ [(p.1, D p)] }⟩) := by
      unfold modisDetectorSteps
      rw [st_bind_ok (st_lift_ok (hD p (by simp)) _)]
      show ((.ok () : Py Unit), H5File.onBand _ _ _) = _
      unfold H5File.onBand
      simp only [get?_set_self, Option.getD_some, set_set, H5Band.onDet]
      rw [set_new _ (hdis p (by simp))]
    rw [st_bind_ok hstep, ih (fun q hq => hD q (by simp [hq])) _ hnd.2]
    · simp
    · intro q hq
      simp only [Dict.keys, List.map_append, List.map_cons, List.map_nil, List.mem_append, List.mem_singleton, not_or]
      refine ⟨hdis q (by simp [hq]), ?_⟩
      intro he
      exact hnd.1 (by rw [← he]; exact List.mem_map_of_mem hq)

/-- one band, when it can be written -/
theorem modisBandSteps_run (P : Parsers α) (argsort : List α → List Nat) (f32 : α → α) (options : List (String × Conf))
    (files : String → Option (List String)) (platform band : String) (M : DetectorsRSR α)
    (hM : ModisRSR P argsort options files band platform = .ok M) (hnd : M.rsr.keys.Nodup) (B : H5Band α)
    (hB : modisBand f32 M.rsr = .ok B) (at_ : Attrs α) (groups : Dict String (H5Band α)) (hb : band ∉ groups.keys) :
    modisBandSteps P argsort f32 options files platform band ⟨at_, groups⟩ = (.ok (), ⟨at_, groups ++ [(band, B)]⟩) := by
  obtain ⟨out, rsr⟩ := M
  unfold modisBandSteps
  rw [st_bind_ok (st_lift_ok hM _)]
  have hcontains : groups.contains band = false := by
    have := get?_eq_none_iff.2 hb
    simp [Dict.contains, this]
  rw [st_bind_ok (a := ()) (s' := ⟨at_, groups.set band H5Band.empty⟩) (by rw [createBand_run]; simp [hcontains])]
  rw [st_bind_ok (a := ()) (s' := ⟨at_, groups.set band ⟨[("number_of_detectors", .int rsr.length)], [], []⟩⟩) (by
    show ((.ok () : Py Unit), H5File.onBand _ _ _) = _
    unfold H5File.onBand
    simp only [get?_set_self, Option.getD_some, set_set]
    rfl)]
  cases rsr with
  | nil => cases hB
  | cons first others =>
    unfold modisBand at hB
    simp only at hB ⊢
    generalize wvlIsConstant first.2.wavelength (others.map Prod.snd) = constant at hB ⊢
    cases hdets : (first :: others).mapM (fun p => do return (p.1, ← modisDetector f32 constant p.2)) with
    | error e => rw [hdets] at hB; cases hB
    | ok dets =>
      rw [hdets] at hB
      have hF := (mapM_pair_spec _ _ _ hdets).2
      let D : String × RawCurve α → H5Det α := fun p => match modisDetector f32 constant p.2 with
        | .ok D => D
        | .error _ => ⟨[], []⟩
      have hD : ∀ p ∈ first :: others, modisDetector f32 constant p.2 = .ok (D p) := by
        intro p hp
        obtain ⟨q, -, -, h⟩ := modis_forall₂_mem hF hp
        show _ = Except.ok (match modisDetector f32 constant p.2 with | .ok D => D | .error _ => ⟨[], []⟩)
        rw [h]
      have hmap := mapM_ok (fun p : String × RawCurve α => do return (p.1, ← modisDetector f32 constant p.2)) (fun p => (p.1, D p))
        (first :: others) (by
          intro p hp
          simp only [hD p hp]
          rfl)
      obtain rfl : (first :: others).map (fun p => (p.1, D p)) = dets := Except.ok.inj (hmap.symm.trans hdets)
      let B0 : H5Band α := ⟨[("number_of_detectors", .int (first :: others).length)],
        if constant then [wavelengthSet f32 first.2.wavelength] else [], []⟩
      have hloop := modisDetectors_run f32 band constant D (first :: others) hD at_ groups B0 hnd (by intro p _; simp [B0, Dict.keys])
      have hBe : B = { B0 with dets := B0.dets ++ (first :: others).map fun p => (p.1, D p) } := (Except.ok.inj hB).symm
      rw [hBe, ← set_new _ hb, ← hloop]
      cases hct : constant with
      | false =>
        simp only [Bool.false_eq_true, if_false]
        simp only [B0, hct]
        rfl
      | true =>
        simp only [if_true]
        rw [st_bind_ok (a := ()) (s' := ⟨at_, groups.set band B0⟩) (by
          show ((.ok () : Py Unit), H5File.onBand _ _ _) = _
          unfold H5File.onBand
          simp only [get?_set_self, Option.getD_some, set_set, B0, hct, if_true]
          rfl)]

/-! ### the detectors of a band are different -/

theorem mapM_fst {β γ : Type} (f : String × β → Py (String × γ)) (hf : ∀ p q, f p = .ok q → q.1 = p.1)
    (l : List (String × β)) (r : List (String × γ)) (h : l.mapM f = .ok r) : r.map Prod.fst = l.map Prod.fst := by
  induction l generalizing r with
  | nil => cases h; rfl
  | cons p l ih =>
    rw [List.mapM_cons] at h
    cases hp : f p with
    | error e => rw [hp] at h; cases h
    | ok q =>
      rw [hp] at h
      cases hl : l.mapM f with
      | error e => rw [hl] at h; cases h
      | ok qs =>
        rw [hl] at h
        cases h
        rw [List.map_cons, List.map_cons, ih qs hl, hf p q hp]

theorem modisLine_wf (P : Parsers α) (scale : α) (d d' : Dict String (RawCurve α)) (line : String) (hd : d.WF)
    (h : modisLine P scale d line = .ok d') : d'.WF := by
  unfold modisLine at h
  split at h
  · cases h; exact hd
  · split at h
    · simp only [bind, Except.bind, pure, Except.pure] at h
      split at h
      · cases h
      split at h
      · cases h
      split at h
      · cases h
      cases h
      exact set_wf _ _ _ hd
    · cases h

theorem modisRSR_nodup (P : Parsers α) (argsort : List α → List Nat) (options : List (String × Conf))
    (files : String → Option (List String)) (band platform : String) (M : DetectorsRSR α)
    (h : ModisRSR P argsort options files band platform = .ok M) : M.rsr.keys.Nodup := by
  have fold : ∀ (lines : List String) (scale : α) (d d' : Dict String (RawCurve α)), d.WF →
      lines.foldlM (modisLine P scale) d = .ok d' → d'.WF := by
    intro lines scale
    induction lines with
    | nil => intro d d' hd h; cases h; exact hd
    | cons l lines ih =>
      intro d d' hd h
      rw [List.foldlM_cons] at h
      cases hl : modisLine P scale d l with
      | error e => rw [hl] at h; cases h
      | ok d1 => rw [hl] at h; exact ih d1 d' (modisLine_wf P scale d d1 l hd hl) h
  unfold ModisRSR at h
  simp only [bind, Except.bind, pure, Except.pure] at h
  split at h
  · cases h
  split at h
  · cases h
  split at h
  · cases h
  split at h
  · cases h
  rename_i r hr
  cases h
  unfold modisLoad readModisResponse at hr
  simp only [bind, Except.bind, pure, Except.pure] at hr
  split at hr
  · cases hr
  rename_i d hd
  split at hd
  · cases hd
  rename_i d0 hd0
  cases hd
  have hwf := fold _ _ [] d0 (by simp [Dict.WF]) hd0
  simp only [if_true] at hr
  unfold sortDetectors at hr
  have := mapM_fst _ (by
    intro p q h
    simp only [bind, Except.bind, pure, Except.pure] at h
    split at h
    · cases h
    · cases h; rfl) _ _ hr
  show (r.map Prod.fst).Nodup
  rw [this]
  rw [Dict.mapVals, List.map_map]
  exact hwf

/-! ### C206 -/

/-- C206: whenever the original data of a platform can be converted (`modisConvert` of C106), that is the file left behind, and no
other file is touched. -/
theorem C206_same_result (P : Parsers α) (argsort : List α → List Nat) (f32 : α → α) (options : List (String × Conf))
    (files : String → Option (List String)) (platform : String) (p : Path) (f : H5File α)
    (h : modisConvert P argsort f32 options files platform = .ok (p, f)) (fs : H5Files α) :
    modisConvertSteps P argsort f32 options files platform fs = (.ok (), fs.put p f) := by
  unfold modisConvert at h
  cases h20 : ModisRSR P argsort options files "20" platform with
  | error e => rw [h20] at h; cases h
  | ok M20 =>
    rw [h20] at h
    simp only [bind, Except.bind, pure, Except.pure] at h
    split at h
    · cases h
    rename_i bands hbands
    obtain ⟨rfl, rfl⟩ := Prod.mk.inj (Except.ok.inj h)
    have hone : ∀ b ∈ MODIS_BAND_NAMES, ∃ M B, ModisRSR P argsort options files b platform = .ok M ∧ modisBand f32 M.rsr = .ok B := by
      intro b hb
      obtain ⟨y, hy⟩ := mapM_each _ _ _ hbands b hb
      cases hM : ModisRSR P argsort options files b platform with
      | error e => simp only [hM] at hy; cases hy
      | ok M =>
        cases hB : modisBand f32 M.rsr with
        | error e => simp only [hM, hB] at hy; cases hy
        | ok B => exact ⟨M, B, rfl, hB⟩
    have : Nonempty (DetectorsRSR α) := ⟨⟨"", []⟩⟩
    have : Nonempty (H5Band α) := ⟨H5Band.empty⟩
    choose! M B hM hB using hone
    have hloop := bands_run (modisBandSteps P argsort f32 options files platform) B (modisAttrs platform) MODIS_BAND_NAMES []
      (fun b hb groups hg => modisBandSteps_run P argsort f32 options files platform b (M b) (hM b hb)
        (modisRSR_nodup P argsort options files b platform (M b) (hM b hb)) (B b) (hB b hb) _ groups hg)
      modisNames_nodup (by intro b _; simp [Dict.keys])
    have hmap := mapM_ok (fun chname => do
        let modis ← ModisRSR P argsort options files chname platform
        return (chname, ← modisBand f32 modis.rsr)) (fun b => (b, B b)) MODIS_BAND_NAMES (by
      intro b hb
      simp only [hM b hb, bind, Except.bind, hB b hb]
      rfl)
    obtain rfl : MODIS_BAND_NAMES.map (fun b => (b, B b)) = bands := Except.ok.inj (hmap.symm.trans hbands)
    unfold modisConvertSteps
    rw [st_bind_ok (st_lift_ok h20 _)]
    simp only [hloop]
    rfl

/-- what C106 says about a converted file -/
def ModisInfo (f32 : XF → XF) (platform : String) (n : Nat → Nat) (rs : Nat → List (ModisRecord XF)) (file : H5File XF) : Prop :=
  ∃ info, loadRsrInfo file = .ok info ∧ info.band_names = (List.range 36).map (fun i => toString (i + 1)) ∧
    info.rsr.keys = info.band_names ∧
    ∀ i < 36, ∃ B, info.rsr.get? (toString (i + 1)) = some B ∧ B.keys = (List.range (n i)).map detName ∧
      ∀ j < n i, ∃ c ws cw, CurveOf (samplesOf (rs i) (j + 1)) (modisUnit platform (i + 1)) c ∧
        (ws = c.wavelength ∨ CloseGrids ws c.wavelength) ∧ WrittenCentral c.wavelength c.response cw ∧
        B.get? (detName j) = some (detEntry (c.response.map f32) (readBack f32 ws) cw)

/-- C206: with the original files of both platforms in place the program leaves a file for each, and each gives back the curves of
its own platform's files; nothing else is changed. -/
theorem C206_program (P : Parsers XF) (argsort : List XF → List Nat) (ha : IsArgsort argsort) (f32 : XF → XF)
    (options : List (String × Conf)) (files : String → Option (List String)) (path out : String → String)
    (n : String → Nat → Nat) (rs : String → Nat → List (ModisRecord XF))
    (h : ∀ p ∈ ["EOS-Terra", "EOS-Aqua"], ModisOptions options p (path p) (out p) ∧ ModisFiles P files p (path p) (n p) (rs p))
    (fs : H5Files XF) :
    ∃ terra aqua, modisProgram P argsort f32 options files fs =
        (.ok (), (fs.put (out "EOS-Terra", "rsr_modis_EOS-Terra.h5") terra).put (out "EOS-Aqua", "rsr_modis_EOS-Aqua.h5") aqua) ∧
      ModisInfo f32 "EOS-Terra" (n "EOS-Terra") (rs "EOS-Terra") terra ∧ ModisInfo f32 "EOS-Aqua" (n "EOS-Aqua") (rs "EOS-Aqua") aqua := by
  have one : ∀ p ∈ ["EOS-Terra", "EOS-Aqua"], ∃ f, (∀ fs, modisConvertSteps P argsort f32 options files p fs =
      (.ok (), fs.put (out p, "rsr_modis_" ++ p ++ ".h5") f)) ∧ ModisInfo f32 p (n p) (rs p) f := by
    intro p hp
    obtain ⟨h1, h2⟩ := h p hp
    obtain ⟨f, info, g1, g2⟩ := C106_modis_roundtrip P argsort ha f32 options files p (path p) (out p) h1 (n p) (rs p) h2
    exact ⟨f, C206_same_result P argsort f32 options files p _ f g1, info, g2⟩
  obtain ⟨terra, t1, t2⟩ := one "EOS-Terra" (by simp)
  obtain ⟨aqua, a1, a2⟩ := one "EOS-Aqua" (by simp)
  refine ⟨terra, aqua, ?_, t2, a2⟩
  unfold modisProgram
  rw [st_forEach_cons, st_bind_ok (t1 fs), st_forEach_cons, st_bind_ok (a1 _)]
  rfl

/-- C206: the reader for MODIS on a platform looks for the file the program makes. -/
theorem C206_found (env : Env) (h5open : Content → Option (H5File α)) (platform : String) (hp : platform ∈ ["EOS-Terra", "EOS-Aqua"])
    (w : World) (r : Reader α) (hr : Eff.result (readerNew env h5open (some platform) (some "modis") none) w = .ok r) :
    r.filename = (env.cfg.rsr_dir, "rsr_modis_" ++ platform ++ ".h5") := by
  obtain ⟨c, h3, -, -, -, h4, -⟩ := C38_by_names env h5open _ _ w r hr
  have : ∀ p ∈ ["EOS-Terra", "EOS-Aqua"], checkAndAdjustInstrumentName p "modis" = .ok "modis" := by decide +kernel
  rw [this _ hp] at h3
  cases h3
  exact h4

/-! ### C207 -/

theorem modisBand_only (P : Parsers α) (argsort : List α → List Nat) (f32 : α → α) (options : List (String × Conf))
    (files : String → Option (List String)) (platform band : String) :
    OnlyBand (modisBandSteps P argsort f32 options files platform band) band := by
  unfold modisBandSteps
  refine .bind (.lift _ _) fun v => .bind (.create _) fun _ => .bind (.change _ _) fun _ => ?_
  split
  · exact fun _ => ⟨rfl, fun _ _ => rfl⟩
  · simp only
    split
    · exact .bind (.change _ _) fun _ => .each _ _ (fun _ => .bind (.lift _ _) fun _ => .change _ _) _
    · exact .each _ _ (fun _ => .bind (.lift _ _) fun _ => .change _ _) _

theorem modisBands_fail (P : Parsers α) (argsort : List α → List Nat) (f32 : α → α) (options : List (String × Conf))
    (files : String → Option (List String)) (platform band : String) (e : PyErr)
    (he : ModisRSR P argsort options files band platform = .error e) (L : List String) : ∀ f : H5File α, f.bands.get? band = none →
    ((PySt.forEach (modisBandSteps P argsort f32 options files platform) L f).2.attrs = f.attrs ∧
      (PySt.forEach (modisBandSteps P argsort f32 options files platform) L f).2.bands.get? band = none) ∧
    (band ∈ L → ∃ e', (PySt.forEach (modisBandSteps P argsort f32 options files platform) L f).1 = .error e') := by
  induction L with
  | nil => intro f hf; exact ⟨⟨rfl, hf⟩, by simp⟩
  | cons b L ih =>
    intro f hf
    rw [st_forEach_cons]
    by_cases hb : b = band
    · subst hb
      have : modisBandSteps P argsort f32 options files platform b f = (.error e, f) := by
        unfold modisBandSteps
        exact st_bind_error (st_lift_error he f)
      rw [st_bind_error this]
      exact ⟨⟨rfl, hf⟩, fun _ => ⟨e, rfl⟩⟩
    · obtain ⟨h1, h2⟩ := modisBand_only P argsort f32 options files platform b f
      have h2 := h2 band (fun h => hb h.symm)
      cases hr : modisBandSteps P argsort f32 options files platform b f with
      | mk r f' =>
        rw [hr] at h1 h2
        cases r with
        | error e' =>
          rw [st_bind_error hr]
          exact ⟨⟨h1, h2.trans hf⟩, fun _ => ⟨e', rfl⟩⟩
        | ok _ =>
          rw [st_bind_ok hr]
          obtain ⟨⟨i1, i2⟩, i3⟩ := ih f' (h2.trans hf)
          refine ⟨⟨i1.trans h1, i2⟩, fun hm => i3 ?_⟩
          rcases List.mem_cons.1 hm with h | h
          · exact absurd h.symm hb
          · exact h

omit [PyNum α] in
theorem modisAttrs_lists (f : H5File α) (platform : String) (h : f.attrs = modisAttrs platform) :
    ListsBands f MODIS_BAND_NAMES :=
  ⟨.object_, MODIS_BAND_NAMES.map .str, "", by rw [h]; rfl, textOf_map _⟩

theorem modisRSR_missing (P : Parsers α) (argsort : List α → List Nat) (options : List (String × Conf))
    (files : String → Option (List String)) (platform path out : String) (ho : ModisOptions options platform path out) (i : Nat)
    (hi : i < 36) (hf : files (OsPath.join path (modisFileOf platform (i + 1))) = none) :
    ModisRSR P argsort options files (toString (i + 1)) platform = .error .ioError := by
  unfold ModisRSR
  rw [sectionPath_run options platform path out ho]
  simp only [bind, Except.bind]
  rw [modisFilenames_get platform path i hi]
  simp only [hf]

/-- C207: nothing is changed when the platform has no section in the configuration or band 20 has no file (missing from the claim:
the other bands, see `C207_missing_file_destroys`). -/
theorem C207_unchanged_partial (P : Parsers α) (argsort : List α → List Nat) (f32 : α → α) (options : List (String × Conf))
    (files : String → Option (List String)) (platform : String)
    (h : Dict.get? options (platform ++ "-modis") = none ∨ ∃ path out, ModisOptions options platform path out ∧
      files (OsPath.join path (modisFileOf platform 20)) = none) (fs : H5Files α) :
    ∃ e, modisConvertSteps P argsort f32 options files platform fs = (.error e, fs) := by
  have key : ∃ e, ModisRSR P argsort options files "20" platform = .error e := by
    rcases h with h | ⟨path, out, h1, h2⟩
    · refine ⟨.keyError, ?_⟩
      unfold ModisRSR sectionPath Dict.getItem
      rw [h]
      rfl
    · exact ⟨_, modisRSR_missing P argsort options files platform path out h1 19 (by decide) h2⟩
  obtain ⟨e, he⟩ := key
  refine ⟨e, ?_⟩
  unfold modisConvertSteps
  exact st_bind_error (st_lift_error he fs)

/-- C207 is false when the file of another band is missing: the conversion fails, the response file that was there before is lost,
and the new one cannot be read. -/
theorem C207_missing_file_destroys (P : Parsers α) (argsort : List α → List Nat) (f32 : α → α) (options : List (String × Conf))
    (files : String → Option (List String)) (platform path out : String) (ho : ModisOptions options platform path out)
    (first : DetectorsRSR α) (h20 : ModisRSR P argsort options files "20" platform = .ok first) (i : Nat) (hi : i < 36)
    (hf : files (OsPath.join path (modisFileOf platform (i + 1))) = none) (fs : H5Files α) :
    ∃ e file, modisConvertSteps P argsort f32 options files platform fs =
        (.error e, fs.put (first.output_dir, "rsr_modis_" ++ platform ++ ".h5") file) ∧
      ∀ info, loadRsrInfo file ≠ .ok info := by
  have he := modisRSR_missing P argsort options files platform path out ho i hi hf
  have hb : toString (i + 1) ∈ MODIS_BAND_NAMES := List.mem_map.2 ⟨i, by simpa using hi, rfl⟩
  obtain ⟨⟨i1, i2⟩, i3⟩ := modisBands_fail P argsort f32 options files platform _ _ he MODIS_BAND_NAMES ⟨modisAttrs platform, []⟩ rfl
  obtain ⟨e, i3⟩ := i3 hb
  refine ⟨e, _, ?_, not_loaded_absent _ MODIS_BAND_NAMES (modisAttrs_lists _ platform i1) _ hb i2⟩
  unfold modisConvertSteps
  rw [st_bind_ok (st_lift_ok h20 _)]
  simp only [i3]
  rfl

/-- C207: when the conversion for Terra fails, the program ends with its exception and the file for Aqua is as it was, even if the
original data for Aqua are complete. -/
theorem C207_terra_first (P : Parsers α) (argsort : List α → List Nat) (f32 : α → α) (options : List (String × Conf))
    (files : String → Option (List String)) (fs fs' : H5Files α) (e : PyErr)
    (h : modisConvertSteps P argsort f32 options files "EOS-Terra" fs = (.error e, fs')) :
    modisProgram P argsort f32 options files fs = (.error e, fs') ∧
      ∀ dir, fs' (dir, "rsr_modis_EOS-Aqua.h5") = fs (dir, "rsr_modis_EOS-Aqua.h5") := by
  constructor
  · unfold modisProgram
    rw [st_forEach_cons, st_bind_error h]
  · intro dir
    unfold modisConvertSteps at h
    cases h20 : ModisRSR P argsort options files "20" "EOS-Terra" with
    | error e' =>
      rw [st_bind_error (st_lift_error h20 fs)] at h
      rw [(Prod.mk.inj h).2]
    | ok M =>
      rw [st_bind_ok (st_lift_ok h20 fs)] at h
      obtain rfl : _ = fs' := congrArg Prod.snd h
      show (fs.put _ _) _ = _
      simp only [H5Files.put]
      rw [if_neg]
      intro e
      exact absurd (Prod.mk.inj e).2 (by decide +kernel)

/-- a configuration for both platforms -/
def exModisBoth : List (String × Conf) :=
  [("rsr_dir", .leaf (.str "/out")), ("EOS-Terra-modis", .map [("path", .leaf (.str "/data"))]),
   ("EOS-Aqua-modis", .map [("path", .leaf (.str "/aqua"))])]

theorem exModisBoth_options : ∀ p ∈ ["EOS-Terra", "EOS-Aqua"],
    ModisOptions exModisBoth p (if p = "EOS-Terra" then "/data" else "/aqua") "/out" := by
  simp only [List.mem_cons, List.not_mem_nil, or_false]
  rintro p (rfl | rfl) <;> exact ⟨⟨_, rfl, rfl⟩, Or.inl rfl⟩

theorem exModisBoth_files (platform path : String) (files : String → Option (List String)) (i : Nat)
    (h : files (OsPath.join path (modisFileOf platform (i + 1))) = some exModisLines) :
    (0 : Nat) < 2 ∧ (∃ lines, files (OsPath.join path (modisFileOf platform (i + 1))) = some lines ∧
    Records exParsers lines exModisRecords) ∧ (∀ s ∈ exModisRecords, 1 ≤ s.det ∧ s.det ≤ ((2 : Nat) : Int)) ∧
    ∀ j < (2 : Nat), samplesOf exModisRecords ((j : Int) + 1) ≠ [] := by
  refine ⟨Nat.two_pos, ⟨_, h, exModis_records⟩, ?_, ?_⟩
  · intro s hs
    fin_cases hs <;> simp
  · intro j hj
    rw [exModis_samples j hj]
    simp

example (fs : H5Files XF) : ∃ argsort terra aqua, modisProgram exParsers argsort id exModisBoth (fun _ => some exModisLines) fs =
      (.ok (), (fs.put ("/out", "rsr_modis_EOS-Terra.h5") terra).put ("/out", "rsr_modis_EOS-Aqua.h5") aqua) ∧
    ModisInfo id "EOS-Aqua" (fun _ => 2) (fun _ => exModisRecords) aqua := by
  obtain ⟨argsort, ha⟩ := exists_argsort
  obtain ⟨t, a, h1, -, h2⟩ := C206_program exParsers argsort ha id exModisBoth (fun _ => some exModisLines)
    (fun p => if p = "EOS-Terra" then "/data" else "/aqua") (fun _ => "/out") (fun _ _ => 2) (fun _ _ => exModisRecords)
    (fun p hp => ⟨exModisBoth_options p hp, fun i _ => exModisBoth_files p (if p = "EOS-Terra" then "/data" else "/aqua") (fun _ => some exModisLines) i rfl⟩) fs
  exact ⟨argsort, t, a, h1, h2⟩

/-- the files of Terra without that of band 36 -/
def exModisShort : String → Option (List String) := fun p => if p = "/data/rsr.36.inb.final" then none else some exModisLines

example (fs : H5Files XF) : ∃ argsort e file, modisConvertSteps exParsers argsort id exModisBoth exModisShort "EOS-Terra" fs =
      (.error e, fs.put ("/out", "rsr_modis_EOS-Terra.h5") file) ∧ ∀ info, loadRsrInfo file ≠ .ok info := by
  obtain ⟨argsort, ha⟩ := exists_argsort
  have hf : exModisShort (OsPath.join "/data" (modisFileOf "EOS-Terra" 20)) = some exModisLines := by decide +kernel
  obtain ⟨M, h1, h2, -⟩ := C105_modis_band exParsers argsort ha exModisBoth exModisShort "EOS-Terra" "/data" "/out"
    (exModisBoth_options "EOS-Terra" (by simp)) 19 (by decide) exModisLines hf exModisRecords exModis_records (by
      intro s hs
      have := (exModisBoth_files "EOS-Terra" "/data" exModisShort 19 hf).2.2.2
      fin_cases hs
      · exact this 1 (by decide)
      · exact this 0 (by decide)
      · exact this 1 (by decide))
  obtain ⟨e, file, g1, g2⟩ := C207_missing_file_destroys exParsers argsort id exModisBoth exModisShort "EOS-Terra" "/data" "/out"
    (exModisBoth_options "EOS-Terra" (by simp)) M h1 35 (by decide) (by decide +kernel) fs
  exact ⟨argsort, e, file, h2 ▸ g1, g2⟩

example (fs : H5Files XF) (argsort : List XF → List Nat) :
    ∃ e, modisConvertSteps exParsers argsort id exModisOptions (fun _ => some exModisLines) "EOS-Aqua" fs = (.error e, fs) :=
  C207_unchanged_partial exParsers argsort id exModisOptions (fun _ => some exModisLines) "EOS-Aqua" (.inl rfl) fs

end Verif.Props
