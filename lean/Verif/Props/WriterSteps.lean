import Verif.Props.Writer
import Verif.Lemmas.WriterSteps
/-
Properties C131 and C132: conversions that fail half-way.
-/
namespace Verif.Props
open Model Spec Lemmas PyNum XF
variable {α : Type} [PyNum α]

theorem band_fills (f32 : α → α) (scale : α) (ds : Option (List String)) (b : String) (s : RawSensor α) :
    Fills (match ds with
      | some ds => multiSteps f32 b s scale ds
      | none => singleSteps f32 b s scale) b H5Band.empty (writeBandGroup f32 s scale ds) := by
  cases ds with
  | none => exact single_fills f32 b s scale
  | some ds => exact multi_fills f32 b s scale ds

theorem createBand_run (f : H5File α) (b : String) :
    createBand b f = if f.bands.contains b then (.error .valueError, f)
      else (.ok (), { f with bands := f.bands.set b H5Band.empty }) := by
  unfold createBand
  rw [st_bind_ok (st_get _)]
  split_ifs <;> rfl

/-- the loop over the bands -/
theorem channels_run (f32 : α → α) (scale : α) (ds : Option (List String)) (L : List (String × RawSensor α)) :
    ∀ (at_ : Attrs α) (groups : Dict String (H5Band α)),
    (∀ out, writeChannels f32 scale ds L groups = .ok out →
      PySt.forEach (bandSteps f32 scale ds) L ⟨at_, groups⟩ = (.ok (), ⟨at_, out⟩)) ∧
    (∀ e, writeChannels f32 scale ds L groups = .error e → ∃ out,
      PySt.forEach (bandSteps f32 scale ds) L ⟨at_, groups⟩ = (.error e, ⟨at_, out⟩) ∧
      ((L.map Prod.fst).Nodup → (∀ p ∈ L, p.1 ∉ groups.keys) →
        ∃ p ∈ L, ∃ B, out.get? p.1 = some B ∧ NoWavelength B)) := by
  induction L with
  | nil =>
    intro at_ groups
    refine ⟨fun out h => ?_, fun e h => by cases h⟩
    cases h; rfl
  | cons p L ih =>
    intro at_ groups
    obtain ⟨b, s⟩ := p
    unfold writeChannels
    rw [st_forEach_cons]
    by_cases hc : groups.contains b
    · rw [if_pos hc]
      refine ⟨(fun out h => by cases h), fun e h => ?_⟩
      cases h
      refine ⟨groups, ?_, ?_⟩
      · apply st_bind_error
        unfold bandSteps
        apply st_bind_error
        rw [createBand_run]
        simp only [hc, if_true]
      · intro _ hdis
        exfalso
        refine hdis (b, s) (by simp) ?_
        by_contra hk
        rw [← get?_eq_none_iff] at hk
        simp [Dict.contains, hk] at hc
    · rw [if_neg hc]
      have hcreate : createBand b (⟨at_, groups⟩ : H5File α) =
          (.ok (), { (⟨at_, groups⟩ : H5File α) with bands := groups.set b H5Band.empty }) := by
        rw [createBand_run]
        simp only [hc]
        rfl
      obtain ⟨f1, f2⟩ := band_fills f32 scale ds b s ⟨at_, groups⟩
      have hstep : bandSteps f32 scale ds (b, s) (⟨at_, groups⟩ : H5File α) = (match ds with
          | some ds => multiSteps f32 b s scale ds
          | none => singleSteps f32 b s scale) { (⟨at_, groups⟩ : H5File α) with bands := groups.set b H5Band.empty } :=
        st_bind_ok hcreate
      cases hw : writeBandGroup f32 s scale ds with
      | error e =>
        refine ⟨(fun out h => by cases h), fun e' h => ?_⟩
        cases h
        obtain ⟨B, hB, hr⟩ := f2 e hw
        exact ⟨groups.set b B, st_bind_error (hstep.trans hr), fun _ _ =>
          ⟨(b, s), by simp, B, get?_set_self _ _ _, hB⟩⟩
      | ok B =>
        have hr := hstep.trans (f1 B hw)
        obtain ⟨i1, i2⟩ := ih at_ (groups.set b B)
        refine ⟨fun out h => ?_, fun e h => ?_⟩
        · exact (st_bind_ok hr).trans (i1 out h)
        · obtain ⟨out, ho, hn⟩ := i2 e h
          refine ⟨out, (st_bind_ok hr).trans ho, ?_⟩
          intro hnd hdis
          rw [List.map_cons, List.nodup_cons] at hnd
          have hb : b ∉ groups.keys := hdis (b, s) (by simp)
          obtain ⟨p, hp, hp'⟩ := hn hnd.2 (by
            intro q hq
            rw [keys_set, if_neg hb]
            simp only [List.mem_append, List.mem_singleton, not_or]
            refine ⟨hdis q (by simp [hq]), ?_⟩
            intro he
            exact hnd.1 (List.mem_map.2 ⟨q, hq, he⟩))
          exact ⟨p, by simp [hp], hp'⟩

/-- The file a conversion writes: named after the first instrument object and the platform. -/
def TargetIs (ClassIn : String → String → Py (RawSensor α)) (platform : String) (names : List String) (p : Path) : Prop :=
  ∃ b rest s, names = b :: rest ∧ ClassIn b platform = .ok s ∧
    p = (s.output_dir, "rsr_" ++ withoutSlashes s.instrument ++ "_" ++ platform ++ ".h5")

/-- a file whose listed bands include one without wavelengths is not read -/
theorem not_loaded (f : H5File α) (inst platform : String) (names : List String)
    (ha : f.attrs = globalAttrs inst platform names) (b : String) (hb : b ∈ names) (B : H5Band α)
    (hB : f.bands.get? b = some B) (hn : NoWavelength B) (info : RsrInfo α) : loadRsrInfo f ≠ .ok info := by
  intro h
  obtain ⟨_, _, _, h4, _, h6⟩ := C40_loaded_data f info h
  have hnames := h4 names (globalAttrs_spec f inst platform names ha).1
  obtain ⟨R, _, n, hc, _, hd⟩ := h6 b (by rw [hnames]; exact hb)
  obtain ⟨n1, n2, n3⟩ := hn
  have hpos : 0 < n := by
    rcases hc with ⟨B', m, hB', hm, rfl⟩ | ⟨_, rfl⟩
    · rw [hB] at hB'; cases hB'
      rcases n3 with n3 | ⟨k, hk, hk0⟩
      · rw [n3] at hm; cases hm
      · rw [hk] at hm; cases hm; simpa using hk0
    · exact one_pos
  obtain ⟨r, w, c, _, ⟨vals, sv, sc, ⟨B', hB', hi⟩, _⟩, _⟩ := hd 0 hpos
  rw [hB] at hB'; cases hB'
  rcases hi with ⟨D, hD, hs⟩ | ⟨_, hs⟩
  · simp [scaledData, n2 _ _ hD] at hs
  · simp [scaledData, n1, Dict.get?] at hs

theorem removeChar_eq (s : String) : Str.removeChar '/' s = withoutSlashes s := by
  unfold Str.removeChar withoutSlashes
  refine congrArg String.ofList ?_
  apply List.filter_congr
  intro c _
  by_cases hc : c = '/' <;> simp [hc]

theorem mapM_cons_inv {β γ : Type} (g : β → Py γ) (l : List β) (x : γ) (xs : List γ) (h : l.mapM g = .ok (x :: xs)) :
    ∃ a rest, l = a :: rest ∧ g a = .ok x := by
  cases l with
  | nil => cases h
  | cons a rest =>
    refine ⟨a, rest, rfl, ?_⟩
    rw [List.mapM_cons] at h
    cases ha : g a with
    | error e => rw [ha] at h; cases h
    | ok y =>
      rw [ha] at h
      cases hr : rest.mapM g with
      | error e => rw [hr] at h; cases h
      | ok ys => rw [hr] at h; cases h; rfl

theorem mapM_ok_all {β γ : Type} (g : β → Py γ) (l : List β) (r : List γ) (h : l.mapM g = .ok r) :
    ∀ a ∈ l, ∃ y, g a = .ok y := by
  induction l generalizing r with
  | nil => simp
  | cons x l ih =>
    rw [List.mapM_cons] at h
    cases hx : g x with
    | error e => rw [hx] at h; cases h
    | ok y =>
      rw [hx] at h
      cases hl : l.mapM g with
      | error e => rw [hl] at h; cases h
      | ok ys =>
        intro a ha
        rcases List.mem_cons.1 ha with rfl | ha
        · exact ⟨y, hx⟩
        · exact ih ys hl a ha

theorem zip_keys {β γ : Type} (g : β → Py γ) (l : List β) (r : List γ) (h : l.mapM g = .ok r) :
    (l.zip r).map Prod.fst = l := by
  rw [List.map_fst_zip]
  rw [mapM_length g l r h]

/-- the run of a conversion: it stops before the file is opened, or all instrument objects are
made and the file is replaced -/
theorem convert_cases (f32 : α → α) (ClassIn : String → String → Py (RawSensor α)) (platform : String)
    (names : List String) (scale : α) (ds : Option (List String)) (fs : H5Files α) :
    (∃ e, convertSteps f32 ClassIn platform names scale ds fs = (.error e, fs) ∧
      convert2hdf5 f32 ClassIn platform names scale ds = .error e ∧
      (names = [] ∨ ∃ b ∈ names, ∃ e', ClassIn b platform = .error e')) ∨
    (∃ p out inst, TargetIs ClassIn platform names p ∧
      ((convertSteps f32 ClassIn platform names scale ds fs =
          (.ok (), fs.put p ⟨globalAttrs inst platform names, out⟩) ∧
        convert2hdf5 f32 ClassIn platform names scale ds = .ok (p, ⟨globalAttrs inst platform names, out⟩)) ∨
       (∃ e, convertSteps f32 ClassIn platform names scale ds fs =
          (.error e, fs.put p ⟨globalAttrs inst platform names, out⟩) ∧
        convert2hdf5 f32 ClassIn platform names scale ds = .error e ∧
        (names.Nodup → ∃ b ∈ names, ∃ B, out.get? b = some B ∧ NoWavelength B)))) := by
  cases hI : names.mapM (fun b => ClassIn b platform) with
  | error e =>
    refine Or.inl ⟨e, ?_, ?_, ?_⟩
    · unfold convertSteps
      exact st_bind_error (st_lift_error hI _)
    · unfold convert2hdf5; rw [hI]; rfl
    · right
      by_contra hcon
      push Not at hcon
      have : ∀ b ∈ names, ∃ s, ClassIn b platform = .ok s := by
        intro b hb
        cases hc : ClassIn b platform with
        | ok s => exact ⟨s, rfl⟩
        | error e' => exact absurd hc (hcon b hb e')
      have hx : ∃ r, names.mapM (fun b => ClassIn b platform) = .ok r := by
        clear hI hcon
        induction names with
        | nil => exact ⟨_, rfl⟩
        | cons a l ih =>
          obtain ⟨x, hx⟩ := this a (by simp)
          obtain ⟨r, hr⟩ := ih (fun b hb => this b (by simp [hb]))
          refine ⟨x :: r, ?_⟩
          rw [List.mapM_cons, hx, hr]; rfl
      obtain ⟨r, hr⟩ := hx
      rw [hI] at hr; cases hr
  | ok I =>
    cases I with
    | nil =>
      refine Or.inl ⟨.indexError, ?_, ?_, Or.inl ?_⟩
      · unfold convertSteps
        rw [st_bind_ok (st_lift_ok hI _)]; rfl
      · unfold convert2hdf5; rw [hI]; rfl
      · have := mapM_length _ _ _ hI
        simpa using this.symm
    | cons first rest =>
      right
      obtain ⟨b0, brest, hn0, hc0⟩ := mapM_cons_inv _ _ _ _ hI
      have hkeys := zip_keys _ _ _ hI
      obtain ⟨c1, c2⟩ := channels_run f32 scale ds (names.zip (first :: rest)) (globalAttrs first.instrument platform names) []
      have hT : TargetIs ClassIn platform names (first.output_dir,
          "rsr_" ++ Str.removeChar '/' first.instrument ++ "_" ++ platform ++ ".h5") :=
        ⟨b0, brest, first, hn0, hc0, by rw [removeChar_eq]⟩
      have hf : ∀ x : Py Unit × H5File α, PySt.forEach (bandSteps f32 scale ds) (names.zip (first :: rest))
          ⟨globalAttrs first.instrument platform names, []⟩ = x →
          convertSteps f32 ClassIn platform names scale ds fs = (x.1, fs.put (first.output_dir,
            "rsr_" ++ Str.removeChar '/' first.instrument ++ "_" ++ platform ++ ".h5") x.2) := by
        intro x hx
        subst hx
        unfold convertSteps
        rw [st_bind_ok (st_lift_ok hI _)]
        rfl
      cases hw : writeChannels f32 scale ds (names.zip (first :: rest)) [] with
      | ok out =>
        refine ⟨_, out, first.instrument, hT, Or.inl ⟨hf _ (c1 out hw), ?_⟩⟩
        unfold convert2hdf5
        rw [hI]
        simp only [bind, Except.bind]
        rw [hw]; rfl
      | error e =>
        obtain ⟨out, ho, hno⟩ := c2 e hw
        refine ⟨_, out, first.instrument, hT, Or.inr ⟨e, hf _ ho, ?_, ?_⟩⟩
        · unfold convert2hdf5
          rw [hI]
          simp only [bind, Except.bind]
          rw [hw]
        · intro hnd
          obtain ⟨p, hp, B, hB, hNB⟩ := hno (by rw [hkeys]; exact hnd) (by intro p _; simp [Dict.keys])
          exact ⟨p.1, by rw [← hkeys]; exact List.mem_map_of_mem hp, B, hB, hNB⟩

/-- C131: the statement-by-statement account and the description of the finished file agree: the
conversion succeeds or fails alike, and when it succeeds exactly the finished file is put at its
path. -/
theorem C131_same_result (f32 : α → α) (ClassIn : String → String → Py (RawSensor α)) (platform : String)
    (names : List String) (scale : α) (ds : Option (List String)) (fs : H5Files α) :
    (∀ p f, convert2hdf5 f32 ClassIn platform names scale ds = .ok (p, f) →
      convertSteps f32 ClassIn platform names scale ds fs = (.ok (), fs.put p f) ∧ TargetIs ClassIn platform names p) ∧
    (∀ e, convert2hdf5 f32 ClassIn platform names scale ds = .error e →
      (convertSteps f32 ClassIn platform names scale ds fs).1 = .error e) := by
  rcases convert_cases f32 ClassIn platform names scale ds fs with
    ⟨e, h1, h2, _⟩ | ⟨p, out, inst, hT, ⟨h1, h2⟩ | ⟨e, h1, h2, _⟩⟩
  · refine ⟨(fun p f h => by rw [h2] at h; cases h), fun e' h => ?_⟩
    rw [h2] at h; cases h; rw [h1]
  · refine ⟨fun p' f h => ?_, fun e' h => by rw [h2] at h; cases h⟩
    rw [h2] at h; cases h; exact ⟨h1, hT⟩
  · refine ⟨(fun p f h => by rw [h2] at h; cases h), fun e' h => ?_⟩
    rw [h2] at h; cases h; rw [h1]

/-- C131: whatever makes a conversion of distinct bands fail, and wherever, it leaves no file
behind that can be loaded: either every file is as before, or only the target is replaced, by a
file that the reader rejects. -/
theorem C131_failed_conversion_never_loads (f32 : α → α) (ClassIn : String → String → Py (RawSensor α))
    (platform : String) (names : List String) (scale : α) (ds : Option (List String)) (hnd : names.Nodup)
    (fs fs' : H5Files α) (e : PyErr)
    (h : convertSteps f32 ClassIn platform names scale ds fs = (.error e, fs')) :
    fs' = fs ∨ ∃ p f, TargetIs ClassIn platform names p ∧ fs' p = some f ∧ (∀ q, q ≠ p → fs' q = fs q) ∧
      ListsBands f names ∧ ∀ info, loadRsrInfo f ≠ .ok info := by
  rcases convert_cases f32 ClassIn platform names scale ds fs with
    ⟨e', h1, h2, _⟩ | ⟨p, out, inst, hT, ⟨h1, h2⟩ | ⟨e', h1, h2, hb⟩⟩
  · rw [h1] at h; cases h; exact Or.inl rfl
  · rw [h1] at h; cases h
  · rw [h1] at h; cases h
    obtain ⟨b, hb, B, hB, hNB⟩ := hb hnd
    refine Or.inr ⟨p, ⟨globalAttrs inst platform names, out⟩, hT, by simp [H5Files.put], ?_, ?_, ?_⟩
    · intro q hq; simp [H5Files.put, hq]
    · exact (globalAttrs_spec _ inst platform names rfl).1
    · exact not_loaded _ inst platform names rfl b hb B hB hNB

/-- a class whose band "ch2" has one more wavelength than responses -/
noncomputable def exUneven : String → String → Py (RawSensor XF) := fun b _ =>
  if b = "ch2" then .ok { exRawSensor with own :=
    [("wavelength", .arr (finL [0.5, 0.6, 0.7])), ("response", .arr (finL [1, 0.25]))] }
  else .ok exRawSensor

theorem exUneven_error : convert2hdf5 id exUneven "Metop-B" ["ch1", "ch2"] 1e-6 none = .error .indexError := by
  obtain ⟨c, _, hc⟩ := writeSingle_run (α := XF) id exRawSensor 1e-6 (finL [0.5, 0.6]) (finL [1, 0.25]) ⟨rfl, rfl, rfl⟩
  unfold convert2hdf5
  rw [show (["ch1", "ch2"].mapM fun b => exUneven b "Metop-B") = .ok [exRawSensor, { exRawSensor with own :=
    [("wavelength", .arr (finL [0.5, 0.6, 0.7])), ("response", .arr (finL [1, 0.25]))] }] from rfl]
  simp only [bind, Except.bind, List.zip_cons_cons, List.zip_nil_right]
  unfold writeChannels
  rw [if_neg (by simp [Dict.contains, Dict.get?]), show writeBandGroup id exRawSensor (1e-6 : XF) none = _ from hc]
  simp only [bind, Except.bind]
  rfl

/-- the uneven band stops the conversion with IndexError -/
theorem exUneven_fails (fs : H5Files XF) : ∃ fs', convertSteps id exUneven "Metop-B" ["ch1", "ch2"] 1e-6 none fs =
    (.error .indexError, fs') := by
  have := (C131_same_result id exUneven "Metop-B" ["ch1", "ch2"] 1e-6 none fs).2 _ exUneven_error
  exact ⟨_, Prod.ext this rfl⟩

example (fs : H5Files XF) : ∃ fs', convertSteps id exUneven "Metop-B" ["ch1", "ch2"] 1e-6 none fs =
    (.error .indexError, fs') ∧ (fs' = fs ∨ ∃ p f, TargetIs exUneven "Metop-B" ["ch1", "ch2"] p ∧ fs' p = some f ∧
      (∀ q, q ≠ p → fs' q = fs q) ∧ ListsBands f ["ch1", "ch2"] ∧ ∀ info, loadRsrInfo f ≠ .ok info) := by
  obtain ⟨fs', h⟩ := exUneven_fails fs
  exact ⟨fs', h, C131_failed_conversion_never_loads id exUneven "Metop-B" ["ch1", "ch2"] 1e-6 none (by simp) fs fs' _ h⟩

example (fs : H5Files XF) : ∃ p f, convertSteps id exClass "Metop-B" ["ch1", "ch2"] 1e-6 none fs = (.ok (), fs.put p f) := by
  obtain ⟨p, f, _, h, _⟩ := C50_wavelengths_are_responses (α := XF) id exClass "Metop-B" ["ch1", "ch2"] 1e-6
    (by simp) (by simp) (fun _ => exRawSensor)
    (fun _ _ => rfl) (fun _ => finL [0.5, 0.6]) (fun _ => finL [1, 0.25]) (fun _ _ => ⟨rfl, rfl, rfl⟩)
  exact ⟨p, f, ((C131_same_result _ _ _ _ _ _ fs).1 p f h).1⟩

/-! ### C132 -/

/-- C132, the part that holds: when the original data of some band cannot be read, every file is
left as it was; and in no case is a file other than the target touched.  What is missing: the
target itself, when writing fails after all data were read. -/
theorem C132_kept_partial (f32 : α → α) (ClassIn : String → String → Py (RawSensor α))
    (platform : String) (names : List String) (scale : α) (ds : Option (List String)) (fs : H5Files α) :
    ((∃ b ∈ names, ∃ e, ClassIn b platform = .error e) →
      (convertSteps f32 ClassIn platform names scale ds fs).2 = fs) ∧
    (∀ q, ¬ TargetIs ClassIn platform names q → (convertSteps f32 ClassIn platform names scale ds fs).2 q = fs q) := by
  constructor
  · rintro ⟨b, hb, e, he⟩
    have : ∃ e', names.mapM (fun b => ClassIn b platform) = .error e' := by
      cases hI : names.mapM (fun b => ClassIn b platform) with
      | error e' => exact ⟨e', rfl⟩
      | ok r =>
        exfalso
        obtain ⟨y, hy⟩ := mapM_ok_all _ _ _ hI b hb
        rw [he] at hy; cases hy
    obtain ⟨e', he'⟩ := this
    unfold convertSteps
    rw [st_bind_error (st_lift_error he' _)]
  · intro q hq
    rcases convert_cases f32 ClassIn platform names scale ds fs with
      ⟨e', h1, h2, _⟩ | ⟨p, out, inst, hT, ⟨h1, h2⟩ | ⟨e', h1, h2, hb⟩⟩
    · rw [h1]
    all_goals
      rw [h1]
      have : q ≠ p := fun h => hq (h ▸ hT)
      simp [H5Files.put, this]

/-- C132 is false of the code: if all original data can be read and writing fails, the target
never holds a file that loads afterwards, whatever was there before. -/
theorem C132_old_file_lost (f32 : α → α) (ClassIn : String → String → Py (RawSensor α))
    (platform : String) (names : List String) (scale : α) (ds : Option (List String)) (hnd : names.Nodup) (hne : names ≠ [])
    (hr : ∀ b ∈ names, ∃ s, ClassIn b platform = .ok s)
    (fs fs' : H5Files α) (e : PyErr)
    (h : convertSteps f32 ClassIn platform names scale ds fs = (.error e, fs')) :
    ∃ p f, TargetIs ClassIn platform names p ∧ fs' p = some f ∧ ∀ info, loadRsrInfo f ≠ .ok info := by
  rcases convert_cases f32 ClassIn platform names scale ds fs with
    ⟨e', h1, h2, h3⟩ | ⟨p, out, inst, hT, ⟨h1, h2⟩ | ⟨e', h1, h2, hb⟩⟩
  · exfalso
    rcases h3 with h3 | ⟨b, hb, e, he⟩
    · exact hne h3
    · obtain ⟨s, hs⟩ := hr b hb
      rw [hs] at he; cases he
  · rw [h1] at h; cases h
  · rw [h1] at h; cases h
    obtain ⟨b, hb, B, hB, hNB⟩ := hb hnd
    refine ⟨p, ⟨globalAttrs inst platform names, out⟩, hT, by simp [H5Files.put], ?_⟩
    exact not_loaded _ inst platform names rfl b hb B hB hNB

/-- C132 is false of the code, concretely: a good file made by one conversion is destroyed by a
later one of the same instrument whose second band has uneven data. -/
theorem C132_false : ∃ (fs : H5Files XF) (p : Path) (f f' : H5File XF) (info : RsrInfo XF) (fs' : H5Files XF),
    fs p = some f ∧ loadRsrInfo f = .ok info ∧
    convertSteps id exUneven "Metop-B" ["ch1", "ch2"] 1e-6 none fs = (.error .indexError, fs') ∧
    fs' p = some f' ∧ ∀ info', loadRsrInfo f' ≠ .ok info' := by
  obtain ⟨p, f, info, h, hl, _⟩ := C50_wavelengths_are_responses (α := XF) id exClass "Metop-B" ["ch1", "ch2"] 1e-6
    (by simp) (by simp) (fun _ => exRawSensor)
    (fun _ _ => rfl) (fun _ => finL [0.5, 0.6]) (fun _ => finL [1, 0.25]) (fun _ _ => ⟨rfl, rfl, rfl⟩)
  obtain ⟨_, b, rest, s, hn, hs, hp⟩ := (C131_same_result id exClass "Metop-B" ["ch1", "ch2"] 1e-6 none (fun _ => none)).1 p f h
  obtain ⟨fs', hf⟩ := exUneven_fails (H5Files.put (fun _ => none) p f)
  obtain ⟨p', f', ⟨b', rest', s', hn', hs', hp'⟩, hf', hno⟩ := C132_old_file_lost id exUneven "Metop-B" ["ch1", "ch2"] 1e-6
    none (by simp) (by simp) (by
      intro b _
      unfold exUneven
      split_ifs <;> exact ⟨_, rfl⟩) _ fs' _ hf
  have hpp : p' = p := by
    cases hn; cases hn'; cases hs; cases hs'
    rw [hp, hp']
  rw [hpp] at hf'
  exact ⟨_, p, f, f', info, fs', by simp [H5Files.put], hl, hf, hf', hno⟩

example (fs : H5Files XF) : (convertSteps id (fun b p => if b = "ch2" then .error .ioError else exClass b p)
    "Metop-B" ["ch1", "ch2"] 1e-6 none fs).2 = fs :=
  (C132_kept_partial id _ "Metop-B" ["ch1", "ch2"] 1e-6 none fs).1 ⟨"ch2", by simp, .ioError, rfl⟩

/-- the failing conversion of the examples -/
example (fs : H5Files XF) : ∃ fs' p f, convertSteps id exUneven "Metop-B" ["ch1", "ch2"] 1e-6 none fs =
    (.error .indexError, fs') ∧ fs' p = some f ∧ ∀ info, loadRsrInfo f ≠ .ok info := by
  obtain ⟨fs', h⟩ := exUneven_fails fs
  obtain ⟨p, f, -, h1, h2⟩ := C132_old_file_lost id exUneven "Metop-B" ["ch1", "ch2"] 1e-6 none (by simp) (by simp)
    (fun b _ => by unfold exUneven; split <;> exact ⟨_, rfl⟩) fs fs' _ h
  exact ⟨fs', p, f, h, h1, h2⟩

end Verif.Props
