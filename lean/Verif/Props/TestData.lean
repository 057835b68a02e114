import Verif.Props.Testing
import Verif.Lemmas.TextForm
/-
C92, C100: fake responses.  C99: fake Rayleigh tables.
-/
namespace Verif.Props
open Verif Verif.Model Verif.Lemmas PyNum
variable {α : Type} [PyNum α] {β : Type}

/-! ### File names -/

theorem splitL_plain (c : Char) : ∀ xs : List Char, c ∉ xs → Str.splitL c xs = [xs]
  | [], _ => rfl
  | x :: xs, h => by
    simp only [List.mem_cons, not_or] at h
    rw [Str.splitL, if_neg (fun e => h.1 e.symm), splitL_plain c xs h.2]

theorem splitL_append (c : Char) (ys : List Char) : ∀ xs : List Char, c ∉ xs →
    Str.splitL c (xs ++ c :: ys) = xs :: Str.splitL c ys
  | [], _ => by rw [List.nil_append, Str.splitL, if_pos rfl]
  | x :: xs, h => by
    simp only [List.mem_cons, not_or] at h
    rw [List.cons_append, Str.splitL, if_neg (fun e => h.1 e.symm), splitL_append c ys xs h.2]

theorem stem_h5 (x : String) (hx : x ≠ "") : stem (x ++ ".h5") = x := by
  unfold stem
  have hr : (x ++ ".h5").toList.reverse = ['5', 'h', '.'] ++ x.toList.reverse := by
    rw [String.toList_append, List.reverse_append]; rfl
  have hne : x.toList ≠ [] := by
    intro h
    apply hx
    rw [← String.toList_inj, h]
    rfl
  simp only [hr]
  simp [hne]

/-- the instrument as the fake file names it -/
def shownInstrument (c : String) : String :=
  match c.toList.getLast? with
  | some x => if Str.startsWith c "avhrr" then "avhrr/" ++ String.singleton x else c
  | none => c

theorem fakeNames_file (p c : String) (hc : '_' ∉ c.toList) (hp : '_' ∉ p.toList) :
    fakeNames (getRsrFilename p c) = .ok (shownInstrument c, p) := by
  have h1 : stem (getRsrFilename p c) = "rsr_" ++ c ++ "_" ++ p := by
    unfold getRsrFilename
    apply stem_h5
    intro h
    have := congrArg String.toList h
    simp at this
  have h2 : Str.split '_' ("rsr_" ++ c ++ "_" ++ p) = ["rsr", c, p] := by
    unfold Str.split
    have : ("rsr_" ++ c ++ "_" ++ p).toList = ['r', 's', 'r'] ++ '_' :: (c.toList ++ '_' :: p.toList) := by
      simp [String.toList_append]
    rw [this, splitL_append _ _ _ (by decide), splitL_append _ _ _ hc, splitL_plain _ _ hp]
    simp
  unfold fakeNames
  rw [h1, h2]
  have i1 : NP.pyIndex ["rsr", c, p] 1 = .ok c := rfl
  have i2 : NP.pyIndex ["rsr", c, p] 2 = .ok p := rfl
  simp only [i1, i2, bind, Except.bind, pure, Except.pure]
  unfold shownInstrument lastChar
  by_cases h : Str.startsWith c "avhrr" = true
  · cases hl : c.toList.getLast? with
    | none =>
      rw [List.getLast?_eq_none_iff] at hl
      unfold Str.startsWith at h
      rw [hl] at h
      exact absurd h (by decide)
    | some x => simp [h, Functor.map, Except.map]
  · cases hl : c.toList.getLast? <;> simp [h]

/-! ### C92, C100 -/

/-- the band table of an instrument: its own, else the generic one -/
def TableOf (i : String) (T : Dict String String) : Prop :=
  BANDNAMES.get? (Str.replaceChar '/' '-' (Str.lower i)) = some T ∨
  (BANDNAMES.get? (Str.replaceChar '/' '-' (Str.lower i)) = none ∧ BANDNAMES.get? "generic" = some T)

theorem tableOf_iff (i : String) (T : Dict String String) : TableOf i T ↔ T = bandNameMap i := by
  unfold TableOf bandNameMap
  rw [show BANDNAMES.get? "generic" = some bn_generic from rfl]
  cases BANDNAMES.get? (Str.replaceChar '/' '-' (Str.lower i)) with
  | none => simp [eq_comm]
  | some t => simp [eq_comm]

/-- the standard name of a band for an alias table -/
def standardName (T : Dict String String) (k : String) : String := (T.get? k).getD k

/-- the central wavelength asked for a standard band: the last one given under any of its names -/
def requestedWavelength (T : Dict String String) (cw : Dict String α) (b : String) : Option α :=
  ((cw.filter fun p => standardName T p.1 = b).getLast?).map Prod.snd

theorem foldl_central (T : Dict String String) (b : String) : ∀ (cw m : Dict String α),
    (cw.foldl (fun m p => m.set ((T.get? p.1).getD p.1) p.2) m).get? b =
      (requestedWavelength T cw b).or (m.get? b) := by
  intro cw
  induction cw using List.reverseRecOn with
  | nil => intro m; rfl
  | append_singleton cw p ih =>
    intro m
    rw [List.foldl_append, List.foldl_cons, List.foldl_nil]
    unfold requestedWavelength at ih ⊢
    rw [List.filter_append]
    by_cases h : standardName T p.1 = b
    · have e : ((T.get? p.1).getD p.1) = b := h
      rw [e, get?_set_self]
      simp [h]
    · have e : b ≠ ((T.get? p.1).getD p.1) := fun e => h e.symm
      rw [get?_set_ne _ _ e, ih m]
      simp [h]

/-- every given name is a name of a band in the table -/
def KnownNames (T : Dict String String) (cw : Dict String α) : Prop :=
  ∀ k ∈ cw.map Prod.fst, k ∈ T.map Prod.fst ∨ k ∈ T.map Prod.snd

theorem tables_alias : ∀ P ∈ BANDNAMES, ∀ Q ∈ BANDNAMES, ∀ e ∈ P.2, ∀ std, Q.2.get? e.2 = some std →
    std = e.2 ∨ std ∉ P.2.map Prod.snd := by
  have : (BANDNAMES.all fun P => BANDNAMES.all fun Q => P.2.all fun e =>
      match Q.2.get? e.2 with
      | none => true
      | some std => std = e.2 || !((P.2.map Prod.snd).contains std)) = true := by decide +kernel
  intro P hP Q hQ e he std hs
  have h := List.all_eq_true.1 (List.all_eq_true.1 (List.all_eq_true.1 this P hP) Q hQ) e he
  rw [hs] at h
  simpa using h

theorem generic_mem : ("generic", bn_generic) ∈ BANDNAMES := by
  unfold BANDNAMES
  exact List.mem_cons_self

/-- a look-up under another name finds nothing -/
def AliasMiss (central : Dict String α) (b : String) (t : Dict String String) : Prop :=
  ∀ std, t.get? b = some std → central.getItem std = .error .keyError

omit [PyNum α] in
theorem rsrDictGet_miss (i : String) (central : Dict String α) (b : String) (default : Option α)
    (h : central.get? b = none) (hall : ∀ n t, (n, t) ∈ BANDNAMES → AliasMiss central b t) :
    rsrDictGet (.str i) central b default = .ok default := by
  have hgen := hall _ _ generic_mem
  have : rsrDictGetItem (.str i) central b = .error .keyError := by
    unfold rsrDictGetItem
    generalize bn_generic = g at hgen
    rw [h]
    simp only [bind, Except.bind, pure, Except.pure]
    have hg' : (match g.get? b with
        | some std => central.getItem std
        | none => .error .keyError) = .error .keyError := by
      cases hg : Dict.get? g b with
      | none => rfl
      | some std => exact hgen std hg
    cases ho : (Dict.get? BANDNAMES i) with
    | none => exact hg'
    | some t =>
      simp only [Option.bind_some]
      cases hq : Dict.get? t b with
      | some std => exact hall i t (get?_eq_some_mem ho) std hq
      | none => exact hg'
  unfold rsrDictGet
  rw [this]

theorem table_mem (i : String) : ∃ n, (n, bandNameMap i) ∈ BANDNAMES := by
  unfold bandNameMap
  cases h : BANDNAMES.get? (Str.replaceChar '/' '-' (Str.lower i)) with
  | none => exact ⟨"generic", generic_mem⟩
  | some t => exact ⟨_, get?_eq_some_mem h⟩

attribute [local irreducible] Verif.Model.bandNameMap

omit [PyNum α] in
theorem requested_known (T : Dict String String) (cw : Dict String α) (hk : KnownNames T cw) (b : String)
    (h : requestedWavelength T cw b ≠ none) : b ∈ T.map Prod.snd := by
  unfold requestedWavelength at h
  cases hl : (cw.filter fun p => standardName T p.1 = b).getLast? with
  | none => rw [hl] at h; exact absurd rfl h
  | some p =>
    have hp := List.mem_of_getLast? hl
    rw [List.mem_filter] at hp
    have hb : standardName T p.1 = b := by simpa using hp.2
    rw [← hb]
    unfold standardName
    cases ht : T.get? p.1 with
    | some std => exact List.mem_map_of_mem (f := Prod.snd) (get?_eq_some_mem ht)
    | none =>
      rcases hk p.1 (List.mem_map_of_mem hp.1) with h | h
      · exact absurd h (get?_eq_none_iff.1 ht)
      · exact h

omit [PyNum α] in
theorem getItem_none {d : Dict String α} {k : String} (h : d.get? k = none) : d.getItem k = .error .keyError :=
  getItem_err_iff.2 ⟨rfl, h⟩

theorem centralMap_get (T : Dict String String) (cw : Dict String α) (x : String) :
    (centralMap T cw).get? x = requestedWavelength T cw x := by
  unfold centralMap
  rw [foldl_central]
  simp [Dict.get?]

theorem central_get (i : String) (cw : Dict String α) (hk : KnownNames (bandNameMap i) cw) (b : String) (default : Option α)
    (hb : b ∈ (bandNameMap i).map Prod.snd) :
    rsrDictGet (.str i) (centralMap (bandNameMap i) cw) b default =
      .ok ((requestedWavelength (bandNameMap i) cw b).or default) := by
  obtain ⟨n, hn⟩ := table_mem i
  generalize bandNameMap i = T at *
  cases hr : requestedWavelength T cw b with
  | some c =>
    unfold rsrDictGet rsrDictGetItem
    rw [centralMap_get, hr]
    rfl
  | none =>
    refine rsrDictGet_miss i _ b default (by rw [centralMap_get, hr]) ?_
    intro m t ht std hs
    obtain ⟨e, he, rfl⟩ := List.mem_map.1 hb
    apply getItem_none
    rw [centralMap_get]
    rcases tables_alias _ hn _ ht e he std hs with rfl | h
    · exact hr
    · by_contra hne
      exact h (requested_known _ cw hk std hne)

omit [PyNum α] in
theorem rsrDictGet_str (i : String) (d : Dict String α) (b : String) (default : Option α) :
    ∃ r, rsrDictGet (.str i) d b default = .ok r := by
  have hg : ∀ k, (∃ v, d.getItem k = .ok v) ∨ d.getItem k = .error .keyError := by
    intro k
    cases h : d.get? k with
    | none => exact .inr (getItem_none h)
    | some v => exact .inl ⟨v, getItem_ok_iff.2 h⟩
  have hitem : (∃ v, rsrDictGetItem (.str i) d b = .ok v) ∨ rsrDictGetItem (.str i) d b = .error .keyError := by
    unfold rsrDictGetItem
    cases d.get? b with
    | some v => exact .inl ⟨v, rfl⟩
    | none =>
      simp only [bind, Except.bind, pure, Except.pure]
      generalize (Dict.get? BANDNAMES i).bind (Dict.get? · b) = o
      generalize Dict.get? bn_generic b = g
      cases o with
      | some std => exact hg std
      | none =>
        cases g with
        | some std => exact hg std
        | none => exact .inr rfl
  unfold rsrDictGet
  rcases hitem with ⟨v, h⟩ | h <;> rw [h] <;> exact ⟨_, rfl⟩

/-- the loop that makes the bands -/
theorem fold_bands (i : String) (cm : Dict String α) : ∀ (l : List String) (out : Rsr α),
    ∃ r, l.foldlM (fun (out : Rsr α) band_name => do
        let c ← rsrDictGet (.str i) cm band_name (some 0.46)
        return out.set band_name (fakeBand (c.getD 0.46))) out = (.ok r : Py (Rsr α)) ∧
      ∀ b, (b ∉ l → r.get? b = out.get? b) ∧
        (b ∈ l → ∃ c, rsrDictGet (.str i) cm b (some 0.46) = .ok c ∧ r.get? b = some (fakeBand (c.getD 0.46)))
  | [], out => ⟨out, rfl, fun b => ⟨fun _ => rfl, fun h => by cases h⟩⟩
  | a :: l, out => by
    obtain ⟨c, hc⟩ := rsrDictGet_str i cm a (some 0.46)
    obtain ⟨r, hr, hb⟩ := fold_bands i cm l (out.set a (fakeBand (c.getD 0.46)))
    refine ⟨r, ?_, fun b => ⟨?_, ?_⟩⟩
    · rw [List.foldlM_cons, hc]
      exact hr
    · intro h
      simp only [List.mem_cons, not_or] at h
      rw [(hb b).1 h.2, get?_set_ne _ _ h.1]
    · intro h
      by_cases hl : b ∈ l
      · exact (hb b).2 hl
      · rcases List.mem_cons.1 h with rfl | h
        · exact ⟨c, hc, by rw [(hb b).1 hl, get?_set_self]⟩
        · exact absurd h hl

/-- the data of a fake band with this central wavelength: one detector, 1000 samples from 0.02 below to 0.02
above, the response from 0.0009 to 1 -/
def IsFakeBand (c : α) (b : BandRsr α) : Prop :=
  ∃ d, b = [("det-1", d)] ∧ d.get? "central_wavelength" = some (.num c) ∧
    d.get? "wavelength" = some (.arr ((NP.linspace (-0.02) 0.02 1000).map (· + c))) ∧
    d.get? "response" = some (.arr (NP.linspace 0.0009 1.0 1000))

theorem fakeBand_is (c : α) : IsFakeBand c (fakeBand c) := ⟨_, rfl, rfl, rfl, rfl⟩

/-- what the fake gives for a file -/
theorem fakeRsrInfo_run (cw : Dict String α) (d name i p : String) (hn : fakeNames name = .ok (i, p)) :
    ∃ info, fakeRsrInfo cw (d, name) = .ok info ∧ info.platform_name = some p ∧ info.instrument = .str i ∧
      info.band_names = (bandNameMap i).map Prod.snd ∧
      (∀ b, (info.rsr.get? b).isSome ↔ b ∈ (bandNameMap i).map Prod.snd) ∧
      (KnownNames (bandNameMap i) cw → ∀ b ∈ (bandNameMap i).map Prod.snd, ∃ r, info.rsr.get? b = some r ∧
        IsFakeBand ((requestedWavelength (bandNameMap i) cw b).getD 0.46) r) := by
  obtain ⟨r, hr, hb⟩ := fold_bands i (centralMap (bandNameMap i) cw) ((bandNameMap i).map Prod.snd) []
  refine ⟨⟨some p, .str i, (bandNameMap i).map Prod.snd, "Relative Response for " ++ i, r⟩, ?_, by dsimp only, by dsimp only, by dsimp only, ?_, ?_⟩
  · unfold fakeRsrInfo
    have hr' : fakeBands i (centralMap (bandNameMap i) cw) ((bandNameMap i).map Prod.snd) = .ok r := hr
    rw [hn]
    simp only [bind, Except.bind, pure, Except.pure, hr']
  · intro b
    dsimp only
    by_cases h : b ∈ (bandNameMap i).map Prod.snd
    · obtain ⟨c, _, hc⟩ := (hb b).2 h
      rw [hc]
      simp only [Option.isSome_some, true_iff]
      exact h
    · rw [(hb b).1 h]
      exact ⟨fun h' => absurd h' (by simp [Dict.get?]), fun h' => absurd h' h⟩
  · intro hk b h
    obtain ⟨c, h1, h2⟩ := (hb b).2 h
    rw [central_get i cw hk b _ h] at h1
    cases h1
    refine ⟨_, h2, ?_⟩
    have : ((requestedWavelength (bandNameMap i) cw b).or (some (0.46 : α))).getD 0.46 =
        (requestedWavelength (bandNameMap i) cw b).getD 0.46 := by
      cases requestedWavelength (bandNameMap i) cw b <;> rfl
    rw [this]
    exact fakeBand_is _

/-- C92: the fake data for the file of a reader carry its platform name and exactly the standard band names of
its instrument, for names without underscore. -/
theorem C92_fake_file_partial (cw : Dict String α) (d p c : String) (hc : '_' ∉ c.toList) (hp : '_' ∉ p.toList)
    (T : Dict String String) (hT : TableOf (shownInstrument c) T) :
    ∃ info, fakeRsrInfo cw (d, getRsrFilename p c) = .ok info ∧ info.platform_name = some p ∧
      info.instrument = .str (shownInstrument c) ∧ info.band_names = T.map Prod.snd ∧
      ∀ b, (info.rsr.get? b).isSome ↔ b ∈ T.map Prod.snd := by
  obtain ⟨info, h1, h2, h3, h4, h5, -⟩ := fakeRsrInfo_run cw d _ _ _ (fakeNames_file p c hc hp)
  rw [tableOf_iff] at hT
  subst hT
  exact ⟨info, h1, h2, h3, h4, h5⟩

/-- C92 is false for Landsat: the fake data for its file carry the platform name "tirs". -/
theorem C92_fails (cw : Dict String α) (d : String) : ∃ info : RsrInfo α,
    checkAndAdjustInstrumentName "Landsat-8" "oli_tirs" = .ok "oli_tirs" ∧
    fakeRsrInfo cw (d, getRsrFilename "Landsat-8" "oli_tirs") = .ok info ∧
    info.platform_name = some "tirs" ∧ info.instrument = .str "oli" := by
  have hn : fakeNames (getRsrFilename "Landsat-8" "oli_tirs") = .ok ("oli", "tirs") := by decide +kernel
  obtain ⟨info, h1, h2, h3, -⟩ := fakeRsrInfo_run cw d _ _ _ hn
  exact ⟨info, by decide +kernel, h1, h2, h3⟩

/-- C92: of all known platforms and their instruments, only Landsat has an underscore in its names. -/
theorem C92_known : ∀ P ∈ INSTRUMENTS, P.1 ∉ ["Landsat-8", "Landsat-9"] → ∀ i ∈ platformInstruments P.1,
    '_' ∉ P.1.toList ∧ ∃ c, checkAndAdjustInstrumentName P.1 i = .ok c ∧ '_' ∉ c.toList := by
  have : (INSTRUMENTS.all fun P => ["Landsat-8", "Landsat-9"].contains P.1 || (platformInstruments P.1).all fun i =>
      !P.1.toList.contains '_' && match checkAndAdjustInstrumentName P.1 i with
        | .ok c => !c.toList.contains '_'
        | .error _ => false) = true := by decide +kernel
  intro P hP hL i hi
  have h := List.all_eq_true.1 this P hP
  rw [Bool.or_eq_true] at h
  rcases h with h | h
  · exact absurd (by simpa using h) hL
  · have h := List.all_eq_true.1 h i hi
    rw [Bool.and_eq_true] at h
    refine ⟨by simpa using h.1, ?_⟩
    cases hc : checkAndAdjustInstrumentName P.1 i with
    | error e => rw [hc] at h; exact absurd h.2 (by simp)
    | ok c =>
      rw [hc] at h
      exact ⟨c, rfl, by simpa using h.2⟩

/-! ### Inside the blocks -/

/-- whatever result `body` gives in every state with these options and this loader -/
def Gives (te : TestEnv α) (options : List (String × Conf)) (load : Option (Path → Py (RsrInfo α))) (m : Test α β)
    (Q : Py β → Prop) : Prop :=
  ∀ s, InForce te options s → (∀ l, load = some l → s.loader = some l) → Q (m s).1

theorem gives_mockRsrFiles {te : TestEnv α} {options : List (String × Conf)} {load : Option (Path → Py (RsrInfo α))}
    {m : Test α β} {Q : Py β → Prop} (d : String) (v : Option String) (cw : Dict String α)
    (h : Gives te options (some (fakeRsrInfo cw)) m Q) : Gives te options load (mockRsrFiles d v cw m) Q := by
  intro s hs _
  have key : ∀ s, InForce te options s → Q (withLoader (fakeRsrInfo cw) m s).1 := by
    intro s hs
    exact h { s with loader := some (fakeRsrInfo cw) } hs (fun l hl => hl)
  unfold mockRsrFiles
  cases v with
  | none => exact key s hs
  | some v =>
    have h1 : mkdir d s = (.ok (), (mkdir d s).2) := rfl
    have hdir : (mkdir d s).2.world.dirs d = true := by
      show (if d = d then true else _) = true
      rw [if_pos rfl]
    have h2 : writeFile (d, RSR_DATA_VERSION_FILENAME) v.toList (mkdir d s).2 =
        (.ok (), { (mkdir d s).2 with world := (mkdir d s).2.world.setFile (d, RSR_DATA_VERSION_FILENAME) (some v.toList) }) := by
      unfold writeFile
      rw [if_pos hdir]
    have hcalm : Calm (do mkdir d; writeFile (d, RSR_DATA_VERSION_FILENAME) v.toList : Test α Unit) :=
      calm_bind (calm_mkdir d) fun _ => calm_writeFile _ _ (by show RSR_DATA_VERSION_FILENAME ≠ _; decide +kernel)
    have hc := hcalm s
    have hrun : (do mkdir d; writeFile (d, RSR_DATA_VERSION_FILENAME) v.toList : Test α Unit) s = _ :=
      (st_bind_ok h1).trans h2
    rw [hrun] at hc
    have := key _ (show InForce te options _ from by
      obtain ⟨x, h0, h3, h4⟩ := hs
      exact ⟨x, h0, hc.psp.trans h3, (hc.yaml x).trans h4⟩)
    show Q (((do mkdir d; writeFile (d, RSR_DATA_VERSION_FILENAME) v.toList : Test α Unit) >>= fun _ =>
      withLoader (fakeRsrInfo cw) m) s).1
    rw [st_bind_ok hrun]
    exact this

omit [PyNum α] in
theorem override_gives (te : TestEnv α) (hfresh : ∀ w, PlainDir (te.fresh w)) (options : List (String × Conf))
    (body : String → Test α β) (Q : Py β → Prop) (hb : ∀ p, Harmless te options (body p))
    (hq : ∀ p, Gives te options none (body p) Q) (s : TestState α) :
    Q (overrideConfig te (some options) none body s).1 := by
  have hin := started_inForce te (some options) s (hfresh _)
  have h := hb (te.fresh s.world ++ "/pyspectral.yaml") _ hin
  have h' := hq (te.fresh s.world ++ "/pyspectral.yaml") _ hin (fun l hl => by cases hl)
  rcases hr : body (te.fresh s.world ++ "/pyspectral.yaml") (started te (some options) s) with ⟨r, s'⟩
  rw [hr] at h h'
  have hp : s'.psp ≠ none := by
    rw [show s'.psp = _ from h.2]
    simp [started]
  rw [override_run te (some options) body s (hfresh _) r s' hr hp]
  exact h'

omit [PyNum α] in
theorem dirOrTemp_gives (te : TestEnv α) (d : Option String) (body : String → Test α β) (Q : Py β → Prop)
    (hb : ∀ d s, Q (body d s).1) (s : TestState α) : Q (withDirOrTemp te d body s).1 := by
  cases d with
  | some d => exact hb d s
  | none => exact hb _ _

/-- options with downloads switched off -/
structure Off (te : TestEnv α) (options : List (String × Conf)) : Prop where
  yaml : RoundTrip te options
  dirs : StringDirs options
  off : Dict.get? options "download_from_internet" = some (.leaf (.bool false))

/-- any uses, then a reader by names -/
def usesThenReader (te : TestEnv α) (us : List Use) (p i : String) : Test α (Reader α) := do
  useAll te us
  newReader te (some p) (some i) none

theorem useAll_ok (te : TestEnv α) : ∀ (us : List Use) (s : TestState α), useAll te us s = (.ok (), (useAll te us s).2)
  | [], _ => rfl
  | u :: us, s => by
    have hok : u.run te s = (.ok (), (u.run te s).2) := by cases u <;> rfl
    have e : useAll te (u :: us) s = useAll te us (u.run te s).2 := by
      show PySt.bind (u.run te) (fun _ => useAll te us) s = _
      unfold PySt.bind
      rw [hok]
    rw [e]
    exact useAll_ok te us _

theorem inForce_onlyDirs {te : TestEnv α} {options : List (String × Conf)} {s s' : TestState α}
    (hf : InForce te options s) (h : OnlyDirs s s') : InForce te options s' := by
  obtain ⟨d, h0, h2, h3⟩ := hf
  exact ⟨d, h0, h.psp.trans h2, by rw [h.files]; exact h3⟩

theorem usesThenReader_harmless (te : TestEnv α) (options : List (String × Conf)) (ho : Off te options) (us : List Use)
    (p i : String) : Harmless te options (usesThenReader te us p i) := by
  intro s hf
  have h1 := useAll_onlyDirs te options ho.yaml ho.dirs ho.off us s hf
  have h2 := use_onlyDirs te options _ (inForce_onlyDirs hf h1) ho.yaml ho.dirs ho.off (.reader (some p) (some i) none)
  have e : (usesThenReader te us p i s).2 = ((Use.reader (some p) (some i) none).run te (useAll te us s).2).2 := by
    unfold usesThenReader
    rw [st_bind_ok (useAll_ok te us s)]
    rfl
  rw [e]
  exact ⟨h2.requests.trans h1.requests, h2.psp.trans h1.psp⟩

/-- the reader made in a block -/
theorem reader_gives (te : TestEnv α) (options : List (String × Conf)) (ho : Off te options) (us : List Use)
    (p i c : String) (hc : checkAndAdjustInstrumentName p i = .ok c) (load : Path → Py (RsrInfo α)) (info : RsrInfo α)
    (hl : ∀ d, load (d, getRsrFilename p c) = .ok info) :
    Gives te options (some load) (usesThenReader te us p i)
      (fun r => ∃ d, r = .ok (readerOf (d, getRsrFilename p c) (some p) (some c) info)) := by
  intro s hf hload
  have h1 := useAll_onlyDirs te options ho.yaml ho.dirs ho.off us s hf
  have hf' := inForce_onlyDirs hf h1
  obtain ⟨⟨rsr, hr⟩, ⟨ray, hray⟩⟩ := stringDirs_option te.conf ho.dirs
  unfold usesThenReader
  rw [st_bind_ok (useAll_ok te us s)]
  have e : newReader te (some p) (some i) none (useAll te us s).2 =
      useConfig te (fun env => readerWith load env (some p) (some i) none) (useAll te us s).2 := by
    unfold newReader
    rw [h1.loader, hload load rfl]
  rw [e]
  obtain ⟨env, henv, -, hrun⟩ := useConfig_run te options _ hf' ho.yaml ho.off rsr ray hr hray
    (fun env => readerWith load env (some p) (some i) none)
  rw [hrun]
  obtain ⟨b, hb⟩ := quiet_updates_off env (configured env (withDir ray (withDir rsr (useAll te us s).2.world)))
    (Or.inr (by rw [henv]))
  refine ⟨env.cfg.rsr_dir, ?_⟩
  have hsan : sanitizeInputs env.cfg.rsr_dir none (some p) (some i) =
      .ok ((env.cfg.rsr_dir, getRsrFilename p c), some p, some c) := by
    unfold sanitizeInputs
    dsimp only
    rw [hc]
    rfl
  unfold readerWith
  rw [eff_bind_ok (getConfig_run env _), eff_bind_ok (eff_lift_ok hsan _)]
  simp only [Option.isNone_none, if_true]
  rw [eff_bind_ok hb, eff_bind_ok (eff_lift_ok (hl _) _)]
  rfl

theorem splitL_ne (c : Char) : ∀ xs : List Char, Str.splitL c xs ≠ []
  | [] => by simp [Str.splitL]
  | x :: xs => by
    rw [Str.splitL]
    split
    · simp
    · split <;> simp

/-- up to the first underscore -/
def firstPart (c : String) : String := String.ofList (c.toList.takeWhile (· ≠ '_'))

theorem splitL_takeWhile (c : Char) : ∀ xs ys : List Char, ∃ r, Str.splitL c (xs ++ c :: ys) = xs.takeWhile (· ≠ c) :: r ∧ r ≠ []
  | [], ys => ⟨Str.splitL c ys, by rw [List.nil_append, Str.splitL, if_pos rfl]; rfl, splitL_ne c ys⟩
  | x :: xs, ys => by
    by_cases h : x = c
    · refine ⟨Str.splitL c (xs ++ c :: ys), ?_, splitL_ne c _⟩
      rw [List.cons_append, Str.splitL, if_pos h]
      simp [h]
    · obtain ⟨r, hr, hne⟩ := splitL_takeWhile c xs ys
      refine ⟨r, ?_, hne⟩
      rw [List.cons_append, Str.splitL, if_neg h, hr]
      simp [h]

/-- the fake never fails for the file of a reader made by names -/
theorem fakeNames_any (p c : String) : ∃ q, fakeNames (getRsrFilename p c) = .ok (shownInstrument (firstPart c), q) := by
  have h1 : stem (getRsrFilename p c) = "rsr_" ++ c ++ "_" ++ p := by
    unfold getRsrFilename
    apply stem_h5
    intro h
    have := congrArg String.toList h
    simp at this
  have h2 : ∃ q r, Str.split '_' ("rsr_" ++ c ++ "_" ++ p) = "rsr" :: firstPart c :: q :: r := by
    unfold Str.split
    have : ("rsr_" ++ c ++ "_" ++ p).toList = ['r', 's', 'r'] ++ '_' :: (c.toList ++ '_' :: p.toList) := by
      simp [String.toList_append]
    obtain ⟨r, hr, hne⟩ := splitL_takeWhile '_' c.toList p.toList
    rw [this, splitL_append _ _ _ (by decide), hr]
    cases r with
    | nil => exact absurd rfl hne
    | cons q r => exact ⟨String.ofList q, r.map String.ofList, rfl⟩
  obtain ⟨q, r, h2⟩ := h2
  refine ⟨q, ?_⟩
  unfold fakeNames
  rw [h1, h2]
  generalize firstPart c = c
  have i1 : NP.pyIndex ("rsr" :: c :: q :: r) 1 = .ok c := by simp [NP.pyIndex]
  have i2 : NP.pyIndex ("rsr" :: c :: q :: r) 2 = .ok q := by simp [NP.pyIndex]
  simp only [i1, i2, bind, Except.bind, pure, Except.pure]
  unfold shownInstrument lastChar
  by_cases h : Str.startsWith c "avhrr" = true
  · cases hl : c.toList.getLast? with
    | none =>
      rw [List.getLast?_eq_none_iff] at hl
      unfold Str.startsWith at h
      rw [hl] at h
      exact absurd h (by decide)
    | some x => simp [h, Functor.map, Except.map]
  · cases hl : c.toList.getLast? <;> simp [h]

/-- a reader with fake data: names as asked for, one band for each standard name of the table `T`, with the central
wavelengths asked for (0.46 if none) -/
def IsFakeReader (p c : String) (T : Dict String String) (cw : Dict String α) (r : Reader α) : Prop :=
  r.platform_name = some p ∧ r.instrument = .str c ∧ r.band_names = T.map Prod.snd ∧
  (∀ b, (r.rsr.get? b).isSome ↔ b ∈ T.map Prod.snd) ∧
  (KnownNames T cw → ∀ b ∈ T.map Prod.snd, ∃ d, r.rsr.get? b = some d ∧ IsFakeBand ((requestedWavelength T cw b).getD 0.46) d)

theorem fakeReader_gives (te : TestEnv α) (options : List (String × Conf)) (ho : Off te options) (us : List Use)
    (p i c : String) (hc : checkAndAdjustInstrumentName p i = .ok c) (cw : Dict String α)
    (T : Dict String String) (hT : TableOf (shownInstrument (firstPart c)) T) :
    Gives te options (some (fakeRsrInfo cw)) (usesThenReader te us p i) (fun r => ∃ o, r = .ok o ∧ IsFakeReader p c T cw o) := by
  obtain ⟨q, hq⟩ := fakeNames_any p c
  rw [tableOf_iff] at hT
  subst hT
  obtain ⟨info, h1, -, -, h4, h5, h6⟩ := fakeRsrInfo_run cw "" _ _ _ hq
  intro s hf hl
  obtain ⟨d, hd⟩ := reader_gives te options ho us p i c hc (fakeRsrInfo cw) info (fun _ => h1) s hf hl
  exact ⟨_, hd, rfl, rfl, h4, h5, h6⟩

/-- C92, C100: a reader made by names inside a `mock_rsr` block has the platform name and instrument asked for, and
exactly the standard bands of its instrument, with the central wavelengths asked for; whatever was constructed before. -/
theorem C100_mock_rsr (te : TestEnv α) (ho : Outside te) (rsr_dir version : Option String) (cw : Dict String α)
    (us : List Use) (p i c : String) (hc : checkAndAdjustInstrumentName p i = .ok c)
    (T : Dict String String) (hT : TableOf (shownInstrument (firstPart c)) T) (s : TestState α) :
    ∃ r, (mockRsr te rsr_dir version false cw (usesThenReader te us p i) s).1 = .ok r ∧ IsFakeReader p c T cw r := by
  unfold mockRsr
  refine dirOrTemp_gives te _ _ (fun r => ∃ o, r = .ok o ∧ IsFakeReader p c T cw o) (fun d s => ?_) s
  have off : Off te [("rsr_dir", .leaf (.str d)), ("download_from_internet", .leaf (.bool false))] :=
    ⟨ho.yaml _ (flat_tree (by simp [Dict.WF]) (by simp)), stringDirs_of_mem (by simp), rfl⟩
  exact override_gives te ho.fresh _ _ _ (fun _ => harmless_mockRsrFiles _ _ _ (usesThenReader_harmless te _ off us p i))
    (fun _ => gives_mockRsrFiles _ _ _ (fakeReader_gives te _ off us p i c hc cw T hT)) s

/-- C92, C100: the same inside `mock_tb_conversion`. -/
theorem C100_mock_tb_conversion (te : TestEnv α) (ho : Outside te) (tb2rad_dir rsr_dir version : Option String)
    (cw : Dict String α) (us : List Use) (p i c : String) (hc : checkAndAdjustInstrumentName p i = .ok c)
    (T : Dict String String) (hT : TableOf (shownInstrument (firstPart c)) T) (s : TestState α) :
    ∃ r, (mockTbConversion te tb2rad_dir rsr_dir version cw (usesThenReader te us p i) s).1 = .ok r ∧ IsFakeReader p c T cw r := by
  unfold mockTbConversion
  refine dirOrTemp_gives te _ _ (fun r => ∃ o, r = .ok o ∧ IsFakeReader p c T cw o) (fun d s => ?_) s
  have off : Off te [("rsr_dir", .leaf (.str (rsr_dir.getD d))), ("tb2rad_dir", .leaf (.str d)),
      ("download_from_internet", .leaf (.bool false))] :=
    ⟨ho.yaml _ (flat_tree (by simp [Dict.WF]) (by simp)), stringDirs_of_mem (by simp), rfl⟩
  exact override_gives te ho.fresh _ _ _ (fun _ => harmless_mockRsrFiles _ _ _ (usesThenReader_harmless te _ off us p i))
    (fun _ => gives_mockRsrFiles _ _ _ (fakeReader_gives te _ off us p i c hc cw T hT)) s

/-! ### C99 -/

/-- names of the version files -/
def versionNames : List String := ATM_CORRECTION_LUT_VERSION.map fun p => p.2.2

/-- the files prepared so far -/
structure Prepared (s s' : TestState α) : Prop where
  calm : CalmStep s s'
  loader : s'.loader = s.loader

omit [PyNum α] in
theorem Prepared.trans {s s' s'' : TestState α} (h : Prepared s s') (h' : Prepared s' s'') : Prepared s s'' :=
  ⟨⟨h'.calm.requests.trans h.calm.requests, h'.calm.psp.trans h.calm.psp, fun d => (h'.calm.yaml d).trans (h.calm.yaml d)⟩,
    h'.loader.trans h.loader⟩

theorem aerosol_versions : ∀ t ∈ AEROSOL_TYPES, (ATM_CORRECTION_LUT_VERSION.get? t).isSome := by decide +kernel

omit [PyNum α] in
theorem version_files_run (d : String) (ev : ExistingVersion) : ∀ (l : List String), (∀ t ∈ l, t ∈ AEROSOL_TYPES) →
    ∀ s : TestState α, ∃ s', initRayleighVersionFiles d ev l s = (.ok (), s') ∧ Prepared s s' ∧
      ∀ q, q.2 ∉ versionNames → s'.world.files q = s.world.files q
  | [], _, s => ⟨s, rfl, ⟨calm_refl s, rfl⟩, fun _ _ => rfl⟩
  | t :: l, hl, s => by
    obtain ⟨v, hv⟩ := Option.isSome_iff_exists.1 (aerosol_versions t (hl t (by simp)))
    have hg : ATM_CORRECTION_LUT_VERSION.getItem t = .ok v := getItem_ok_iff.2 hv
    have hname := version_names _ (get?_eq_some_mem hv)
    obtain ⟨version, filename⟩ := v
    have hmem : filename ∈ versionNames := List.mem_map_of_mem (f := fun p => p.2.2) (get?_eq_some_mem hv)
    let s₁ : TestState α := (mkdir (d ++ "/" ++ t) s).2
    let cont : Content := (match ev with | .version v => v | .flag _ => version).toList
    let s₂ : TestState α := { s₁ with world := s₁.world.setFile (d ++ "/" ++ t, filename) (some cont) }
    have hdir : s₁.world.dirs (d ++ "/" ++ t) = true := by
      show (if d ++ "/" ++ t = d ++ "/" ++ t then true else _) = true
      rw [if_pos rfl]
    have hw : writeFile (d ++ "/" ++ t, filename) cont s₁ = (.ok (), s₂) := by
      unfold writeFile
      rw [if_pos hdir]
    obtain ⟨s', h1, h2, h3⟩ := version_files_run d ev l (fun t ht => hl t (by simp [ht])) s₂
    have hp : Prepared s s₂ := by
      have a := calm_mkdir (α := α) (d ++ "/" ++ t) s
      have b := calm_writeFile (α := α) (d ++ "/" ++ t, filename) cont hname s₁
      rw [hw] at b
      exact Prepared.trans ⟨a, rfl⟩ ⟨b, rfl⟩
    refine ⟨s', ?_, hp.trans h2, fun q hq => ?_⟩
    · unfold initRayleighVersionFiles at h1 ⊢
      rw [← h1]
      show (_ >>= _ : Test α Unit) s = _
      refine st_bind_ok (a := ()) ?_
      beta_reduce
      rw [st_bind_ok (st_lift_ok hg s)]
      exact (st_bind_ok (show mkdir (d ++ "/" ++ t) s = (.ok (), s₁) from rfl)).trans hw
    · rw [h3 q hq]
      show (if q = (d ++ "/" ++ t, filename) then _ else _) = _
      rw [if_neg]
      · rfl
      · rintro rfl
        exact hq hmem

/-- the link of an atmosphere -/
def linkName (a : String) : String := "rayleigh_lut_" ++ Str.replaceChar ' ' '_' a ++ ".h5"

theorem linkName_base (a : String) : linkName a ≠ BASE_RAYLEIGH_LUT_FILENAME := by
  intro h
  have := congrArg String.toList h
  unfold linkName BASE_RAYLEIGH_LUT_FILENAME at this
  rw [String.toList_append, String.toList_append] at this
  simp at this

/-- what is at `q` after making links at the paths `l` -/
def linkedAt (q : Path) (l : List Path) (fl : Content) (v : Option Content) : Option Content :=
  if q ∈ l then some (v.getD fl) else v

omit [PyNum α] in
theorem symlink_run (d : String) (fl : Content) (sub a : String) (s : TestState α)
    (hb : s.world.files (d, BASE_RAYLEIGH_LUT_FILENAME) = some fl) :
    ∃ s', symlinkRayleighLut d (sub, linkName a) s = (.ok (), s') ∧ Prepared s s' ∧
      s'.world.files (d, BASE_RAYLEIGH_LUT_FILENAME) = some fl ∧
      ∀ q, s'.world.files q = linkedAt q [(sub, linkName a)] fl (s.world.files q) := by
  have hc := calm_symlink (α := α) d (sub, linkName a) (link_name a) s
  unfold symlinkRayleighLut at hc ⊢
  by_cases h : (s.world.files (sub, linkName a)).isSome = true
  · rw [if_pos h]
    refine ⟨s, rfl, ⟨calm_refl s, rfl⟩, hb, fun q => ?_⟩
    unfold linkedAt
    split
    · rename_i hq
      rw [List.mem_singleton] at hq
      rw [hq]
      obtain ⟨v, hv⟩ := Option.isSome_iff_exists.1 h
      rw [hv]
      rfl
    · rfl
  · rw [if_neg h] at hc ⊢
    refine ⟨_, rfl, ⟨hc, rfl⟩, ?_, fun q => ?_⟩
    · show (if (d, BASE_RAYLEIGH_LUT_FILENAME) = (sub, linkName a) then _ else _) = _
      rw [if_neg]
      · exact hb
      · intro e
        exact linkName_base a (congrArg Prod.snd e).symm
    · show (if q = (sub, linkName a) then _ else _) = _
      unfold linkedAt
      by_cases hq : q = (sub, linkName a)
      · rw [if_pos hq, if_pos (by simp [hq]), hb, hq]
        have : s.world.files (sub, linkName a) = none := by simpa using h
        rw [this]
        rfl
      · rw [if_neg hq, if_neg (by simpa using hq)]

theorem linkedAt_append (q : Path) (l l' : List Path) (fl : Content) (v : Option Content) :
    linkedAt q l' fl (linkedAt q l fl v) = linkedAt q (l ++ l') fl v := by
  unfold linkedAt
  by_cases h : q ∈ l <;> by_cases h' : q ∈ l' <;> simp [h, h']

omit [PyNum α] in
theorem links_run (d : String) (fl : Content) (sub : String) : ∀ (l : List String) (s : TestState α),
    s.world.files (d, BASE_RAYLEIGH_LUT_FILENAME) = some fl →
    ∃ s', PySt.forEach (fun a => symlinkRayleighLut d (sub, linkName a)) l s = (.ok (), s') ∧ Prepared s s' ∧
      s'.world.files (d, BASE_RAYLEIGH_LUT_FILENAME) = some fl ∧
      ∀ q, s'.world.files q = linkedAt q (l.map fun a => (sub, linkName a)) fl (s.world.files q)
  | [], s, hb => ⟨s, rfl, ⟨calm_refl s, rfl⟩, hb, fun q => by simp [linkedAt]⟩
  | a :: l, s, hb => by
    obtain ⟨s₁, h1, p1, b1, f1⟩ := symlink_run d fl sub a s hb
    obtain ⟨s₂, h2, p2, b2, f2⟩ := links_run d fl sub l s₁ b1
    refine ⟨s₂, ?_, p1.trans p2, b2, fun q => ?_⟩
    · rw [← h2]
      exact st_bind_ok h1
    · rw [f2, f1, linkedAt_append]
      rfl

omit [PyNum α] in
theorem all_links_run (d : String) (fl : Content) (atms : List String) : ∀ (l : List String) (s : TestState α),
    s.world.files (d, BASE_RAYLEIGH_LUT_FILENAME) = some fl →
    ∃ s', PySt.forEach (linkLuts d atms) l s = (.ok (), s') ∧ Prepared s s' ∧
      s'.world.files (d, BASE_RAYLEIGH_LUT_FILENAME) = some fl ∧
      ∀ q, s'.world.files q =
        linkedAt q (l.flatMap fun t => atms.map fun a => (d ++ "/" ++ t, linkName a)) fl (s.world.files q)
  | [], s, hb => ⟨s, rfl, ⟨calm_refl s, rfl⟩, hb, fun q => by simp [linkedAt]⟩
  | t :: l, s, hb => by
    let s₀ : TestState α := (mkdir (d ++ "/" ++ t) s).2
    obtain ⟨s₁, h1, p1, b1, f1⟩ := links_run d fl (d ++ "/" ++ t) atms s₀ hb
    obtain ⟨s₂, h2, p2, b2, f2⟩ := all_links_run d fl atms l s₁ b1
    have p0 : Prepared s s₀ := ⟨calm_mkdir _ s, rfl⟩
    refine ⟨s₂, ?_, (p0.trans p1).trans p2, b2, fun q => ?_⟩
    · rw [← h2]
      refine st_bind_ok (a := ()) ?_
      unfold linkLuts
      exact (st_bind_ok (show mkdir (d ++ "/" ++ t) s = (.ok (), s₀) from rfl)).trans h1
    · rw [f2, f1, linkedAt_append]
      rfl

theorem mockRsrFiles_run (d : String) (v : Option String) (cw : Dict String α) (m : Test α β) (s : TestState α) :
    ∃ s', CalmStep s s' ∧ s'.loader = some (fakeRsrInfo cw) ∧
      (∀ q, q.2 ≠ RSR_DATA_VERSION_FILENAME → s'.world.files q = s.world.files q) ∧
      mockRsrFiles d v cw m s = ((m s').1, { (m s').2 with loader := s.loader }) := by
  unfold mockRsrFiles
  cases v with
  | none => exact ⟨{ s with loader := some (fakeRsrInfo cw) }, ⟨rfl, rfl, fun _ => rfl⟩, rfl, fun _ _ => rfl, rfl⟩
  | some v =>
    let s₁ : TestState α := (mkdir d s).2
    let s₂ : TestState α := { s₁ with world := s₁.world.setFile (d, RSR_DATA_VERSION_FILENAME) (some v.toList) }
    have hdir : s₁.world.dirs d = true := by
      show (if d = d then true else _) = true
      rw [if_pos rfl]
    have hw : writeFile (d, RSR_DATA_VERSION_FILENAME) v.toList s₁ = (.ok (), s₂) := by
      unfold writeFile
      rw [if_pos hdir]
    have hfile : ∀ q : Path, q.2 ≠ RSR_DATA_VERSION_FILENAME → s₂.world.files q = s.world.files q := by
      intro q hq
      show (if q = (d, RSR_DATA_VERSION_FILENAME) then _ else _) = _
      rw [if_neg]
      · rfl
      · rintro rfl
        exact hq rfl
    refine ⟨{ s₂ with loader := some (fakeRsrInfo cw) }, ⟨rfl, rfl, fun x => hfile _ ?_⟩, rfl, hfile, ?_⟩
    · show "pyspectral.yaml" ≠ RSR_DATA_VERSION_FILENAME
      decide +kernel
    · dsimp only
      rw [st_bind_ok (show mkdir d s = (.ok (), s₁) from rfl), st_bind_ok hw]
      rfl

/-- the files of the published atmospheres and aerosol types -/
def publishedTables (d : String) : List Path :=
  AEROSOL_TYPES.flatMap fun t => (ATMOSPHERES.map Prod.fst).map fun a => (d ++ "/" ++ t, linkName a)

theorem base_not_version : BASE_RAYLEIGH_LUT_FILENAME ∉ versionNames := by decide +kernel

omit [PyNum α] in
theorem mockRayleighLuts_run (te : TestEnv α) (d : String) (ev : ExistingVersion) (hev : ev.truthy = true) (m : Test α β)
    (s : TestState α) : ∃ s', Prepared s s' ∧
      (∀ q : Path, q.2 ∉ versionNames → q.2 ≠ BASE_RAYLEIGH_LUT_FILENAME →
        s'.world.files q = linkedAt q (publishedTables d) te.fakeLut (s.world.files q)) ∧
      mockRayleighLuts te d ev none none m s = m s' := by
  let s₁ : TestState α := (mkdir d s).2
  let s₂ : TestState α := { s₁ with world := s₁.world.setFile (d, BASE_RAYLEIGH_LUT_FILENAME) (some te.fakeLut) }
  have hdir : s₁.world.dirs d = true := by
    show (if d = d then true else _) = true
    rw [if_pos rfl]
  have hw : writeFile (d, BASE_RAYLEIGH_LUT_FILENAME) te.fakeLut s₁ = (.ok (), s₂) := by
    unfold writeFile
    rw [if_pos hdir]
  have hbase : s₂.world.files (d, BASE_RAYLEIGH_LUT_FILENAME) = some te.fakeLut := by
    show (if (d, BASE_RAYLEIGH_LUT_FILENAME) = (d, BASE_RAYLEIGH_LUT_FILENAME) then _ else _) = _
    rw [if_pos rfl]
  have p2 : Prepared s s₂ := by
    have b := calm_writeFile (α := α) (d, BASE_RAYLEIGH_LUT_FILENAME) te.fakeLut
      (by show BASE_RAYLEIGH_LUT_FILENAME ≠ _; decide +kernel) s₁
    rw [hw] at b
    exact Prepared.trans ⟨calm_mkdir d s, rfl⟩ ⟨b, rfl⟩
  obtain ⟨s₃, h3, p3, f3⟩ := version_files_run d ev AEROSOL_TYPES (fun t h => h) s₂
  obtain ⟨s₄, h4, p4, -, f4⟩ := all_links_run d te.fakeLut (ATMOSPHERES.map Prod.fst) AEROSOL_TYPES s₃
    (by rw [f3 _ base_not_version]; exact hbase)
  refine ⟨s₄, (p2.trans p3).trans p4, ?_, ?_⟩
  · intro q hv hq
    rw [f4, f3 q hv]
    show linkedAt q _ _ (if q = (d, BASE_RAYLEIGH_LUT_FILENAME) then _ else _) = _
    rw [if_neg]
    · rfl
    · rintro rfl
      exact hq rfl
  · unfold mockRayleighLuts
    dsimp only
    rw [st_bind_ok (show mkdir d s = (.ok (), s₁) from rfl), st_bind_ok hw]
    simp only [hev, if_true, Option.getD_none]
    rw [st_bind_ok h3, st_bind_ok h4]

/-- any uses, then a Rayleigh object, then a look at its table file -/
def usesThenTable (te : TestEnv α) (us : List Use) (p i atm aer : String) : Test α (Option Content) := do
  useAll te us
  let o ← newRayleigh te p i atm aer
  let s ← PySt.get
  return s.world.files o.reflectance_lut_filename

theorem usesThenTable_run (te : TestEnv α) (options : List (String × Conf)) (ho : Off te options) (us : List Use)
    (p i atm aer n ray : String) (hn : normalizeSensor p i = .ok n) (ha : ATMOSPHERES.contains atm = true)
    (ht : aer ∈ AEROSOL_TYPES) (hray : dirOption te.conf options "rayleigh_dir" ray) (s : TestState α)
    (hf : InForce te options s) :
    (usesThenTable te us p i atm aer s).1 = .ok (s.world.files (ray ++ "/" ++ aer, linkName atm)) ∧
    (usesThenTable te us p i atm aer s).2.psp = s.psp := by
  have h1 := useAll_onlyDirs te options ho.yaml ho.dirs ho.off us s hf
  have hf' := inForce_onlyDirs hf h1
  obtain ⟨⟨rsr, hr⟩, -⟩ := stringDirs_option te.conf ho.dirs
  obtain ⟨env, henv, -, hrun⟩ := useConfig_run te options _ hf' ho.yaml ho.off rsr ray hr hray
    (fun env => rayleighNew env p i atm aer)
  obtain ⟨v, tr, hv, -, -, hnew⟩ := rayleighNew_run env p i atm aer
    (withDir ray (withDir rsr (useAll te us s).2.world)) ha ht n hn
  rw [if_neg (by rw [henv]; simp)] at hnew
  rw [hnew] at hrun
  have hdir : rayleighLutDir env aer = ray ++ "/" ++ aer := by
    unfold rayleighLutDir
    rw [henv]
  have hrun' : newRayleigh te p i atm aer (useAll te us s).2 = _ := hrun
  unfold usesThenTable
  rw [st_bind_ok (useAll_ok te us s), st_bind_ok hrun', st_bind_ok (st_get _)]
  refine ⟨?_, h1.psp⟩
  show Except.ok (v.files _) = _
  rw [hv, hdir, show (withDir ray (withDir rsr (useAll te us s).2.world)).files = s.world.files from h1.files]
  rfl

/-- an absolute path -/
def Absolute (d : String) : Prop := ∃ r, d.toList = '/' :: r

theorem expanduser_absolute (home : String → Option String) {d : String} (h : Absolute d) : expanduser home d = d := by
  obtain ⟨r, hr⟩ := h
  unfold expanduser
  rw [hr]
  rfl

theorem absolute_append {d : String} (h : Absolute d) (x : String) : Absolute (d ++ x) := by
  obtain ⟨r, hr⟩ := h
  exact ⟨r ++ x.toList, by rw [String.toList_append, hr]; rfl⟩

theorem linkName_not_version : ∀ a ∈ ATMOSPHERES.map Prod.fst, linkName a ∉ versionNames ∧ linkName a ≠ RSR_DATA_VERSION_FILENAME ∧
    linkName a ≠ "pyspectral.yaml" := by decide +kernel

/-- the table file inside a block: `between` is what is done before the responses are faked -/
theorem table_in_block (te : TestEnv α) (ho : Outside te) (options : List (String × Conf)) (off : Off te options)
    (d rsr : String) (version : Option String) (cw : Dict String α) (body : Test α (Option Content)) (ev : ExistingVersion)
    (hev : ev.truthy = true) (us : List Use) (p i atm aer n : String) (hn : normalizeSensor p i = .ok n)
    (ha : atm ∈ ATMOSPHERES.map Prod.fst) (ht : aer ∈ AEROSOL_TYPES)
    (between : Test α (Option Content) → Test α (Option Content))
    (hbetween : ∀ m s, ∃ s', CalmStep s s' ∧ s'.world.files = s.world.files ∧ between m s = m s')
    (hray : dirOption te.conf options "rayleigh_dir" d) (hbody : body = usesThenTable te us p i atm aer) (s : TestState α) :
    (overrideConfig te (some options) none (fun _ => mockRayleighLuts te d ev none none
      (between (mockRsrFiles rsr version cw body))) s).1 =
      .ok (some ((s.world.files (d ++ "/" ++ aer, linkName atm)).getD te.fakeLut)) := by
  subst hbody
  have hin := started_inForce te (some options) s (ho.fresh _)
  obtain ⟨s₁, p1, f1, r1⟩ := mockRayleighLuts_run te d ev hev (between (mockRsrFiles rsr version cw (usesThenTable te us p i atm aer)))
    (started te (some options) s)
  obtain ⟨s₂, c2, f2, r2⟩ := hbetween (mockRsrFiles rsr version cw (usesThenTable te us p i atm aer)) s₁
  obtain ⟨s₃, c3, -, f3, r3⟩ := mockRsrFiles_run rsr version cw (usesThenTable te us p i atm aer) s₂
  have hf : InForce te options s₃ := by
    obtain ⟨x, h0, h1, h2⟩ := hin
    exact ⟨x, h0, c3.psp.trans (c2.psp.trans (p1.calm.psp.trans h1)),
      (c3.yaml x).trans ((c2.yaml x).trans ((p1.calm.yaml x).trans h2))⟩
  have hat : ATMOSPHERES.contains atm = true := by
    unfold Dict.contains
    cases hg : ATMOSPHERES.get? atm with
    | some _ => rfl
    | none => exact absurd ha (get?_eq_none_iff.1 hg)
  obtain ⟨h1, h2⟩ := usesThenTable_run te options off us p i atm aer n d hn hat ht hray s₃ hf
  have hname := linkName_not_version atm ha
  have hrun := override_run te (some options) (fun _ => mockRayleighLuts te d ev none none
      (between (mockRsrFiles rsr version cw (usesThenTable te us p i atm aer)))) s (ho.fresh _) _ _
      (r1.trans (r2.trans r3)) (by
        show (usesThenTable te us p i atm aer s₃).2.psp ≠ none
        rw [h2]
        obtain ⟨x, h0, h1, h2⟩ := hf
        rw [h1]
        simp)
  rw [hrun]
  show (usesThenTable te us p i atm aer s₃).1 = _
  rw [h1, f3 _ hname.2.1, f2, f1 _ hname.1 (linkName_base atm)]
  have hmem : (d ++ "/" ++ aer, linkName atm) ∈ publishedTables d := by
    unfold publishedTables
    rw [List.mem_flatMap]
    exact ⟨aer, ht, List.mem_map_of_mem (f := fun a => (d ++ "/" ++ aer, linkName a)) ha⟩
  have hs : (started te (some options) s).world.files (d ++ "/" ++ aer, linkName atm) =
      s.world.files (d ++ "/" ++ aer, linkName atm) := by
    show (if (d ++ "/" ++ aer, linkName atm) = (te.fresh s.world, "pyspectral.yaml") then _ else _) = _
    rw [if_neg]
    · rfl
    · intro e
      exact hname.2.2 (congrArg Prod.snd e)
  unfold linkedAt
  rw [if_pos hmem, hs]

/-- C99: inside a `mock_rayleigh` block with existing tables in an (absolute) directory, constructing a Rayleigh object of any
published atmosphere and aerosol type works for every platform and sensor pair that has a name, and its table file is there:
the fake table, or the file that was there before.  Whatever was constructed before. -/
theorem C99_mock_rayleigh (te : TestEnv α) (ho : Outside te) (d : String) (rsr_dir : Option String) (ev : ExistingVersion)
    (hd : Absolute d) (hev : ev.truthy = true) (us : List Use) (p i atm aer n : String) (hn : normalizeSensor p i = .ok n)
    (ha : atm ∈ ATMOSPHERES.map Prod.fst) (ht : aer ∈ AEROSOL_TYPES) (s : TestState α) :
    (mockRayleigh te (some d) rsr_dir ev none none (usesThenTable te us p i atm aer) s).1 =
      .ok (some ((s.world.files (d ++ "/" ++ aer, "rayleigh_lut_" ++ Str.replaceChar ' ' '_' atm ++ ".h5")).getD te.fakeLut)) := by
  have off : Off te [("rayleigh_dir", .leaf (.str d)), ("rsr_dir", .leaf (.str (rsr_dir.getD d))),
      ("download_from_internet", .leaf (.bool false))] :=
    ⟨ho.yaml _ (flat_tree (by simp [Dict.WF]) (by simp)), stringDirs_of_mem (by simp), rfl⟩
  exact table_in_block te ho _ off d _ _ _ _ ev hev us p i atm aer n hn ha ht (fun m => m)
    (fun m s => ⟨s, calm_refl s, rfl, rfl⟩) (.inr ⟨d, rfl, (expanduser_absolute _ hd).symm⟩) rfl s

/-- C99: the same with a temporary directory (new, so empty): the table file is the fake table. -/
theorem C99_mock_rayleigh_temporary (te : TestEnv α) (ho : Outside te) (rsr_dir : Option String) (ev : ExistingVersion)
    (hev : ev.truthy = true) (us : List Use) (p i atm aer n : String) (hn : normalizeSensor p i = .ok n)
    (ha : atm ∈ ATMOSPHERES.map Prod.fst) (ht : aer ∈ AEROSOL_TYPES) (s : TestState α)
    (hnew : ∀ q : Path, Inside (te.fresh s.world) q.1 → s.world.files q = none) :
    (mockRayleigh te none rsr_dir ev none none (usesThenTable te us p i atm aer) s).1 = .ok (some te.fakeLut) := by
  have hd : Absolute (te.fresh s.world) := by
    obtain ⟨cs, c, h, -⟩ := ho.fresh s.world
    exact ⟨cs ++ [c], h⟩
  have h := C99_mock_rayleigh te ho (te.fresh s.world) rsr_dir ev hd hev us p i atm aer n hn ha ht (mkdir (te.fresh s.world) s).2
  have hnone : (mkdir (te.fresh s.world) s).2.world.files
      (te.fresh s.world ++ "/" ++ aer, "rayleigh_lut_" ++ Str.replaceChar ' ' '_' atm ++ ".h5") = none := by
    refine hnew _ (.inr ⟨aer.toList, ?_⟩)
    rw [String.toList_append, String.toList_append]
    simp
  rw [hnone] at h
  exact h

/-- C99: the same inside `mock_pyspectral_downloads`, for a given or a temporary directory. -/
theorem C99_mock_pyspectral_downloads (te : TestEnv α) (ho : Outside te) (tmp_path version : Option String)
    (hd : ∀ d, tmp_path = some d → Absolute d) (cw : Dict String α) (us : List Use) (p i atm aer n : String)
    (hn : normalizeSensor p i = .ok n) (ha : atm ∈ ATMOSPHERES.map Prod.fst) (ht : aer ∈ AEROSOL_TYPES) (s : TestState α) :
    ∃ c, (mockPyspectralDownloads te tmp_path [] version cw (usesThenTable te us p i atm aer) s).1 = .ok (some c) := by
  have key : ∀ (d : String) (s : TestState α), Absolute d →
      ∃ c, (mockPyspectralDownloads te (some d) [] version cw (usesThenTable te us p i atm aer) s).1 = .ok (some c) := by
    intro d s hd
    have off : Off te [("download_from_internet", .leaf (.bool false)), ("rsr_dir", .leaf (.str (d ++ "/" ++ "fake_rsr"))),
       ("rayleigh_dir", .leaf (.str (d ++ "/" ++ "fake_rayleigh"))), ("tb2rad_dir", .leaf (.str (d ++ "/" ++ "fake_tb2rad")))] :=
      ⟨ho.yaml _ (flat_tree (by simp [Dict.WF]) (by simp)), stringDirs_of_mem (by simp), rfl⟩
    have habs : Absolute (d ++ "/" ++ "fake_rayleigh") := absolute_append (absolute_append hd _) _
    have h := table_in_block te ho _ off (d ++ "/" ++ "fake_rayleigh") (d ++ "/" ++ "fake_rsr") version cw
      (usesThenTable te us p i atm aer) (.flag true) rfl us p i atm aer n hn ha ht
      (fun m => do mkdir (d ++ "/" ++ "fake_tb2rad"); m) (fun m s => ⟨_, calm_mkdir _ s, rfl, rfl⟩)
      (.inr ⟨_, rfl, (expanduser_absolute _ habs).symm⟩) rfl s
    refine ⟨_, Eq.trans ?_ h⟩
    unfold mockPyspectralDownloads withDirOrTemp
    dsimp only [List.foldl_nil]
  cases tmp_path with
  | some d => exact key d s (hd d rfl)
  | none =>
    have hd : Absolute (te.fresh s.world) := by
      obtain ⟨cs, c, h, -⟩ := ho.fresh s.world
      exact ⟨cs ++ [c], h⟩
    exact key _ (mkdir (te.fresh s.world) s).2 hd

theorem gives_mockRayleighLuts {te : TestEnv α} {options : List (String × Conf)} {load : Option (Path → Py (RsrInfo α))}
    {m : Test α β} {Q : Py β → Prop} (d : String) (ev : ExistingVersion) (hev : ev.truthy = true)
    (h : Gives te options load m Q) : Gives te options load (mockRayleighLuts te d ev none none m) Q := by
  intro s hs hl
  obtain ⟨s', p, -, r⟩ := mockRayleighLuts_run te d ev hev m s
  rw [r]
  refine h s' ?_ fun l e => p.loader.trans (hl l e)
  obtain ⟨x, h0, h1, h2⟩ := hs
  exact ⟨x, h0, p.calm.psp.trans h1, (p.calm.yaml x).trans h2⟩

/-- C92, C100: the same inside `mock_pyspectral_downloads`. -/
theorem C100_mock_pyspectral_downloads (te : TestEnv α) (ho : Outside te) (tmp_path version : Option String)
    (cw : Dict String α) (us : List Use) (p i c : String) (hc : checkAndAdjustInstrumentName p i = .ok c)
    (T : Dict String String) (hT : TableOf (shownInstrument (firstPart c)) T) (s : TestState α) :
    ∃ r, (mockPyspectralDownloads te tmp_path [] version cw (usesThenReader te us p i) s).1 = .ok r ∧
      IsFakeReader p c T cw r := by
  unfold mockPyspectralDownloads
  refine dirOrTemp_gives te _ _ (fun r => ∃ o, r = .ok o ∧ IsFakeReader p c T cw o) (fun d s => ?_) s
  dsimp only [List.foldl_nil]
  have off : Off te [("download_from_internet", .leaf (.bool false)), ("rsr_dir", .leaf (.str (d ++ "/" ++ "fake_rsr"))),
       ("rayleigh_dir", .leaf (.str (d ++ "/" ++ "fake_rayleigh"))), ("tb2rad_dir", .leaf (.str (d ++ "/" ++ "fake_tb2rad")))] :=
      ⟨ho.yaml _ (flat_tree (by simp [Dict.WF]) (by simp)), stringDirs_of_mem (by simp), rfl⟩
  refine override_gives te ho.fresh _ _ (fun r => ∃ o, r = .ok o ∧ IsFakeReader p c T cw o) (fun _ => ?_) (fun _ => ?_) s
  · exact harmless_mockRayleighLuts _ _ _ _ (harmless_bind (calm_mkdir _) fun _ =>
      harmless_mockRsrFiles _ _ _ (usesThenReader_harmless te _ off us p i))
  · refine gives_mockRayleighLuts _ _ rfl ?_
    intro s hs hl
    exact gives_mockRsrFiles _ _ _ (fakeReader_gives te _ off us p i c hc cw T hT) (mkdir (d ++ "/" ++ "fake_tb2rad") s).2 hs hl

/-! ### A concrete outside -/

/-- a concrete outside: one temporary directory name, a text form that can be read back -/
noncomputable def exTestEnv : TestEnv XF where
  fresh := fun _ => "/tmp/psp1"
  yamlDump := fun o => putConf (.map o)
  fakeLut := "table".toList
  server := fun _ => .answered 200 true ["tgz".toList]
  untar := fun _ => ([], true)
  h5open := fun _ => none
  conf := { psp := none, builtin := "/pkg/etc/pyspectral.yaml", yamlLoad := readConf,
            userDataDir := "/home/u/.local/share/pyspectral", home := fun _ => some "/home/u" }

/-- the start of a test: an empty file system and no configuration -/
def exTestState : TestState XF := ⟨⟨fun _ => none, fun _ => false, []⟩, none, none, false⟩

theorem exOutside : Outside exTestEnv where
  fresh := fun _ => ⟨"tmp/psp".toList, '1', by show "/tmp/psp1".toList = _; decide, by decide⟩
  yaml := fun o ho => ⟨.map o, readConf_put _, ho, fun _ => rfl⟩

/-- a body that changes the variable, writes nothing and fails -/
def exBody : String → Test XF Unit := fun _ s => (.error .valueError, { s with psp := some "/elsewhere" })

example : (overrideConfig exTestEnv (some [("a", .map [])]) none (fun _ => overrideConfig exTestEnv none (some "/p.yaml") exBody)
    exTestState).2.psp = none :=
  C90_restored exTestEnv _ _ _ exTestState

example : (overrideConfig exTestEnv none (some "/p.yaml") exBody exTestState).1 = .error .valueError :=
  (C90_transparent exTestEnv none "/p.yaml" exBody exTestState (.error .valueError) exTestState.world
    ⟨{ exTestState with psp := some "/elsewhere" }, rfl, rfl, by simp⟩).1

example : (overrideConfig exTestEnv none (some "/p.yaml") (fun _ s => ((.ok 1 : Py ℕ), { s with psp := none })) exTestState).1 =
    .error .keyError :=
  C90_deleted exTestEnv none "/p.yaml" _ exTestState rfl rfl

example : (overrideConfig exTestEnv none none exBody exTestState).2.world.dirs "/tmp/psp1/sub" = false :=
  (C90_temporary_removed exTestEnv none exBody exTestState).1 _ (.inr ⟨"sub".toList, by decide⟩)

example : ∃ cfg, (overrideConfig exTestEnv (some [("rsr_dir", .leaf (.str "/data")), ("a", .map [("b", .leaf (.bool true))])])
      none (fun _ => do (pure () : Test XF Unit); readConfig exTestEnv) exTestState).1 = .ok cfg ∧
    valueAt (.map cfg) ["a", "b"] = some (some (.bool true)) := by
  obtain ⟨cfg, h, h2, -⟩ := C98_config_in_force exTestEnv
    [("rsr_dir", .leaf (.str "/data")), ("a", .map [("b", .leaf (.bool true))])] (pure ()) exTestState
    (exOutside.fresh _) (exOutside.yaml _ ((tree_iff _).2 ⟨by simp [Dict.WF], by
      intro k c hk
      have hk := get?_eq_some_mem hk
      rw [List.mem_cons, List.mem_singleton] at hk
      rcases hk with h | h <;> cases h
      · exact tree_leaf _
      · exact flat_tree (by simp [Dict.WF]) (by simp)⟩))
    (stringDirs_of_mem (by simp)) (fun s₁ h => ⟨s₁, rfl, h⟩)
  exact ⟨cfg, h, (h2 "a" ["b"] (by decide) (by decide)).trans rfl⟩

example : ∃ info, fakeRsrInfo ([] : Dict String XF) ("/data", getRsrFilename "NOAA-20" "viirs") = .ok info ∧
    info.platform_name = some "NOAA-20" := by
  obtain ⟨info, h, h1, -⟩ := C92_fake_file_partial ([] : Dict String XF) "/data" "NOAA-20" "viirs" (by decide) (by decide)
    bn_viirs (.inl (by decide +kernel))
  exact ⟨info, h, h1⟩

/-- a test under way, with a configuration file -/
def exConfigured : TestState XF :=
  ⟨⟨fun p => if p = ("/d", "pyspectral.yaml") then some (putConf (.map [("download_from_internet", .leaf (.bool false))])) else none,
    fun _ => false, []⟩, some "/d/pyspectral.yaml", none, false⟩

example : (forbidPyspectralDownloads ((Entry.downloadRsr none false).run exTestEnv) exConfigured).1 = .error .runtimeError := by
  apply C91_forbidden_raises
  obtain ⟨⟨rsr, hr⟩, ⟨ray, hl⟩⟩ := stringDirs_option exTestEnv.conf (options := [("download_from_internet", .leaf (.bool false))])
    (stringDirs_of_mem (by simp))
  obtain ⟨env, -, -, h⟩ := useConfig_run exTestEnv [("download_from_internet", .leaf (.bool false))] exConfigured
    ⟨"/d", ⟨[], 'd', by decide, by decide⟩, rfl, rfl⟩ (exOutside.yaml _ (flat_tree (by simp [Dict.WF]) (by simp)))
    rfl rsr ray hr hl (fun _ => (pure () : Eff Unit))
  rw [h]
  rfl

example (us : List Use) : (mockRsr exTestEnv none none false [] (useAll exTestEnv us) exTestState).2.world.requests = [] :=
  C91_mock_rsr exTestEnv exOutside none none [] us exTestState

example (us : List Use) : (mockRayleigh exTestEnv (some "~/luts") none (.flag false) none none (useAll exTestEnv us)
    exTestState).2.world.requests = [] :=
  C91_mock_rayleigh exTestEnv exOutside _ _ _ _ _ us exTestState

example (us : List Use) : (mockTbConversion exTestEnv none (some "rsr") (some "v0") [] (useAll exTestEnv us)
    exTestState).2.world.requests = [] :=
  C91_mock_tb_conversion exTestEnv exOutside _ _ _ _ us exTestState

example (us : List Use) : (mockPyspectralDownloads exTestEnv none [("rsr_dir", .leaf (.str "/x")), ("a", .map [])] none []
    (useAll exTestEnv us) exTestState).2.world.requests = [] := by
  refine C91_mock_pyspectral_downloads exTestEnv exOutside _ _ _ _ us exTestState ?_
  intro p hp
  simp only [List.mem_cons, List.not_mem_nil, or_false] at hp
  rcases hp with rfl | rfl
  · exact ⟨tree_leaf _, by decide, fun _ => ⟨_, rfl⟩⟩
  · exact ⟨(tree_iff []).2 ⟨List.nodup_nil, fun k c h => by cases h⟩, by decide, fun h => absurd h (by decide)⟩

example (us : List Use) : (mockRayleigh exTestEnv none none (.flag true) none none
    (usesThenTable exTestEnv us "NOAA-20" "viirs" "us-standard" "rural_aerosol") exTestState).1 = .ok (some "table".toList) :=
  C99_mock_rayleigh_temporary exTestEnv exOutside none (.flag true) rfl us _ _ _ _ "viirs" (by decide +kernel)
    (by decide +kernel) (by decide +kernel) exTestState (fun _ _ => rfl)

example (us : List Use) : ∃ r, (mockRsr exTestEnv none none false [("M09", .fin 1.4), ("I04", .fin 3.7)]
    (usesThenReader exTestEnv us "NOAA-20" "VIIRS") exTestState).1 = .ok r ∧
    IsFakeReader "NOAA-20" "viirs" bn_viirs [("M09", .fin 1.4), ("I04", .fin 3.7)] r :=
  C100_mock_rsr exTestEnv exOutside none none _ us "NOAA-20" "VIIRS" "viirs" (by decide +kernel) _
    (.inl (by decide +kernel)) exTestState

example : requestedWavelength bn_viirs [("I04", XF.fin 3.7), ("I4", XF.fin 3.8)] "I4" = some (.fin 3.8) ∧
    KnownNames bn_viirs [("I04", XF.fin 3.7), ("I4", XF.fin 3.8)] := by
  constructor
  · simp [requestedWavelength, standardName, Dict.get?, bn_viirs]
  · unfold KnownNames; decide +kernel

/-- tables and readers through the other mocks -/
example (us : List Use) : (mockRayleigh exTestEnv (some "/luts") none (.flag true) none none
    (usesThenTable exTestEnv us "NOAA-20" "viirs" "us-standard" "rural_aerosol") exTestState).1 = .ok (some "table".toList) :=
  C99_mock_rayleigh exTestEnv exOutside "/luts" none (.flag true) ⟨_, rfl⟩ rfl us _ _ _ _ "viirs" (by decide +kernel)
    (by decide +kernel) (by decide +kernel) exTestState

example (us : List Use) : ∃ c, (mockPyspectralDownloads exTestEnv none [] none []
    (usesThenTable exTestEnv us "NOAA-20" "viirs" "us-standard" "rural_aerosol") exTestState).1 = .ok (some c) :=
  C99_mock_pyspectral_downloads exTestEnv exOutside none none (by rintro d h; cases h) [] us _ _ _ _ "viirs"
    (by decide +kernel) (by decide +kernel) (by decide +kernel) exTestState

example (us : List Use) : ∃ r, (mockTbConversion exTestEnv none none none [("I04", .fin 3.7)]
    (usesThenReader exTestEnv us "NOAA-20" "VIIRS") exTestState).1 = .ok r ∧
    IsFakeReader "NOAA-20" "viirs" bn_viirs [("I04", .fin 3.7)] r :=
  C100_mock_tb_conversion exTestEnv exOutside none none none _ us "NOAA-20" "VIIRS" "viirs" (by decide +kernel) _
    (.inl (by decide +kernel)) exTestState

example (us : List Use) : ∃ r, (mockPyspectralDownloads exTestEnv none [] none [("I04", .fin 3.7)]
    (usesThenReader exTestEnv us "NOAA-20" "VIIRS") exTestState).1 = .ok r ∧
    IsFakeReader "NOAA-20" "viirs" bn_viirs [("I04", .fin 3.7)] r :=
  C100_mock_pyspectral_downloads exTestEnv exOutside none none _ us "NOAA-20" "VIIRS" "viirs" (by decide +kernel) _
    (.inl (by decide +kernel)) exTestState

example : ∃ c, checkAndAdjustInstrumentName "NOAA-19" "avhrr/3" = .ok c ∧ '_' ∉ c.toList :=
  (C92_known ("NOAA-19", .one "avhrr/3") (by decide +kernel) (by decide) "avhrr/3" (by decide +kernel)).2

end Verif.Props
