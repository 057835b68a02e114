import Verif.Model.ConcurrentDownload
import Verif.Props.Concurrent
import Verif.Props.Download
/-
C154: checking and downloading the spectral responses at the same time.
-/
namespace Verif.Props
open Model Spec Lemmas

/-! ### Running alone -/

theorem bind_assoc {σ β γ δ : Type} (P : Prog σ β) (f : β → Prog σ γ) (g : γ → Prog σ δ) :
    (P.bind f).bind g = P.bind fun a => (f a).bind g := by
  induction P with
  | done r => cases r <;> rfl
  | step n u ih =>
    show Prog.step (fun s => ((n s).bind f).bind g) u = Prog.step (fun s => (n s).bind fun a => (f a).bind g) u
    congr 1
    funext s
    exact ih s

theorem run_bind_ok {σ β γ : Type} {P : Prog σ β} {f : β → Prog σ γ} {s s' : σ} {a : β} (h : P.run s = (.ok a, s')) :
    (P.bind f).run s = (f a).run s' := by
  rw [run_bind, h]

theorem run_bind_error {σ β γ : Type} {P : Prog σ β} {f : β → Prog σ γ} {s s' : σ} {e : PyErr}
    (h : P.run s = (.error e, s')) : (P.bind f).run s = (.error e, s') := by
  rw [run_bind, h]

theorem run_onWorld {β : Type} (P : Prog World β) (s : Shared) :
    (onWorldP P).run s = ((P.run s.world).1, { s with world := (P.run s.world).2 }) := by
  induction P generalizing s with
  | done r => rfl
  | step n u ih => exact ih s.world { s with world := u s.world }

theorem run_getConfig (env : Env) (s : Shared) :
    (getConfigP env).run s = (.ok (), { s with world := configured env s.world }) := by
  unfold getConfigP
  rw [run_onWorld]
  rfl

theorem agrees_extractMember (dir : String) (m : String × Content) : Agrees (extractMemberP dir m) (extractMember dir m) := by
  unfold extractMemberP extractMember
  refine agrees_bind (agrees_makedirs dir) fun _ => ?_
  intro w
  by_cases hd : w.dirs dir = true
  · have h1 := openWrite_ok (p := (dir, m.1)) hd
    have h2 : (openWriteP (dir, m.1)).run w = (.ok (), w.setFile (dir, m.1) (some [])) := by
      rw [agrees_open _ w, h1]
    rw [run_bind_ok h2, eff_bind_ok h1]
    exact write_alone (dir, m.1) m.2 (w.setFile (dir, m.1) (some [])) [] (by simp [setFile_files])
  · have h1 := openWrite_missing (p := (dir, m.1)) (w := w) (by simpa using hd)
    have h2 : (openWriteP (dir, m.1)).run w = (.error .fileNotFound, w) := by
      rw [agrees_open _ w, h1]
    rw [run_bind_error h2, eff_bind_error h1]

theorem agrees_extractAll (dir : String) (ms : List (String × Content)) :
    Agrees (extractAllP dir ms) (Eff.forEach (extractMember dir) ms) := by
  induction ms with
  | nil => exact fun _ => rfl
  | cons m ms ih => exact agrees_bind (agrees_extractMember dir m) fun _ => ih

theorem run_extractAll (dir : String) (ms : List (String × Content)) (s : Shared) (hd : s.world.dirs dir = true) :
    (onWorldP (extractAllP dir ms)).run s = (.ok (), { s with world := extracted dir ms s.world }) := by
  obtain ⟨t, ht, -⟩ := extract_run dir ms s.world hd
  rw [run_onWorld, agrees_extractAll dir ms s.world, ht]

theorem shared_ext {a b : Shared} (h1 : a.world = b.world) (h2 : a.name = b.name) (h3 : a.data = b.data)
    (h4 : a.next = b.next) : a = b := by
  cases a; cases b; simp_all

theorem setData_self (s : Shared) (i : Nat) (c : Content) (h : s.data i = c) : s.setData i c = s := by
  refine shared_ext rfl rfl ?_ rfl
  funext j
  show (if j = i then c else s.data j) = s.data j
  split
  · rename_i hj; rw [hj, h]
  · rfl

theorem setData_setData (s : Shared) (i : Nat) (c d : Content) : (s.setData i c).setData i d = s.setData i d := by
  refine shared_ext rfl rfl ?_ rfl
  funext j
  show (if j = i then d else if j = i then c else s.data j) = if j = i then d else s.data j
  split <;> rfl

theorem setData_data (s : Shared) (i : Nat) (c : Content) : (s.setData i c).data i = c := by simp [Shared.setData]

theorem run_writeArchive (i : Nat) (data : Content) : ∀ (s : Shared) (c : Content), s.data i = c →
    (writeArchiveP i c.length data).run s = (.ok (), s.setData i (c ++ data)) := by
  induction data with
  | nil => intro s c h; rw [List.append_nil, setData_self s i c h]; rfl
  | cons b bs ih =>
    intro s c h
    show (writeArchiveP i (c.length + 1) bs).run (s.setData i (writeAt (s.data i) c.length b)) = _
    rw [h, writeAt_end]
    have := ih (s.setData i (c ++ [b])) (c ++ [b]) (setData_data _ _ _)
    rw [List.length_append, setData_setData] at this
    rw [show c.length + 1 = c.length + [b].length from rfl, this, List.append_assoc]
    rfl

theorem run_writeArchive0 (i : Nat) (data : Content) (s : Shared) (h : s.data i = []) :
    (writeArchiveP i 0 data).run s = (.ok (), s.setData i data) :=
  run_writeArchive i data s [] h

theorem run_readArchive (i : Nat) (s : Shared) (c : Content) (h : s.data i = c) :
    ∀ (n k : Nat) (acc : Content), c.length ≤ k + n → (readArchiveP i k n acc).run s = (.ok (acc ++ c.drop k), s) := by
  intro n
  induction n with
  | zero => intro k acc hk; simp [readArchiveP, Prog.run, List.drop_of_length_le (show c.length ≤ k by omega)]
  | succ n ih =>
    intro k acc hk
    show Prog.run (match (s.data i)[k]? with | some b => _ | none => _) s = _
    rw [h]
    by_cases hlt : k < c.length
    · rw [List.getElem?_eq_getElem hlt]
      simp only
      rw [ih (k + 1) (acc ++ [c[k]]) (by omega), List.drop_eq_getElem_cons hlt]
      simp
    · rw [List.getElem?_eq_none (by omega), List.drop_of_length_le (by omega), List.append_nil]
      rfl

theorem run_readAll (p : Path) (size i : Nat) (s : Shared) (h : s.name p = some i) :
    (readAllP p size).run s = (.ok (s.data i), s) := by
  show Prog.run (match s.name p with | none => .done (.error .fileNotFound) | some i => readArchiveP i 0 (max size (s.data i).length) []) s = _
  rw [h]
  simp only
  rw [run_readArchive i s _ rfl _ 0 [] (by omega)]
  simp

theorem run_openArchive (p : Path) (s : Shared) (hd : s.world.dirs p.1 = true) :
    (openArchiveP p).run s = (.ok (s.handle p), s.opened p) := by
  show Prog.run (if s.world.dirs p.1 = true then _ else _) (if s.world.dirs p.1 = true then _ else _) = _
  rw [if_pos hd, if_pos hd]
  rfl

theorem opened_name (s : Shared) (p : Path) : (s.opened p).name p = some (s.handle p) := by
  unfold Shared.opened Shared.handle
  cases h : s.name p with
  | none => simp [Shared.setName]
  | some i => simp [Shared.setData, h]

theorem opened_other (s : Shared) (p q : Path) (h : q ≠ p) : (s.opened p).name q = s.name q := by
  unfold Shared.opened
  cases s.name p with
  | none => simp [Shared.setName, Shared.setData, h]
  | some i => rfl

theorem opened_data (s : Shared) (p : Path) : (s.opened p).data (s.handle p) = [] := by
  unfold Shared.opened Shared.handle
  cases h : s.name p with
  | none => simp [Shared.setName, Shared.setData]
  | some i => simp [Shared.setData]

theorem opened_data_other (s : Shared) (p : Path) (j : Nat) (hj : j ≠ s.handle p) : (s.opened p).data j = s.data j := by
  unfold Shared.opened
  unfold Shared.handle at hj
  cases h : s.name p with
  | none => rw [h] at hj; simp at hj; simp [Shared.setName, Shared.setData, hj]
  | some i => rw [h] at hj; simp at hj; simp [Shared.setData, hj]

theorem opened_world (s : Shared) (p : Path) : (s.opened p).world = s.world := by
  unfold Shared.opened
  cases s.name p <;> rfl

/-- only the archive `p` is among the archives, and it is there under no other name -/
def Tidy (p : Path) (s : Shared) : Prop := (∀ q, q ≠ p → s.name q = none) ∧ s.world.files p = none

theorem view_files {p : Path} {s : Shared} (h : Tidy p s) (q : Path) :
    s.view.files q = if q = p then (s.name p).map s.data else s.world.files q := by
  unfold Shared.view
  dsimp only
  split_ifs with hq
  · subst hq
    cases hn : s.name q with
    | none => simp [h.2]
    | some i => rfl
  · rw [h.1 q hq]

/-- what a download that is answered does alone -/
theorem run_download (env : Env) (url : String) (nm dir : String) (s : Shared) (st : Nat) (chunks : List Content)
    (hs : env.server url = .answered st true chunks) (hst : ¬ (400 ≤ st ∧ st < 600)) (hd : s.world.dirs dir = true)
    (ht : Tidy (dir, nm) s) (hm : ∀ m ∈ (env.untar chunks.flatten).1, m.1 ≠ nm) :
    ∃ s', (downloadTarballP env url (dir, nm) dir).run s =
        ((downloadTarballAndExtract env url (dir, nm) dir s.view).1, s') ∧
      s'.view = (downloadTarballAndExtract env url (dir, nm) dir s.view).2.1 := by
  obtain ⟨t, hdl, -⟩ := download_run env url nm dir s.view st chunks hs hst hd
  set E := chunks.flatten with hE
  set s1 : Shared := { s with world := requested url s.world } with hs1
  set i := s1.handle (dir, nm) with hi
  have hd1 : s1.world.dirs dir = true := hd
  set s2 := (s1.opened (dir, nm)).setData i E with hs2
  have hw2 : s2.world = requested url s.world := opened_world s1 _
  have hn2 : s2.name (dir, nm) = some i := opened_name s1 _
  have hd2 : s2.data i = E := setData_data _ _ _
  have ho2 : ∀ q, q ≠ (dir, nm) → s2.name q = none := fun q hq => (opened_other s1 _ q hq).trans (ht.1 q hq)
  set s3 : Shared := { s2 with world := extracted dir (env.untar E).1 s2.world } with hs3
  have hf3 : s3.world.files (dir, nm) = none := by
    show (extracted dir (env.untar E).1 s2.world).files (dir, nm) = none
    rw [extracted_other dir _ _ (fun m hm' h => hm m hm' (Prod.mk.inj h).2.symm), hw2]
    exact ht.2
  have key : (downloadTarballP env url (dir, nm) dir).run s =
      ((if (env.untar E).2 then .ok () else .error .runtimeError),
        if (env.untar E).2 then s3.setName (dir, nm) none else s3) := by
    unfold downloadTarballP
    rw [run_bind_ok (P := Prog.act _) (s' := s1) (a := ()) rfl]
    simp only [hs, if_neg hst, not_true, if_false, ← hE]
    rw [run_bind_ok (run_openArchive (dir, nm) s1 hd1), ← hi]
    rw [run_bind_ok (run_writeArchive0 i E (s1.opened (dir, nm)) (opened_data s1 _))]
    rw [← hs2, run_bind_ok (run_readAll (dir, nm) E.length i s2 hn2), hd2]
    unfold unpackP
    rw [run_bind_ok (run_extractAll dir (env.untar E).1 s2 (by rw [hw2]; exact hd)), ← hs3]
    cases (env.untar E).2 with
    | false => rfl
    | true =>
      simp only [if_true]
      show Prog.run (match s3.name (dir, nm) with | some _ => .done (.ok ()) | none => .done (.error .fileNotFound)) _ = _
      rw [show s3.name (dir, nm) = some i from hn2]
      rfl
  rw [key, hdl]
  refine ⟨_, rfl, ?_⟩
  have hbase : ∀ q, q ≠ (dir, nm) → (extracted dir (env.untar E).1 s2.world).files q =
      (extracted dir (env.untar E).1 ((requested url s.view).setFile (dir, nm) (some E))).files q := by
    intro q hq
    refine extracted_congr dir _ _ _ q fun _ => ?_
    rw [hw2, setFile_files, if_neg hq]
    show s.world.files q = s.view.files q
    rw [view_files ht, if_neg hq]
  cases hok : (env.untar E).2 with
  | false =>
    simp only [if_false, Bool.false_eq_true]
    refine World.ext' ?_ ?_ ?_
    · funext q
      rw [view_files (p := (dir, nm)) (s := s3) ⟨ho2, hf3⟩]
      split_ifs with hq
      · subst hq
        rw [extracted_other dir _ _ (fun m hm' h => hm m hm' (Prod.mk.inj h).2.symm), setFile_files, if_pos rfl]
        show (s2.name (dir, nm)).map s2.data = _
        rw [hn2, Option.map_some, hd2]
      · exact hbase q hq
    · rw [extracted_dirs]
      show (extracted dir (env.untar E).1 s2.world).dirs = _
      rw [extracted_dirs, hw2]
      rfl
    · rw [extracted_requests]
      show (extracted dir (env.untar E).1 s2.world).requests = _
      rw [extracted_requests, hw2]
      rfl
  | true =>
    simp only [if_true]
    refine World.ext' ?_ ?_ ?_
    · funext q
      have ho3 : ∀ q, q ≠ (dir, nm) → (s3.setName (dir, nm) none).name q = none := by
        intro q hq
        show (if q = (dir, nm) then none else s3.name q) = none
        rw [if_neg hq]
        exact ho2 q hq
      rw [view_files (p := (dir, nm)) ⟨ho3, hf3⟩, setFile_files]
      split_ifs with hq
      · simp [Shared.setName]
      · exact hbase q hq
    · show (extracted dir (env.untar E).1 s2.world).dirs = (extracted dir (env.untar E).1 _).dirs
      rw [extracted_dirs, extracted_dirs, hw2]
      rfl
    · show (extracted dir (env.untar E).1 s2.world).requests = (extracted dir (env.untar E).1 _).requests
      rw [extracted_requests, extracted_requests, hw2]
      rfl

/-- what a download does alone if the connection is lost in the body -/
theorem run_download_broken (env : Env) (url : String) (nm dir : String) (s : Shared) (chunks : List Content) (e : PyErr)
    (hs : env.server url = .broken chunks e) (hd : s.world.dirs dir = true) (ht : Tidy (dir, nm) s) :
    ∃ s', (downloadTarballP env url (dir, nm) dir).run s =
        ((downloadTarballAndExtract env url (dir, nm) dir s.view).1, s') ∧
      s'.view = (downloadTarballAndExtract env url (dir, nm) dir s.view).2.1 := by
  obtain ⟨t, hdl, -⟩ := download_broken env url nm dir s.view chunks e hs hd
  set E := chunks.flatten with hE
  set s1 : Shared := { s with world := requested url s.world } with hs1
  set i := s1.handle (dir, nm) with hi
  have hd1 : s1.world.dirs dir = true := hd
  set s2 := (s1.opened (dir, nm)).setData i E with hs2
  have hw2 : s2.world = requested url s.world := opened_world s1 _
  have hn2 : s2.name (dir, nm) = some i := opened_name s1 _
  have hd2 : s2.data i = E := setData_data _ _ _
  have ho2 : ∀ q, q ≠ (dir, nm) → s2.name q = none := fun q hq => (opened_other s1 _ q hq).trans (ht.1 q hq)
  have hf2 : s2.world.files (dir, nm) = none := by rw [hw2]; exact ht.2
  have key : (downloadTarballP env url (dir, nm) dir).run s = (.error e, s2) := by
    unfold downloadTarballP
    rw [run_bind_ok (P := Prog.act _) (s' := s1) (a := ()) rfl]
    simp only [hs, ← hE]
    rw [run_bind_ok (run_openArchive (dir, nm) s1 hd1), ← hi]
    rw [run_bind_ok (run_writeArchive0 i E (s1.opened (dir, nm)) (opened_data s1 _))]
    rfl
  rw [key, hdl]
  refine ⟨_, rfl, World.ext' ?_ ?_ ?_⟩
  · funext q
    rw [view_files (p := (dir, nm)) (s := s2) ⟨ho2, hf2⟩, setFile_files]
    split_ifs with hq
    · rw [hn2, Option.map_some, hd2]
    · rw [hw2]
      show s.world.files q = s.view.files q
      rw [view_files ht, if_neg hq]
  · show s2.world.dirs = _
    rw [hw2]; rfl
  · show s2.world.requests = _
    rw [hw2]; rfl

/-- a request that is not answered, or with an error -/
theorem run_download_bad (env : Env) (url : String) (p : Path) (dir : String) (s : Shared) (v : World)
    (hbad : (∃ e, env.server url = .raises e) ∨
      ∃ st ok ch, env.server url = .answered st ok ch ∧ ((400 ≤ st ∧ st < 600) ∨ ok = false)) :
    (downloadTarballP env url p dir).run s =
        ((downloadTarballAndExtract env url p dir v).1, { s with world := requested url s.world }) ∧
      (downloadTarballAndExtract env url p dir v).2.1 = requested url v := by
  unfold downloadTarballP downloadTarballAndExtract
  have hstep : (Eff.step fun w => { w with requests := w.requests ++ [url] }) v =
    (.ok (), requested url v, [requested url v]) := rfl
  rw [run_bind_ok (P := Prog.act _) (s' := { s with world := requested url s.world }) (a := ()) rfl, eff_bind_ok hstep]
  rcases hbad with ⟨e, he⟩ | ⟨st, ok, ch, he, hbad⟩
  · simp only [he]
    exact ⟨rfl, rfl⟩
  · simp only [he]
    by_cases h4 : 400 ≤ st ∧ st < 600
    · simp only [if_pos h4]
      exact ⟨rfl, rfl⟩
    · have hok := hbad.resolve_left h4
      subst hok
      simp only [if_neg h4, Bool.false_eq_true, not_false_eq_true, if_true]
      exact ⟨rfl, rfl⟩

/-- C154: a process that runs alone does what the sequential model says, and leaves the same files. -/
theorem C154_alone (env : Env) (dry : Bool) (s : Shared) (ht : Tidy (env.cfg.rsr_dir, RSR_TARBALL) s)
    (hm : ∀ st ok chunks, env.server HTTP_PYSPECTRAL_RSR = .answered st ok chunks →
      ∀ m ∈ (env.untar chunks.flatten).1, m.1 ≠ RSR_TARBALL) :
    ∃ s', (checkUpdatesP env dry).run s = (((getConfig env >>= fun _ => downloadRsrUpdates env none dry) s.view).1, s') ∧
      s'.view = ((getConfig env >>= fun _ => downloadRsrUpdates env none dry) s.view).2.1 := by
  unfold checkUpdatesP
  rw [run_bind_ok (run_getConfig env s), eff_bind_ok (getConfig_run env s.view)]
  dsimp only
  set s1 : Shared := { s with world := configured env s.world } with hs1
  have ht1 : Tidy (env.cfg.rsr_dir, RSR_TARBALL) s1 := ht
  have hv : configured env s.view = s1.view := rfl
  rw [hv]
  show ∃ s', Prog.run (if rsrDataVersionUptodate env s1.view = true then _ else _) s1 = _ ∧ _
  by_cases hc : RsrCurrent env s1.view
  · rw [updates_current env _ hc, if_pos ((rsrUptodate_iff env _).2 hc)]
    exact ⟨s1, rfl, rfl⟩
  rw [if_neg (by rw [rsrUptodate_iff]; exact hc)]
  cases hdl : env.cfg.download_from_internet with
  | false =>
    have : downloadRsrUpdates env none dry s1.view = (.ok true, s1.view, []) := by
      unfold downloadRsrUpdates
      rw [eff_bind_ok (show Eff.get s1.view = (.ok s1.view, s1.view, []) from rfl)]
      simp only [rsrUptodate_false env _ hc, hdl, Bool.false_eq_true, if_false, not_false_eq_true, if_true]
      rfl
    rw [this]
    exact ⟨s1, rfl, rfl⟩
  | true =>
    rw [if_neg (by simp), updates_outdated env _ hc none dry hdl]
    unfold downloadRsrP
    cases dry with
    | true =>
      rw [eff_bind_ok (downloadRsr_dry env none s1.view), bind_assoc, run_bind_ok (run_getConfig env s1)]
      exact ⟨_, rfl, rfl⟩
    | false =>
      set s2 : Shared := { s1 with world := configured env s1.world } with hs2
      have hd : s2.world.dirs env.cfg.rsr_dir = true := configured_rsr_dir env s1.world
      rw [bind_assoc, run_bind_ok (run_getConfig env s1), ← hs2]
      have key : ∃ s', (downloadTarballP env HTTP_PYSPECTRAL_RSR (env.cfg.rsr_dir, RSR_TARBALL) env.cfg.rsr_dir).run s2 =
            ((downloadRsr env none false s1.view).1, s') ∧ s'.view = (downloadRsr env none false s1.view).2.1 := by
        rw [downloadRsr_wet]
        show ∃ s', _ = ((downloadTarballAndExtract env _ _ _ s2.view).1, s') ∧ _
        have hbad := run_download_bad env HTTP_PYSPECTRAL_RSR (env.cfg.rsr_dir, RSR_TARBALL) env.cfg.rsr_dir s2 s2.view
        cases hsv : env.server HTTP_PYSPECTRAL_RSR with
        | raises e =>
          obtain ⟨h1, h2⟩ := hbad (Or.inl ⟨e, hsv⟩)
          exact ⟨_, h1, h2.symm⟩
        | broken chunks e => exact run_download_broken env _ _ _ s2 chunks e hsv hd ht1
        | answered st ok chunks =>
          by_cases h4 : 400 ≤ st ∧ st < 600
          · obtain ⟨h1, h2⟩ := hbad (Or.inr ⟨st, ok, chunks, hsv, Or.inl h4⟩)
            exact ⟨_, h1, h2.symm⟩
          · cases ok with
            | false =>
              obtain ⟨h1, h2⟩ := hbad (Or.inr ⟨st, false, chunks, hsv, Or.inr rfl⟩)
              exact ⟨_, h1, h2.symm⟩
            | true => exact run_download env _ _ _ s2 st chunks hsv h4 hd ht1 (hm st true chunks hsv)
      obtain ⟨s', h1, h2⟩ := key
      rcases hr : downloadRsr env none false s1.view with ⟨r, w', t⟩
      rw [hr] at h1 h2
      cases r with
      | ok a =>
        rw [eff_bind_ok hr]
        simp only [Bool.false_eq_true, if_false]
        rw [run_bind_ok h1]
        exact ⟨s', rfl, h2⟩
      | error e =>
        rw [eff_bind_error hr]
        simp only [Bool.false_eq_true, if_false]
        rw [run_bind_error h1]
        exact ⟨s', rfl, h2⟩

/-! ### Nothing to do -/

/-- C154: with current data, any number of processes that check, in any order of their steps, find the
data current, request nothing and change no file. -/
theorem C154_current {ι : Type} [DecidableEq ι] (env : Env) (dry : ι → Bool) (s : Shared) (hc : RsrCurrent env s.view)
    (schedule : List ι) :
    (∀ i r, ((Prog.exec (fun i => checkUpdatesP env (dry i), s) schedule).1 i).result? = some r → r = .ok false) ∧
    (Prog.exec (fun i => checkUpdatesP env (dry i), s) schedule).2.view.files = s.view.files ∧
    (Prog.exec (fun i => checkUpdatesP env (dry i), s) schedule).2.view.requests = s.view.requests := by
  have key : ∀ i, Stays (fun v : Shared => v.view.files = s.view.files ∧ v.view.requests = s.view.requests)
      (fun r => r = .ok false) (checkUpdatesP env (dry i)) := by
    intro i v hv
    refine ⟨hv, fun v hv => ⟨hv, fun v hv => ⟨hv, ?_⟩⟩⟩
    have hcv : RsrCurrent env v.view := by
      obtain ⟨c, h1, h2⟩ := hc
      exact ⟨c, by rw [hv.1]; exact h1, h2⟩
    dsimp only
    rw [if_pos ((rsrUptodate_iff env _).2 hcv)]
    rfl
  obtain ⟨h1, h2⟩ := exec_stays _ (fun _ r => r = .ok false) _ s ⟨rfl, rfl⟩ key schedule
  refine ⟨fun i r hr => ?_, h1⟩
  have := h2 i
  cases hP : (Prog.exec (fun i => checkUpdatesP env (dry i), s) schedule).1 i with
  | done r' =>
    rw [hP] at hr this
    cases hr
    exact this
  | step n u => rw [hP] at hr; cases hr

/-! ### All succeed -/

/-- what all steps keep: there is nothing in the archives but parts of `A`, and only `p` names one -/
def ArchivesOk (p : Path) (A : Content) (s : Shared) : Prop := (∀ i, Mangled A (s.data i)) ∧ ∀ q, q ≠ p → s.name q = none

/-- the rules for a member `f` of the archive `p` -/
def memberRules (p f : Path) (v0 : Option Content) (A E : Content) : Rules Shared :=
  ⟨fun s => s.world.files f, v0, E, ArchivesOk p A, True⟩

theorem obeys_onWorld {β : Type} {p f : Path} {v0 : Option Content} {A E : Content} {R : Bool → Py β → Prop} {t : Bool}
    {m : Option Nat} {P : Prog World β} (h : Obeys (fileRules f v0 E) R t m P) :
    Obeys (memberRules p f v0 A E) R t m (onWorldP P) := by
  have hw : ∀ s : Shared, (memberRules p f v0 A E).holds s → (fileRules f v0 E).holds s.world :=
    fun s hs => ⟨trivial, hs.2⟩
  induction h with
  | done h => exact .done h
  | step t' m hu _ ih =>
    exact .step (fun s => t' s.world) (fun s => m s.world) (fun s hs => ⟨hs.1, (hu s.world (hw s hs)).2⟩)
      fun s hs => ih s.world (hw s hs)
  | write hb hu _ ih =>
    exact .write (q := memberRules p f v0 A E) hb (fun s hs => ⟨hs.1, (hu s.world (hw s hs)).2⟩)
      fun s hs => ih s.world (hw s hs)
  | wrote _ ih => exact .wrote (q := memberRules p f v0 A E) ih
  | fails hd _ => exact hd.elim

theorem leaves_onWorld {β : Type} {p f : Path} {A : Content} {P : Prog World β} (h : LeavesFile f P) :
    Leaves (ArchivesOk p A) (fun s : Shared => s.world.files f) (onWorldP P) := by
  induction P with
  | done r => trivial
  | step n u ih => exact fun s hs => ⟨hs, (h s.world trivial).2.1, ih s.world (h s.world trivial).2.2⟩

theorem leaves_makedirs (f : Path) (d : String) : LeavesFile f (makedirsP d) := fun _ _ => ⟨trivial, rfl, trivial⟩

theorem leaves_extractAll (dir n : String) (ms : List (String × Content)) (h : ∀ m ∈ ms, m.1 ≠ n) :
    LeavesFile (dir, n) (extractAllP dir ms) := by
  induction ms with
  | nil => trivial
  | cons m ms ih =>
    have hne : ((dir, n) : Path) ≠ (dir, m.1) := fun he => h m (by simp) (Prod.mk.inj he).2.symm
    exact leaves_bind (leaves_bind (leaves_makedirs _ _) fun _ => leaves_bind (leaves_open hne) fun _ => leaves_write hne _ _)
      fun _ => ih fun m' hm' => h m' (by simp [hm'])

/-- unpacking all members opens the file and writes its content -/
theorem obeys_extractAll (dir n : String) (c : Content) (v0 : Option Content) (ms : List (String × Content)) :
    (ms.map Prod.fst).Nodup → (n, c) ∈ ms → ∀ t,
    Obeys (fileRules (dir, n) v0 c) (fun t r => ∀ a, r = .ok a → t = true) t none (extractAllP dir ms) := by
  induction ms with
  | nil => intro _ h; cases h
  | cons m ms ih =>
    intro hnd hmem t
    rw [List.map_cons, List.nodup_cons] at hnd
    unfold extractAllP
    rcases List.mem_cons.1 hmem with rfl | hmem
    · refine obeys_bind (R' := fun t r => ∀ a, r = .ok a → t = true) ?_ ?_ (fun t e _ a h => by cases h)
      · refine obeys_bind (R' := fun _ _ => True) (obeys_leaves (fun _ => trivial) _ (leaves_makedirs _ _)) ?_
          (fun _ _ _ a h => by cases h)
        intro t _ _
        refine obeys_open _ ?_ (fun _ _ a h => by cases h)
        exact obeys_weaken (obeys_true (obeys_write _ 0 (by simp) (by simp)) rfl) (fun t r h a _ => h.1)
      · intro t a ht
        have : t = true := ht a rfl
        subst this
        exact obeys_leaves (fun _ _ _ => rfl) _ (leaves_extractAll dir n ms fun m hm he =>
          hnd.1 (List.mem_map.2 ⟨m, hm, he⟩))
    · have hne : m.1 ≠ n := fun he => hnd.1 (List.mem_map.2 ⟨(n, c), hmem, he.symm⟩)
      have hne' : ((dir, n) : Path) ≠ (dir, m.1) := fun he => hne (Prod.mk.inj he).2.symm
      refine obeys_bind (R' := fun _ _ => True) (obeys_leaves (fun _ => trivial) _ ?_) (fun t _ _ => ih hnd.2 hmem t)
        (fun _ _ _ a h => by cases h)
      exact leaves_bind (leaves_makedirs _ _) fun _ => leaves_bind (leaves_open hne') fun _ => leaves_write hne' _ _

theorem leaves_openArchive (p f : Path) (A : Content) :
    Leaves (ArchivesOk p A) (fun s : Shared => s.world.files f) (openArchiveP p) := by
  intro s hs
  by_cases hd : s.world.dirs p.1 = true
  · dsimp only
    rw [if_pos hd, if_pos hd]
    refine ⟨⟨fun i => ?_, fun q hq => ?_⟩, by rw [opened_world], trivial⟩
    · by_cases hi : i = s.handle p
      · rw [hi, opened_data]; exact mangled_nil A
      · rw [opened_data_other s p i hi]; exact hs.1 i
    · rw [opened_other s p q hq]; exact hs.2 q hq
  · dsimp only
    rw [if_neg hd, if_neg hd]
    exact ⟨hs, rfl, trivial⟩

theorem leaves_writeArchive (p f : Path) (A : Content) (i : Nat) (data : Content) : ∀ k, A = A.take k ++ data → k ≤ A.length →
    Leaves (ArchivesOk p A) (fun s : Shared => s.world.files f) (writeArchiveP i k data) := by
  induction data with
  | nil => intro k _ _; trivial
  | cons b bs ih =>
    intro k h hk
    have hkl : (A.take k).length = k := by simp [hk]
    have hb : A[k]? = some b := by
      rw [h, List.getElem?_append_right (by omega), hkl]; simp
    have hlt : k < A.length := (List.getElem?_eq_some_iff.1 hb).1
    intro s hs
    refine ⟨⟨fun j => ?_, hs.2⟩, rfl, ih (k + 1) ?_ hlt⟩
    · show Mangled A (if j = i then _ else _)
      split
      · exact mangled_writeAt (hs.1 i) hb
      · exact hs.1 j
    · rw [List.take_add_one, hb]
      simpa using h

theorem obeys_readArchive (p f : Path) (v0 : Option Content) (A E : Content) (i : Nat) (t : Bool) (n : Nat) :
    ∀ acc, Mangled A acc → Obeys (memberRules p f v0 A E) (fun t' (r : Py Content) => t' = t ∧ ∀ x, r = .ok x → Mangled A x)
      t none (readArchiveP i acc.length n acc) := by
  induction n with
  | zero => intro acc h; exact .done ⟨rfl, fun x hx => by cases hx; exact h⟩
  | succ n ih =>
    intro acc h
    unfold readArchiveP
    refine obeys_look fun s hs => ?_
    have hm := hs.1.1 i
    cases hb : (s.data i)[acc.length]? with
    | none => exact .done ⟨rfl, fun x hx => by cases hx; exact h⟩
    | some b =>
      have hl : acc.length < (s.data i).length := (List.getElem?_eq_some_iff.1 hb).1
      have := ih (acc ++ [b]) (mangled_append h (by have := hm.1; omega) (hm.2 _ _ hb))
      rw [List.length_append] at this
      exact this

theorem obeys_readAll (p f : Path) (v0 : Option Content) (A E : Content) (t : Bool) (size : Nat) :
    Obeys (memberRules p f v0 A E) (fun t' (r : Py Content) => t' = t ∧ ∀ x, r = .ok x → Mangled A x) t none
      (readAllP p size) := by
  unfold readAllP
  refine obeys_look fun s _ => ?_
  cases s.name p with
  | none => exact .done ⟨rfl, fun x hx => by cases hx⟩
  | some i => exact obeys_readArchive p f v0 A E i t _ [] (mangled_nil A)

theorem leaves_remove (p f : Path) (A : Content) :
    Leaves (ArchivesOk p A) (fun s : Shared => s.world.files f) (removeP p) := by
  intro s hs
  refine ⟨⟨hs.1, fun q hq => ?_⟩, rfl, ?_⟩
  · show (if q = p then none else s.name q) = none
    rw [if_neg hq]; exact hs.2 q hq
  · dsimp only
    split <;> trivial

theorem fails_unpack (dir : String) (p : Path) (u : List (String × Content) × Bool) (h : u.2 = false) :
    Fails (unpackP dir p u) := by
  unfold unpackP
  refine fails_bind fun _ => ?_
  rw [h]
  exact ⟨_, rfl⟩

/-- an answered download, seen from one member of the archive -/
theorem obeys_download (env : Env) (url : String) (dir nm : String) (chunks : List Content)
    (hu : Usable (env.server url) chunks) (M : List (String × Content)) (hnd : (M.map Prod.fst).Nodup)
    (hcrc : ∀ x, Mangled chunks.flatten x → (env.untar x).2 = true → (env.untar x).1 = M)
    (n : String) (c : Content) (hmem : (n, c) ∈ M) (v0 : Option Content) (t : Bool) :
    Obeys (memberRules (dir, nm) (dir, n) v0 chunks.flatten c) (fun t r => ∀ a, r = .ok a → t = true) t none
      (downloadTarballP env url (dir, nm) dir) := by
  obtain ⟨st, hs, hst⟩ := hu
  unfold downloadTarballP
  refine obeys_bind (R' := fun t' _ => True)
    (obeys_act trivial (fun s h => h) (fun s => rfl)) ?_ (fun _ _ _ a h => by cases h)
  intro t _ _
  simp only [hs, if_neg hst, not_true, if_false]
  refine obeys_bind (R' := fun _ _ => True) (obeys_leaves (fun _ => trivial) _ (leaves_openArchive _ _ _)) ?_
    (fun _ _ _ a h => by cases h)
  intro t i _
  refine obeys_bind (R' := fun _ _ => True) (obeys_leaves (fun _ => trivial) _
    (leaves_writeArchive _ _ _ i _ 0 (by simp) (by simp))) ?_ (fun _ _ _ a h => by cases h)
  intro t _ _
  refine obeys_bind (obeys_readAll _ _ v0 _ c t _) ?_ (fun _ _ _ a h => by cases h)
  rintro t' x ⟨rfl, hx⟩
  cases hok : (env.untar x).2 with
  | false => exact .fails trivial (fails_unpack _ _ _ hok)
  | true =>
    unfold unpackP
    rw [hcrc x (hx x rfl) hok, hok]
    refine obeys_bind (obeys_onWorld (obeys_extractAll dir n c v0 M hnd hmem t')) ?_ (fun _ _ _ a h => by cases h)
    intro t a ht
    have : t = true := ht a rfl
    subst this
    exact obeys_leaves (fun _ _ _ => rfl) _ (leaves_remove _ _ _)

theorem obeys_check (env : Env) (dry : Bool) (chunks : List Content) (hdl : env.cfg.download_from_internet = true)
    (hu : Usable (env.server HTTP_PYSPECTRAL_RSR) chunks) (M : List (String × Content)) (hnd : (M.map Prod.fst).Nodup)
    (hcrc : ∀ x, Mangled chunks.flatten x → (env.untar x).2 = true → (env.untar x).1 = M)
    (n : String) (c : Content) (hmem : (n, c) ∈ M) (v0 : Option Content) :
    Obeys (memberRules (env.cfg.rsr_dir, RSR_TARBALL) (env.cfg.rsr_dir, n) v0 chunks.flatten c)
      (fun t r => dry = false → r = .ok true → t = true) false none (checkUpdatesP env dry) := by
  have hcfg : ∀ f : Path, Leaves (ArchivesOk (env.cfg.rsr_dir, RSR_TARBALL) chunks.flatten)
      (fun s : Shared => s.world.files f) (getConfigP env) :=
    fun f => leaves_onWorld (leaves_bind (leaves_makedirs _ _) fun _ => leaves_makedirs _ _)
  unfold checkUpdatesP
  refine obeys_bind (R' := fun _ _ => True) (obeys_leaves (fun _ => trivial) _ (hcfg _)) ?_ (fun _ _ _ _ h => by cases h)
  intro t _ _
  unfold downloadRsrUpdatesP
  refine obeys_look fun s _ => ?_
  split_ifs with h1
  · exact .done fun _ h => by cases h
  · unfold downloadRsrP
    rw [bind_assoc]
    refine obeys_bind (R' := fun _ _ => True) (obeys_leaves (fun _ => trivial) _ (hcfg _)) ?_ (fun _ _ _ _ h => by cases h)
    intro t _ _
    cases dry with
    | true => exact .done fun h => by cases h
    | false =>
      refine obeys_bind (obeys_download env _ _ _ chunks hu M hnd hcrc n c hmem v0 t) ?_ (fun _ _ _ _ h => by cases h)
      intro t a ht
      exact .done fun _ _ => ht a rfl

/-- C154, the part that holds: any number of processes check at the same time, in any order of their steps.
If all of them finish without an exception, and one of them found the data out of date (and was not
called for a dry run), then all members of the archive are there, complete. -/
theorem C154_all_succeed_partial {ι : Type} [DecidableEq ι] (env : Env) (dry : ι → Bool) (chunks : List Content)
    (hdl : env.cfg.download_from_internet = true) (hu : Usable (env.server HTTP_PYSPECTRAL_RSR) chunks)
    (M : List (String × Content)) (hnd : (M.map Prod.fst).Nodup) (hnm : ∀ m ∈ M, m.1 ≠ RSR_TARBALL)
    (hcrc : ∀ x, Mangled chunks.flatten x → (env.untar x).2 = true → (env.untar x).1 = M)
    (s : Shared) (hs : ∀ i, Mangled chunks.flatten (s.data i)) (hn : ∀ q, q ≠ (env.cfg.rsr_dir, RSR_TARBALL) → s.name q = none)
    (schedule : List ι) (s' : Shared) (hs' : s' = (Prog.exec (fun i => checkUpdatesP env (dry i), s) schedule).2)
    (hall : ∀ i, ∃ b, ((Prog.exec (fun i => checkUpdatesP env (dry i), s) schedule).1 i).result? = some (.ok b))
    (hone : ∃ i, dry i = false ∧ ((Prog.exec (fun i => checkUpdatesP env (dry i), s) schedule).1 i).result? = some (.ok true)) :
    Installed M env.cfg.rsr_dir s'.view ∧
    (∀ c, ("PYSPECTRAL_RSR_VERSION", c) ∈ M → FirstLineIs c "v1.6.1".toList → RsrCurrent env s'.view) := by
  have hdone : ∀ (P : Prog Shared Bool) r, P.result? = some r → P = .done r := by
    intro P r h
    cases P with
    | done r' => simp only [Prog.result?, Option.some.injEq] at h; rw [h]
    | step n u => cases h
  have key : ∀ m ∈ M, s'.view.files (env.cfg.rsr_dir, m.1) = some m.2 := by
    intro m hm
    rcases orderly_exec (q := memberRules (env.cfg.rsr_dir, RSR_TARBALL) (env.cfg.rsr_dir, m.1)
        (s.world.files (env.cfg.rsr_dir, m.1)) chunks.flatten m.2) (fun i => checkUpdatesP env (dry i)) s ⟨hs, hn⟩ (Or.inl rfl)
        (fun i => obeys_check env (dry i) chunks hdl hu M hnd hcrc m.1 m.2 hm _) schedule with ⟨-, i, hf⟩ | ⟨hI, t, h2, h3⟩
    · obtain ⟨b, hb⟩ := hall i
      rw [hdone _ _ hb] at hf
      obtain ⟨e, he⟩ := hf
      cases he
    · have hfin := h3 (fun i => by obtain ⟨b, hb⟩ := hall i; exact ⟨_, hdone _ _ hb⟩)
      have hv : s'.view.files (env.cfg.rsr_dir, m.1) = s'.world.files (env.cfg.rsr_dir, m.1) := by
        unfold Shared.view
        dsimp only
        rw [hs', hI.2 _ (fun h => hnm m hm (Prod.mk.inj h).2)]
      rw [hv, hs']
      rcases hfin with ⟨-, hno⟩ | hfin
      · obtain ⟨i, hdi, hi⟩ := hone
        rcases h2 i _ (hdone _ _ hi) with ⟨-, e, he⟩ | h
        · cases he
        · have := h hdi rfl
          rw [hno i] at this
          cases this
      · exact hfin
  refine ⟨?_, ?_⟩
  · rintro before name content after rfl -
    exact key (name, content) (by simp)
  · intro c hc hfl
    exact ⟨c, key _ hc, hfl⟩

/-! ### Processes in each other's way -/

/-- what is left to do after the archive was written -/
def readStage (env : Env) (A : Content) : Prog Shared Bool :=
  (readAllP (env.cfg.rsr_dir, RSR_TARBALL) A.length).bind fun x =>
    (unpackP env.cfg.rsr_dir (env.cfg.rsr_dir, RSR_TARBALL) (env.untar x)).bind fun _ => .done (.ok true)

/-- what is left to do after the request was answered -/
def answeredStage (env : Env) (A : Content) : Prog Shared Bool :=
  (openArchiveP (env.cfg.rsr_dir, RSR_TARBALL)).bind fun i => (writeArchiveP i 0 A).bind fun _ => readStage env A

/-- the shared files after one process has asked -/
def asked (env : Env) (s : Shared) : Shared := { s with world := requested HTTP_PYSPECTRAL_RSR (configured env s.world) }

variable {ι : Type} [DecidableEq ι]

theorem reaches_answered (env : Env) (hdl : env.cfg.download_from_internet = true) (chunks : List Content)
    (hu : Usable (env.server HTTP_PYSPECTRAL_RSR) chunks) (i : ι) (P : ι → Prog Shared Bool) (s : Shared)
    (hP : P i = checkUpdatesP env false) (hc : ¬ RsrCurrent env s.view) :
    Reaches (P, s) (Function.update P i (answeredStage env chunks.flatten), asked env s) := by
  obtain ⟨st, hsv, hst⟩ := hu
  set s1 : Shared := { s with world := configured env s.world } with hs1
  have h1 := reaches_bind i P s s1 (getConfigP env) (fun _ => downloadRsrUpdatesP env false) () hP (run_getConfig env s)
  refine reaches_trans h1 ?_
  have hc1 : ¬ RsrCurrent env s1.view := hc
  have h2 := reaches_step i (Function.update P i (downloadRsrUpdatesP env false)) s1 _ _ (by
    rw [Function.update_self]; rfl)
  rw [Function.update_idem, if_neg (by rw [rsrUptodate_iff]; exact hc1), if_neg (by simp [hdl])] at h2
  refine reaches_trans h2 ?_
  have h3 := reaches_bind i (Function.update P i ((downloadRsrP env false).bind fun _ => .done (.ok true))) s1 s1
    (getConfigP env) (fun _ => (downloadTarballP env HTTP_PYSPECTRAL_RSR (env.cfg.rsr_dir, RSR_TARBALL)
      env.cfg.rsr_dir).bind fun _ => .done (.ok true)) () (by
      rw [Function.update_self]
      unfold downloadRsrP
      rw [bind_assoc]
      rfl) (by
      rw [run_getConfig]
      simp only [hs1, configured_twice])
  rw [Function.update_idem] at h3
  refine reaches_trans h3 ?_
  have h4 := reaches_bind i (Function.update P i ((downloadTarballP env HTTP_PYSPECTRAL_RSR
    (env.cfg.rsr_dir, RSR_TARBALL) env.cfg.rsr_dir).bind fun _ => .done (.ok true))) s1 (asked env s)
    (Prog.act fun s : Shared => { s with world := { s.world with requests := s.world.requests ++ [HTTP_PYSPECTRAL_RSR] } })
    (fun _ => answeredStage env chunks.flatten) () (by
      rw [Function.update_self]
      unfold downloadTarballP answeredStage readStage
      simp only [hsv, if_neg hst, not_true, if_false, bind_assoc]) rfl
  rw [Function.update_idem] at h4
  exact h4

/-- process `i` opens the archive and writes it -/
theorem reaches_written (env : Env) (A : Content) (i : ι) (P : ι → Prog Shared Bool) (s : Shared)
    (hP : P i = answeredStage env A) (hd : s.world.dirs env.cfg.rsr_dir = true) :
    Reaches (P, s) (Function.update P i (readStage env A),
      (s.opened (env.cfg.rsr_dir, RSR_TARBALL)).setData (s.handle (env.cfg.rsr_dir, RSR_TARBALL)) A) := by
  have h1 := reaches_bind i P s _ _ _ _ hP (run_openArchive (env.cfg.rsr_dir, RSR_TARBALL) s hd)
  refine reaches_trans h1 ?_
  have h2 := reaches_bind i (Function.update P i ((writeArchiveP (s.handle (env.cfg.rsr_dir, RSR_TARBALL)) 0 A).bind
    fun _ => readStage env A)) _ _ _ (fun _ => readStage env A) () (by rw [Function.update_self])
    (run_writeArchive0 _ A (s.opened (env.cfg.rsr_dir, RSR_TARBALL)) (opened_data s _))
  rw [Function.update_idem] at h2
  exact h2

/-- what is left to do after the members were written -/
def removeStage (env : Env) : Prog Shared Bool :=
  (removeP (env.cfg.rsr_dir, RSR_TARBALL)).bind fun _ => .done (.ok true)

/-- process `i` reads the archive and writes the members -/
theorem reaches_unpacked (env : Env) (A : Content) (M : List (String × Content)) (hM : env.untar A = (M, true)) (i : ι)
    (P : ι → Prog Shared Bool) (s : Shared) (hP : P i = readStage env A) (k : Nat)
    (hn : s.name (env.cfg.rsr_dir, RSR_TARBALL) = some k) (hk : s.data k = A) (hd : s.world.dirs env.cfg.rsr_dir = true) :
    Reaches (P, s) (Function.update P i (removeStage env), { s with world := extracted env.cfg.rsr_dir M s.world }) := by
  have h1 := reaches_bind i P s _ _ _ _ hP (run_readAll _ A.length k s hn)
  refine reaches_trans h1 ?_
  rw [hk, hM]
  have h2 := reaches_bind i (Function.update P i ((unpackP env.cfg.rsr_dir (env.cfg.rsr_dir, RSR_TARBALL) (M, true)).bind
    fun _ => .done (.ok true))) s _ (onWorldP (extractAllP env.cfg.rsr_dir M)) (fun _ => removeStage env) () (by
      rw [Function.update_self]
      unfold unpackP removeStage
      rw [bind_assoc]
      rfl) (run_extractAll _ M s hd)
  rw [Function.update_idem] at h2
  exact h2

/-- C154 is false of the code: of two processes that find the data out of date at the same time, one can
fail because the other one removes the archive. -/
theorem C154_race (env : Env) (hdl : env.cfg.download_from_internet = true) (chunks : List Content)
    (hu : Usable (env.server HTTP_PYSPECTRAL_RSR) chunks) (M : List (String × Content))
    (hM : env.untar chunks.flatten = (M, true)) (s : Shared) (hc : ¬ RsrCurrent env s.view) :
    ∃ schedule : List Bool,
      ((Prog.exec (fun _ => checkUpdatesP env false, s) schedule).1 false).result? = some (.ok true) ∧
      ((Prog.exec (fun _ => checkUpdatesP env false, s) schedule).1 true).result? = some (.error .fileNotFound) := by
  set A := chunks.flatten with hA
  set p : Path := (env.cfg.rsr_dir, RSR_TARBALL) with hp
  have hc1 : ¬ RsrCurrent env (asked env s).view := hc
  have h1 := reaches_answered env hdl chunks hu false (fun _ => checkUpdatesP env false) s rfl hc
  have h2 := reaches_answered env hdl chunks hu true
    (Function.update (fun _ => checkUpdatesP env false) false (answeredStage env A)) (asked env s) (by simp) hc1
  set s2 := asked env (asked env s) with hs2
  have hd2 : s2.world.dirs env.cfg.rsr_dir = true := configured_rsr_dir env _
  set P2 := Function.update (Function.update (fun _ : Bool => checkUpdatesP env false) false (answeredStage env A)) true
    (answeredStage env A) with hP2
  have h3 := reaches_written env A false P2 s2 (by simp [hP2]) hd2
  set s3 := (s2.opened p).setData (s2.handle p) A with hs3
  have hw3 : s3.world = s2.world := opened_world s2 p
  have hn3 : s3.name p = some (s2.handle p) := opened_name s2 p
  have h4 := reaches_unpacked env A M hM false (Function.update P2 false (readStage env A)) s3 (by simp) _ hn3
    (setData_data _ _ _) (by rw [hw3]; exact hd2)
  rw [Function.update_idem] at h4
  set s4 : Shared := { s3 with world := extracted env.cfg.rsr_dir M s3.world } with hs4
  have hd4 : s4.world.dirs env.cfg.rsr_dir = true := by
    show (extracted env.cfg.rsr_dir M s3.world).dirs _ = true
    rw [extracted_dirs, hw3]; exact hd2
  have h5 := reaches_written env A true (Function.update P2 false (removeStage env)) s4 (by simp [hP2]) hd4
  set s5 := (s4.opened p).setData (s4.handle p) A with hs5
  have hn5 : s5.name p = some (s4.handle p) := opened_name s4 p
  set P5 := Function.update (Function.update P2 false (removeStage env)) true (readStage env A) with hP5
  have h6 := reaches_run false P5 s5 (s5.setName p none) (.ok true) (by
    rw [show P5 false = removeStage env by simp [hP5]]
    unfold removeStage
    rw [run_bind_ok (a := ()) (s' := s5.setName p none)]
    · rfl
    · show Prog.run (match s5.name p with | some _ => .done (.ok ()) | none => .done (.error .fileNotFound)) _ = _
      rw [hn5]; rfl)
  have hn6 : (s5.setName p none).name p = none := by simp [Shared.setName]
  have h7 := reaches_run true (Function.update P5 false (.done (.ok true))) (s5.setName p none) (s5.setName p none)
    (.error .fileNotFound) (by
      rw [show Function.update P5 false (.done (.ok true)) true = readStage env A by simp [hP5]]
      unfold readStage
      refine run_bind_error ?_
      show Prog.run (match (s5.setName p none).name p with | none => _ | some i => _) _ = _
      rw [hn6]; rfl)
  obtain ⟨schedule, hsch⟩ := reaches_trans h1 (reaches_trans h2 (reaches_trans h3 (reaches_trans h4 (reaches_trans h5
    (reaches_trans h6 h7)))))
  refine ⟨schedule, ?_, ?_⟩
  · rw [hsch]; simp [Prog.result?]
  · rw [hsch]; simp [Prog.result?]

/-- process `i` reads `k` bytes -/
theorem reaches_reading (env : Env) (A : Content) (i : ι) (P : ι → Prog Shared Bool) (s : Shared)
    (hP : P i = readStage env A) (j : Nat) (hn : s.name (env.cfg.rsr_dir, RSR_TARBALL) = some j) (hj : s.data j = A)
    (k : Nat) (hk : k ≤ A.length) :
    Reaches (P, s) (Function.update P i ((readArchiveP j k (A.length - k) (A.take k)).bind fun x =>
      (unpackP env.cfg.rsr_dir (env.cfg.rsr_dir, RSR_TARBALL) (env.untar x)).bind fun _ => .done (.ok true)), s) := by
  induction k with
  | zero =>
    have h := reaches_step i P s _ _ (by rw [hP]; rfl)
    dsimp only at h
    rw [hn] at h
    simp only [hj, max_self] at h
    exact h
  | succ k ih =>
    refine reaches_trans (ih (by omega)) ?_
    have hlt : k < A.length := by omega
    obtain ⟨n, hn'⟩ : ∃ n, A.length - k = n + 1 := ⟨A.length - k - 1, by omega⟩
    rw [hn']
    have h := reaches_step i (Function.update P i ((readArchiveP j k (n + 1) (A.take k)).bind fun x =>
      (unpackP env.cfg.rsr_dir (env.cfg.rsr_dir, RSR_TARBALL) (env.untar x)).bind fun _ => .done (.ok true))) s _ _ (by
        rw [Function.update_self]; rfl)
    dsimp only at h
    rw [Function.update_idem, hj, List.getElem?_eq_getElem hlt] at h
    have e : A.take (k + 1) = A.take k ++ [A[k]] := by
      rw [List.take_add_one, List.getElem?_eq_getElem hlt]; rfl
    rw [e, show A.length - (k + 1) = n by omega]
    exact h

/-- C154 is false of the code in a worse way: with three processes, one of which succeeds, the data can
be left marked as current although a file is cut off, and no later check repairs it. -/
theorem C154_marked_incomplete (env : Env) (hdl : env.cfg.download_from_internet = true) (chunks : List Content)
    (hu : Usable (env.server HTTP_PYSPECTRAL_RSR) chunks) (M : List (String × Content))
    (hM : env.untar chunks.flatten = (M, true)) (hnd : (M.map Prod.fst).Nodup) (v : Content)
    (hv : ("PYSPECTRAL_RSR_VERSION", v) ∈ M) (hfl : FirstLineIs v "v1.6.1".toList)
    (k : Nat) (ms : List (String × Content)) (n : String) (c c' : Content)
    (hk : env.untar (chunks.flatten.take k) = (ms ++ [(n, c')], false)) (hn : (n, c) ∈ M) (hcc : c' ≠ c)
    (hms : ∀ m ∈ ms ++ [(n, c')], m.1 ≠ "PYSPECTRAL_RSR_VERSION" ∧ m.1 ≠ RSR_TARBALL) (hnm : ∀ m ∈ M, m.1 ≠ RSR_TARBALL)
    (s : Shared) (ht : Tidy (env.cfg.rsr_dir, RSR_TARBALL) s) (hc : ¬ RsrCurrent env s.view) :
    ∃ (schedule : List (Fin 3)) (s' : Shared), s' = (Prog.exec (fun _ => checkUpdatesP env false, s) schedule).2 ∧
      ((Prog.exec (fun _ => checkUpdatesP env false, s) schedule).1 0).result? = some (.error .runtimeError) ∧
      ((Prog.exec (fun _ => checkUpdatesP env false, s) schedule).1 1).result? = some (.ok true) ∧
      ((Prog.exec (fun _ => checkUpdatesP env false, s) schedule).1 2).result? = some (.error .fileNotFound) ∧
      RsrCurrent env s'.view ∧ ¬ Installed M env.cfg.rsr_dir s'.view ∧
      ∀ uses : List RsrUse, ¬ Installed M env.cfg.rsr_dir (uses.foldl (RsrUse.run env) s'.view) := by
  set A := chunks.flatten with hA
  set D := env.cfg.rsr_dir with hD
  set p : Path := (D, RSR_TARBALL) with hp
  have hkl : k < A.length := by
    by_contra h
    rw [List.take_of_length_le (by omega), hM] at hk
    cases hk
  set P0 : Fin 3 → Prog Shared Bool := fun _ => checkUpdatesP env false with hP0
  set a := answeredStage env A with ha
  -- all three find the data out of date and get their answers
  have r1 := reaches_answered env hdl chunks hu 0 P0 s rfl hc
  have r2 := reaches_answered env hdl chunks hu 1 (Function.update P0 0 a) (asked env s) (by simp [hP0]) hc
  have r3 := reaches_answered env hdl chunks hu 2 (Function.update (Function.update P0 0 a) 1 a) (asked env (asked env s))
    (by simp [hP0]) hc
  set P3 := Function.update (Function.update (Function.update P0 0 a) 1 a) 2 a with hP3
  set s3 := asked env (asked env (asked env s)) with hs3
  have hd3 : s3.world.dirs D = true := configured_rsr_dir env _
  -- the first one writes the archive
  have r4 := reaches_written env A 0 P3 s3 (by simp [hP3, ha]) hd3
  set s4 := (s3.opened p).setData (s3.handle p) A with hs4
  have hw4 : s4.world = s3.world := opened_world s3 p
  -- the second one writes it again and unpacks it
  have r5 := reaches_written env A 1 (Function.update P3 0 (readStage env A)) s4 (by simp [hP3, ha]) (by rw [hw4]; exact hd3)
  set j := s4.handle p with hj
  set s5 := (s4.opened p).setData j A with hs5
  have hw5 : s5.world = s3.world := (opened_world s4 p).trans hw4
  have hn5 : s5.name p = some j := opened_name s4 p
  have hj5 : s5.data j = A := setData_data _ _ _
  set P5 := Function.update (Function.update P3 0 (readStage env A)) 1 (readStage env A) with hP5
  have r6 := reaches_unpacked env A M hM 1 P5 s5 (by simp [hP5]) j hn5 hj5 (by rw [hw5]; exact hd3)
  set P6 := Function.update P5 1 (removeStage env) with hP6
  set s6 : Shared := { s5 with world := extracted D M s5.world } with hs6
  have hd6 : s6.world.dirs D = true := by
    show (extracted D M s5.world).dirs _ = true
    rw [extracted_dirs, hw5]; exact hd3
  -- the first one begins to read
  have r7 := reaches_reading env A 0 P6 s6 (by simp [hP6, hP5]) j hn5 hj5 k (by omega)
  set Q : Prog Shared Bool := (readArchiveP j k (A.length - k) (A.take k)).bind fun x =>
      (unpackP D p (env.untar x)).bind fun _ => .done (.ok true) with hQ
  -- the third one opens the archive
  have r8 := reaches_bind 2 (Function.update P6 0 Q) s6 _ _ _ _ (by
    rw [show Function.update P6 0 Q 2 = answeredStage env A by simp [hP6, hP5, hP3, ha]]
    rfl) (run_openArchive p s6 hd6)
  have hj6 : s6.handle p = j := by
    show (s5.name p).getD s5.next = j
    rw [hn5]; rfl
  set s7 := s6.opened p with hs7
  have hw7 : s7.world = s6.world := opened_world s6 p
  have hn7 : s7.name p = some j := by rw [hs7, opened_name, hj6]
  have hj7 : s7.data j = [] := by rw [← hj6]; exact opened_data s6 p
  rw [hj6] at r8
  set W : Prog Shared Bool := (writeArchiveP j 0 A).bind fun _ => readStage env A with hW
  set P7 := Function.update (Function.update P6 0 Q) 2 W with hP7
  -- the first one gets no further
  set s8 : Shared := { s7 with world := extracted D (ms ++ [(n, c')]) s7.world } with hs8
  have r9 := reaches_run 0 P7 s7 s8 (.error .runtimeError) (by
    rw [show P7 0 = Q by simp [hP7]]
    have hread : (readArchiveP j k (A.length - k) (A.take k)).run s7 = (.ok (A.take k), s7) := by
      rw [run_readArchive j s7 [] hj7 _ _ _ (by simp)]
      simp
    rw [hQ, run_bind_ok hread, hk]
    unfold unpackP
    refine run_bind_error ?_
    rw [run_bind_ok (run_extractAll D _ s7 (by rw [hw7]; exact hd6))]
    rfl)
  set P8 := Function.update P7 0 (.done (.error .runtimeError)) with hP8
  have hn8 : s8.name p = some j := hn7
  -- the second one removes the archive
  have r10 := reaches_run 1 P8 s8 (s8.setName p none) (.ok true) (by
    rw [show P8 1 = removeStage env by simp [hP8, hP7, hP6]]
    unfold removeStage
    rw [run_bind_ok (a := ()) (s' := s8.setName p none)]
    · rfl
    · show Prog.run (match s8.name p with | some _ => .done (.ok ()) | none => .done (.error .fileNotFound)) _ = _
      rw [hn8]; rfl)
  set P9 := Function.update P8 1 (.done (.ok true)) with hP9
  -- the third one finds no archive
  set s9 := (s8.setName p none).setData j A with hs9
  have hn9 : s9.name p = none := by simp [hs9, Shared.setName, Shared.setData]
  have r11 := reaches_run 2 P9 (s8.setName p none) s9 (.error .fileNotFound) (by
    rw [show P9 2 = W by simp [hP9, hP8, hP7]]
    rw [hW, run_bind_ok (run_writeArchive0 j A (s8.setName p none) hj7)]
    unfold readStage
    refine run_bind_error ?_
    show Prog.run (match s9.name p with | none => _ | some i => _) _ = _
    rw [hn9]; rfl)
  obtain ⟨schedule, hsch⟩ := reaches_trans r1 (reaches_trans r2 (reaches_trans r3 (reaches_trans r4 (reaches_trans r5
    (reaches_trans r6 (reaches_trans r7 (reaches_trans r8 (reaches_trans r9 (reaches_trans r10 r11)))))))))
  have hfiles : ∀ m, m ≠ RSR_TARBALL → s9.view.files (D, m) =
      (extracted D (ms ++ [(n, c')]) (extracted D M s3.world)).files (D, m) := by
    intro m hm
    have hname : s9.name (D, m) = none := by
      have hne : ((D, m) : Path) ≠ p := fun h => hm (Prod.mk.inj h).2
      show (if (D, m) = p then none else s7.name (D, m)) = none
      rw [if_neg hne, hs7, opened_other s6 p _ hne]
      show s5.name (D, m) = none
      rw [hs5]
      show (s4.opened p).name (D, m) = none
      rw [opened_other s4 p _ hne]
      show (s3.opened p).name (D, m) = none
      rw [opened_other s3 p _ hne]
      exact ht.1 _ hne
    unfold Shared.view
    dsimp only
    rw [hname]
    show (extracted D (ms ++ [(n, c')]) s7.world).files (D, m) = _
    rw [hw7]
    show (extracted D (ms ++ [(n, c')]) (extracted D M s5.world)).files (D, m) = _
    rw [hw5]
  have hcur : RsrCurrent env s9.view := by
    refine ⟨v, ?_, hfl⟩
    rw [hfiles _ (by decide), extracted_other D _ _ (fun m hm h => (hms m hm).1 (Prod.mk.inj h).2.symm)]
    obtain ⟨pre, post, hpp⟩ := List.append_of_mem hv
    rw [hpp]
    refine extracted_last D pre post _ v (fun m hm he => ?_) _
    rw [hpp, List.map_append, List.map_cons] at hnd
    have := (List.nodup_append.1 hnd).2.1
    rw [List.nodup_cons] at this
    exact this.1 (List.mem_map.2 ⟨m, hm, he⟩)
  have hbad : s9.view.files (D, n) = some c' := by
    rw [hfiles n (hms (n, c') (by simp)).2]
    exact extracted_last D ms [] n c' (by simp) _
  have hnot : ∀ w : World, w.files (D, n) = some c' → ¬ Installed M D w := by
    intro w hw hi
    obtain ⟨pre, post, hpp⟩ := List.append_of_mem hn
    have := hi pre n c post hpp (fun m hm he => by
      rw [hpp, List.map_append, List.map_cons] at hnd
      have := (List.nodup_append.1 hnd).2.1
      rw [List.nodup_cons] at this
      exact this.1 (List.mem_map.2 ⟨m, hm, he⟩))
    rw [hw] at this
    exact hcc (Option.some.inj this)
  refine ⟨schedule, s9, ?_, ?_, ?_, ?_, hcur, hnot _ hbad, fun uses => hnot _ ?_⟩
  · rw [hsch]
  · rw [hsch]; simp [Prog.result?, hP9, hP8]
  · rw [hsch]; simp [Prog.result?, hP9]
  · rw [hsch]; simp [Prog.result?]
  · rw [(C46_no_more_requests env _ hcur uses).2]
    exact hbad

/-! ### An example -/

/-- an archive of two members, of which the first half gives part of the first member -/
def busyEnv : Env := { exampleEnv with
  server := fun _ => .answered 200 true ["TA".toList, "R!".toList]
  untar := fun x => if x = "TAR!".toList then ([("a.h5", "AA".toList), ("PYSPECTRAL_RSR_VERSION", "v1.6.1\n".toList)], true)
    else if x = "TA".toList then ([("a.h5", "A".toList)], false) else ([], false) }

/-- no files -/
def emptyShared : Shared := ⟨emptyWorld, fun _ => none, fun _ => [], 0⟩

theorem busy_not_current : ¬ RsrCurrent busyEnv emptyShared.view := by
  rintro ⟨c, h, _⟩; simp [Shared.view, emptyShared, emptyWorld] at h

theorem busy_usable : Usable (busyEnv.server HTTP_PYSPECTRAL_RSR) ["TA".toList, "R!".toList] := ⟨200, rfl, by decide⟩

theorem busy_untar : busyEnv.untar (["TA".toList, "R!".toList] : List Content).flatten =
    ([("a.h5", "AA".toList), ("PYSPECTRAL_RSR_VERSION", "v1.6.1\n".toList)], true) := by rfl

example : ∃ schedule : List Bool,
    ((Prog.exec (fun _ => checkUpdatesP busyEnv false, emptyShared) schedule).1 false).result? = some (.ok true) ∧
    ((Prog.exec (fun _ => checkUpdatesP busyEnv false, emptyShared) schedule).1 true).result? = some (.error .fileNotFound) :=
  C154_race busyEnv rfl _ busy_usable _ busy_untar emptyShared busy_not_current

example : ∃ (schedule : List (Fin 3)) (s' : Shared),
    s' = (Prog.exec (fun _ => checkUpdatesP busyEnv false, emptyShared) schedule).2 ∧ RsrCurrent busyEnv s'.view ∧
    ∀ uses : List RsrUse, ¬ Installed [("a.h5", "AA".toList), ("PYSPECTRAL_RSR_VERSION", "v1.6.1\n".toList)] "/rsr"
      (uses.foldl (RsrUse.run busyEnv) s'.view) := by
  obtain ⟨sch, s', h, -, -, -, h1, -, h2⟩ := C154_marked_incomplete busyEnv rfl _ busy_usable _ busy_untar (by decide)
    "v1.6.1\n".toList (by simp) ⟨[], [], ['\n'], rfl, by simp, by simp, Or.inr ⟨[], Or.inl rfl⟩⟩ 2 [] "a.h5" "AA".toList
    "A".toList rfl (by simp) (by decide) (by decide) (by decide) emptyShared ⟨fun _ _ => rfl, rfl⟩ busy_not_current
  exact ⟨sch, s', h, h1, h2⟩

/-- Seven processes that all succeed leave everything in place. -/
example (schedule : List (Fin 7))
    (hall : ∀ i, ((Prog.exec (fun _ => checkUpdatesP busyEnv false, emptyShared) schedule).1 i).result? = some (.ok true)) :
    RsrCurrent busyEnv (Prog.exec (fun _ : Fin 7 => checkUpdatesP busyEnv false, emptyShared) schedule).2.view := by
  refine (C154_all_succeed_partial busyEnv (fun _ => false) _ rfl busy_usable
    [("a.h5", "AA".toList), ("PYSPECTRAL_RSR_VERSION", "v1.6.1\n".toList)] (by decide) (by decide) ?_ emptyShared
    (fun _ => mangled_nil _) (fun _ _ => rfl) schedule _ rfl (fun i => ⟨true, hall i⟩) ⟨0, rfl, hall 0⟩).2 "v1.6.1\n".toList
    (by simp) ⟨[], [], ['\n'], rfl, by simp, by simp, Or.inr ⟨[], Or.inl rfl⟩⟩
  intro x _ hx
  unfold busyEnv at hx ⊢
  dsimp only at hx ⊢
  split_ifs at hx ⊢ with h1 h2
  rfl

example : ∃ s', (checkUpdatesP busyEnv false).run emptyShared = (.ok true, s') ∧ RsrCurrent busyEnv s'.view := by
  obtain ⟨s', h1, h2⟩ := C154_alone busyEnv false emptyShared ⟨fun _ _ => rfl, rfl⟩ (by
    intro st ok chunks h
    cases h
    decide)
  refine ⟨s', h1, ?_⟩
  rw [h2]
  exact ⟨"v1.6.1\n".toList, rfl, [], [], ['\n'], rfl, by simp, by simp, Or.inr ⟨[], Or.inl rfl⟩⟩

/-- current data at the beginning -/
example (schedule : List ℕ) : ∀ i r, ((Prog.exec (fun _ => checkUpdatesP busyEnv false, { emptyShared with
    world := emptyWorld.setFile ("/rsr", "PYSPECTRAL_RSR_VERSION") (some "v1.6.1\n".toList) }) schedule).1 i).result? = some r →
    r = .ok false :=
  (C154_current busyEnv (fun _ => false) _ ⟨"v1.6.1\n".toList, by simp [Shared.view, emptyShared, setFile_files, busyEnv, exampleEnv],
    [], [], ['\n'], rfl, by simp, by simp, Or.inr ⟨[], Or.inl rfl⟩⟩ schedule).1

/-- Such schedules exist: one after the other. -/
example : ∃ schedule : List Bool, ∀ i, ∃ b,
    ((Prog.exec (fun _ => checkUpdatesP busyEnv false, emptyShared) schedule).1 i).result? = some (.ok b) := by
  refine ⟨List.replicate 40 false ++ List.replicate 10 true, fun i => ?_⟩
  cases i with
  | false => exact ⟨true, by rfl⟩
  | true => exact ⟨false, by rfl⟩

end Verif.Props
