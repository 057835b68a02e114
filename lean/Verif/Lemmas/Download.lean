import Verif.Model.Download
import Mathlib.Data.List.Basic
import Mathlib.Tactic.Common
/-
Lemmas about effectful runs and the download code: exact final state and all intermediate
states.
-/
namespace Verif.Lemmas
open Model
variable {α β : Type}

/-! ### Runs -/

theorem eff_bind_ok {m : Eff α} {f : α → Eff β} {w w' : World} {a : α} {t : List World}
    (h : m w = (.ok a, w', t)) :
    (m >>= f) w = ((f a w').1, (f a w').2.1, t ++ (f a w').2.2) := by
  show Eff.bind m f w = _
  unfold Eff.bind
  rw [h]

theorem eff_bind_error {m : Eff α} {f : α → Eff β} {w w' : World} {e : PyErr} {t : List World}
    (h : m w = (.error e, w', t)) : (m >>= f) w = (.error e, w', t) := by
  show Eff.bind m f w = _
  unfold Eff.bind
  rw [h]

theorem eff_pure (a : α) (w : World) : (pure a : Eff α) w = (.ok a, w, []) := rfl

theorem forEach_cons (f : α → Eff Unit) (a : α) (as : List α) :
    Eff.forEach f (a :: as) = (f a >>= fun _ => Eff.forEach f as) := rfl

/-! ### World updates -/

theorem World.ext' {a b : World} (h1 : a.files = b.files) (h2 : a.dirs = b.dirs)
    (h3 : a.requests = b.requests) : a = b := by
  cases a; cases b; simp_all

theorem setFile_files (w : World) (p q : Path) (c : Option Content) :
    (w.setFile p c).files q = if q = p then c else w.files q := rfl
@[simp] theorem setFile_dirs (w : World) (p : Path) (c : Option Content) :
    (w.setFile p c).dirs = w.dirs := rfl
@[simp] theorem setFile_requests (w : World) (p : Path) (c : Option Content) :
    (w.setFile p c).requests = w.requests := rfl

theorem setFile_setFile (w : World) (p : Path) (c d : Option Content) :
    (w.setFile p c).setFile p d = w.setFile p d := by
  refine World.ext' ?_ rfl rfl
  funext q
  simp only [setFile_files]
  split <;> rfl

theorem setFile_self (w : World) (p : Path) (c : Option Content) (h : w.files p = c) :
    w.setFile p c = w := by
  refine World.ext' ?_ rfl rfl
  funext q
  rw [setFile_files]
  split
  · rename_i e; rw [e, h]
  · rfl

/-- the world with a directory made -/
def withDir (d : String) (w : World) : World := { w with dirs := fun x => if x = d then true else w.dirs x }

theorem withDir_self {d : String} {w : World} (h : w.dirs d = true) : withDir d w = w := by
  refine World.ext' rfl ?_ rfl
  funext x
  show (if x = d then true else w.dirs x) = _
  split
  · rename_i e; rw [e, h]
  · rfl

theorem makedirs_run (d : String) (w : World) :
    FileOp.makedirs d w = (.ok (), withDir d w, [withDir d w]) := rfl

theorem openWrite_ok {p : Path} {w : World} (h : w.dirs p.1 = true) :
    FileOp.openWrite p w = (.ok (), w.setFile p (some []), [w.setFile p (some [])]) := by
  unfold FileOp.openWrite
  rw [eff_bind_ok (show Eff.get w = (.ok w, w, []) from rfl)]
  simp only [h, if_true]
  rfl

theorem openWrite_missing {p : Path} {w : World} (h : w.dirs p.1 = false) :
    FileOp.openWrite p w = (.error .fileNotFound, w, []) := by
  unfold FileOp.openWrite
  rw [eff_bind_ok (show Eff.get w = (.ok w, w, []) from rfl)]
  simp only [h, Bool.false_eq_true, if_false]
  rfl

/-- appending to an existing file -/
theorem append_run (p : Path) (data : Content) : ∀ (w : World) (c : Content), w.files p = some c →
    ∃ t, FileOp.append p data w = (.ok (), w.setFile p (some (c ++ data)), t) ∧
      ∀ x ∈ t, ∃ c', x = w.setFile p (some c') := by
  induction data with
  | nil =>
    intro w c h
    refine ⟨[], ?_, by simp⟩
    rw [List.append_nil, setFile_self w p _ h]
    rfl
  | cons d ds ih =>
    intro w c h
    have e1 : FileOp.appendByte p d w =
        (.ok (), w.setFile p (some (c ++ [d])), [w.setFile p (some (c ++ [d]))]) := by
      show (Except.ok (), w.setFile p (some ((w.files p).getD [] ++ [d])),
        [w.setFile p (some ((w.files p).getD [] ++ [d]))]) = _
      rw [h]; rfl
    obtain ⟨t, ht, hx⟩ := ih (w.setFile p (some (c ++ [d]))) (c ++ [d]) (by simp [setFile_files])
    refine ⟨w.setFile p (some (c ++ [d])) :: t, ?_, ?_⟩
    · unfold FileOp.append at *
      rw [forEach_cons, eff_bind_ok e1, ht, setFile_setFile]
      simp
    · intro x hxm
      rcases List.mem_cons.1 hxm with rfl | hxm
      · exact ⟨_, rfl⟩
      · obtain ⟨c', rfl⟩ := hx x hxm
        exact ⟨c', by rw [setFile_setFile]⟩

/-- writing the chunks of the body -/
theorem chunks_run (p : Path) (chunks : List Content) : ∀ (w : World) (c : Content), w.files p = some c →
    ∃ t, Eff.forEach (fun data => if data ≠ [] then FileOp.append p data else pure ()) chunks w =
      (.ok (), w.setFile p (some (c ++ chunks.flatten)), t) ∧ ∀ x ∈ t, ∃ c', x = w.setFile p (some c') := by
  induction chunks with
  | nil =>
    intro w c h
    refine ⟨[], ?_, by simp⟩
    rw [List.flatten_nil, List.append_nil, setFile_self w p _ h]
    rfl
  | cons d ds ih =>
    intro w c h
    rw [forEach_cons]
    by_cases hd : d = []
    · subst hd
      simp only [ne_eq, not_true, if_false, List.flatten_cons, List.nil_append]
      obtain ⟨t, ht, hx⟩ := ih w c h
      refine ⟨t, ?_, hx⟩
      rw [eff_bind_ok (eff_pure () w)]
      simp only [ne_eq] at ht
      rw [ht]; rfl
    · obtain ⟨t1, h1, hx1⟩ := append_run p d w c h
      obtain ⟨t2, h2, hx2⟩ := ih (w.setFile p (some (c ++ d))) (c ++ d) (by simp [setFile_files])
      refine ⟨t1 ++ t2, ?_, ?_⟩
      · simp only [ne_eq, hd, not_false_eq_true, if_true]
        rw [eff_bind_ok h1]
        simp only [ne_eq] at h2
        rw [h2, setFile_setFile]
        simp
      · intro x hxm
        rcases List.mem_append.1 hxm with hxm | hxm
        · exact hx1 x hxm
        · obtain ⟨c', rfl⟩ := hx2 x hxm
          exact ⟨c', by rw [setFile_setFile]⟩

/-- the world after extracting members into a directory -/
def extracted (dir : String) (ms : List (String × Content)) (w : World) : World :=
  ms.foldl (fun w m => w.setFile (dir, m.1) (some m.2)) w

@[simp] theorem extracted_dirs (dir : String) (ms : List (String × Content)) : ∀ w : World,
    (extracted dir ms w).dirs = w.dirs := by
  induction ms with
  | nil => intro w; rfl
  | cons m ms ih => intro w; exact ih _
@[simp] theorem extracted_requests (dir : String) (ms : List (String × Content)) : ∀ w : World,
    (extracted dir ms w).requests = w.requests := by
  induction ms with
  | nil => intro w; rfl
  | cons m ms ih => intro w; exact ih _

theorem extracted_other (dir : String) (ms : List (String × Content)) (p : Path)
    (hp : ∀ m ∈ ms, p ≠ (dir, m.1)) : ∀ w : World, (extracted dir ms w).files p = w.files p := by
  induction ms with
  | nil => intro w; rfl
  | cons m ms ih =>
    intro w
    show (extracted dir ms _).files p = _
    rw [ih (fun m' hm' => hp m' (by simp [hm'])), setFile_files, if_neg (hp m (by simp))]

/-- the last member of a name determines the file -/
theorem extracted_last (dir : String) (pre post : List (String × Content)) (n : String) (c : Content)
    (hpost : ∀ m ∈ post, m.1 ≠ n) (w : World) :
    (extracted dir (pre ++ (n, c) :: post) w).files (dir, n) = some c := by
  unfold extracted
  rw [List.foldl_append, List.foldl_cons]
  have := extracted_other dir post (dir, n) (fun m hm h => hpost m hm (by simpa using (Prod.mk.inj h).2.symm))
    ((List.foldl (fun w m => w.setFile (dir, m.1) (some m.2)) w pre).setFile (dir, n) (some c))
  unfold extracted at this
  rw [this, setFile_files, if_pos rfl]

/-- every name is either untouched or has a last member -/
theorem last_or_none (ms : List (String × Content)) (n : String) :
    (∀ m ∈ ms, m.1 ≠ n) ∨ ∃ pre c post, ms = pre ++ (n, c) :: post ∧ ∀ m ∈ post, m.1 ≠ n := by
  induction ms with
  | nil => left; simp
  | cons m ms ih =>
    rcases ih with h | ⟨pre, c, post, rfl, hp⟩
    · by_cases hm : m.1 = n
      · right
        exact ⟨[], m.2, ms, by rw [← hm]; rfl, h⟩
      · left
        intro m' hm'
        rcases List.mem_cons.1 hm' with rfl | h'
        · exact hm
        · exact h m' h'
    · right; exact ⟨m :: pre, c, post, rfl, hp⟩

/-- the files after extraction depend on the earlier files only outside the members -/
theorem extracted_congr (dir : String) (ms : List (String × Content)) (w v : World) (p : Path)
    (h : (∀ m ∈ ms, p ≠ (dir, m.1)) → w.files p = v.files p) :
    (extracted dir ms w).files p = (extracted dir ms v).files p := by
  by_cases hp : ∀ m ∈ ms, p ≠ (dir, m.1)
  · rw [extracted_other _ _ _ hp, extracted_other _ _ _ hp, h hp]
  · push Not at hp
    obtain ⟨m, hm, rfl⟩ := hp
    rcases last_or_none ms m.1 with h1 | ⟨pre, c, post, rfl, hpost⟩
    · exact absurd rfl (h1 m hm)
    · rw [extracted_last _ _ _ _ _ hpost, extracted_last _ _ _ _ _ hpost]

/-- extracting one member into an existing directory -/
theorem extractMember_run (dir : String) (m : String × Content) (w : World) (hd : w.dirs dir = true) :
    ∃ t, extractMember dir m w = (.ok (), w.setFile (dir, m.1) (some m.2), t) ∧
      ∀ x ∈ t, x = w ∨ ∃ c', x = w.setFile (dir, m.1) (some c') := by
  unfold extractMember
  rw [eff_bind_ok (makedirs_run dir w), withDir_self hd]
  have h1 := openWrite_ok (p := (dir, m.1)) hd
  obtain ⟨t, ht, hx⟩ := append_run (dir, m.1) m.2 (w.setFile (dir, m.1) (some [])) [] (by simp [setFile_files])
  rw [eff_bind_ok h1, ht, setFile_setFile]
  refine ⟨_, rfl, ?_⟩
  intro x hxm
  simp only [List.cons_append, List.nil_append, List.mem_cons] at hxm
  rcases hxm with rfl | rfl | hxm
  · exact Or.inl rfl
  · exact Or.inr ⟨_, rfl⟩
  · obtain ⟨c', rfl⟩ := hx x hxm
    exact Or.inr ⟨c', by rw [setFile_setFile]⟩

/-- extracting all members -/
theorem extract_run (dir : String) (ms : List (String × Content)) : ∀ (w : World), w.dirs dir = true →
    ∃ t, Eff.forEach (extractMember dir) ms w = (.ok (), extracted dir ms w, t) ∧
      ∀ x ∈ t, ∃ pre m post, ms = pre ++ m :: post ∧
        (x = extracted dir pre w ∨ ∃ c', x = (extracted dir pre w).setFile (dir, m.1) (some c')) := by
  induction ms with
  | nil => intro w _; exact ⟨[], rfl, by simp⟩
  | cons m ms ih =>
    intro w hd
    obtain ⟨t1, h1, hx1⟩ := extractMember_run dir m w hd
    obtain ⟨t2, h2, hx2⟩ := ih (w.setFile (dir, m.1) (some m.2)) hd
    refine ⟨t1 ++ t2, ?_, ?_⟩
    · rw [forEach_cons, eff_bind_ok h1, h2]; rfl
    · intro x hxm
      rcases List.mem_append.1 hxm with hxm | hxm
      · exact ⟨[], m, ms, rfl, hx1 x hxm⟩
      · obtain ⟨pre, m', post, he, hc⟩ := hx2 x hxm
        exact ⟨m :: pre, m', post, by rw [he]; rfl, hc⟩

/-- the world after a request was logged -/
def requested (url : String) (w : World) : World := { w with requests := w.requests ++ [url] }

/-- the full run of a download answered without an error -/
theorem download_run (env : Env) (url : String) (name dir : String) (w : World) (status : Nat)
    (chunks : List Content) (hs : env.server url = .answered status true chunks)
    (hst : ¬ (400 ≤ status ∧ status < 600)) (hd : w.dirs dir = true) :
    ∃ t, downloadTarballAndExtract env url (dir, name) dir w =
      (if (env.untar chunks.flatten).2 then .ok () else .error .runtimeError,
       if (env.untar chunks.flatten).2 then
         (extracted dir (env.untar chunks.flatten).1
           ((requested url w).setFile (dir, name) (some chunks.flatten))).setFile (dir, name) none
       else extracted dir (env.untar chunks.flatten).1
           ((requested url w).setFile (dir, name) (some chunks.flatten)), t) ∧
      ∀ x ∈ t, x = requested url w ∨ (∃ c, x = (requested url w).setFile (dir, name) (some c)) ∨
        (∃ pre m post, (env.untar chunks.flatten).1 = pre ++ m :: post ∧
          (x = extracted dir pre ((requested url w).setFile (dir, name) (some chunks.flatten)) ∨
           ∃ c', x = (extracted dir pre ((requested url w).setFile (dir, name) (some chunks.flatten))).setFile
             (dir, m.1) (some c'))) ∨
        ((env.untar chunks.flatten).2 = true ∧ x = (extracted dir (env.untar chunks.flatten).1
          ((requested url w).setFile (dir, name) (some chunks.flatten))).setFile (dir, name) none) := by
  unfold downloadTarballAndExtract
  rw [eff_bind_ok (show (Eff.step fun w => { w with requests := w.requests ++ [url] }) w =
    (.ok (), requested url w, [requested url w]) from rfl)]
  simp only [hs, hst, if_false, not_true]
  have h1 := openWrite_ok (p := (dir, name)) (w := requested url w) hd
  obtain ⟨t2, h2, hx2⟩ := chunks_run (dir, name) chunks ((requested url w).setFile (dir, name) (some [])) []
    (by simp [setFile_files])
  rw [List.nil_append, setFile_setFile] at h2
  set w1 := (requested url w).setFile (dir, name) (some chunks.flatten) with hw1
  have hread : (w1.files (dir, name)).getD [] = chunks.flatten := by simp [hw1, setFile_files]
  obtain ⟨t3, h3, hx3⟩ := extract_run dir (env.untar chunks.flatten).1 w1 hd
  rw [eff_bind_ok h1, eff_bind_ok h2, eff_bind_ok (show Eff.get w1 = (.ok w1, w1, []) from rfl)]
  rw [hread, eff_bind_ok h3]
  have hmid : ∀ x ∈ t2, ∃ c, x = (requested url w).setFile (dir, name) (some c) := by
    intro x hx
    obtain ⟨c, rfl⟩ := hx2 x hx
    exact ⟨c, by rw [setFile_setFile]⟩
  cases hok : (env.untar chunks.flatten).2 with
  | true =>
    simp only [not_true, if_false, if_true]
    refine ⟨_, rfl, ?_⟩
    intro x hx
    simp only [List.cons_append, List.nil_append, List.mem_cons, List.mem_append] at hx
    rcases hx with rfl | rfl | hx | hx | hx
    · exact Or.inl rfl
    · exact Or.inr (Or.inl ⟨_, rfl⟩)
    · exact Or.inr (Or.inl (hmid x hx))
    · exact Or.inr (Or.inr (Or.inl (hx3 x hx)))
    · have hx' : x ∈ [(extracted dir (env.untar chunks.flatten).1 w1).setFile (dir, name) none] := hx
      rw [List.mem_singleton] at hx'
      exact Or.inr (Or.inr (Or.inr ⟨trivial, hx'⟩))
  | false =>
    simp only [Bool.false_eq_true, not_false_eq_true, if_true, if_false]
    refine ⟨_, rfl, ?_⟩
    intro x hx
    simp only [List.cons_append, List.nil_append, List.mem_cons, List.mem_append] at hx
    rcases hx with rfl | rfl | hx | hx | hx
    · exact Or.inl rfl
    · exact Or.inr (Or.inl ⟨_, rfl⟩)
    · exact Or.inr (Or.inl (hmid x hx))
    · exact Or.inr (Or.inr (Or.inl (hx3 x hx)))
    · exact absurd hx (by simp [Eff.raise])

/-- the failing cases: no file is touched -/
theorem download_fail (env : Env) (url : String) (name dir : String) (w : World)
    (hf : (∃ e, env.server url = .raises e) ∨
      (∃ st ok ch, env.server url = .answered st ok ch ∧ ((400 ≤ st ∧ st < 600) ∨ ok = false)) ∨
      w.dirs dir = false) :
    ∃ e t, downloadTarballAndExtract env url (dir, name) dir w = (.error e, requested url w, t) ∧
      ∀ x ∈ t, x = requested url w := by
  unfold downloadTarballAndExtract
  rw [eff_bind_ok (show (Eff.step fun w => { w with requests := w.requests ++ [url] }) w =
    (.ok (), requested url w, [requested url w]) from rfl)]
  cases hs : env.server url with
  | raises e => exact ⟨_, _, rfl, by intro x hx; simpa [Eff.raise] using hx⟩
  | answered st ok ch =>
    simp only
    by_cases h1 : 400 ≤ st ∧ st < 600
    · simp only [h1, and_self, if_true]
      exact ⟨_, _, rfl, by intro x hx; simpa [Eff.raise] using hx⟩
    · simp only [h1, if_false]
      cases ok with
      | false =>
        simp only [Bool.false_eq_true, not_false_eq_true, if_true]
        exact ⟨_, _, rfl, by intro x hx; simpa [Eff.raise] using hx⟩
      | true =>
        simp only [not_true, if_false]
        have hd : w.dirs dir = false := by
          rcases hf with h | ⟨a, b, c, h, h'⟩ | h
          · rw [hs] at h; simp at h
          · rw [hs] at h
            simp only [Answer.answered.injEq] at h
            obtain ⟨rfl, rfl, _⟩ := h
            rcases h' with h' | h'
            · exact absurd h' h1
            · simp at h'
          · exact h
        rw [eff_bind_error (openWrite_missing (p := (dir, name)) (w := requested url w) hd)]
        exact ⟨_, _, rfl, by intro x hx; simpa using hx⟩
  | broken ch e =>
    simp only
    have hd : w.dirs dir = false := by
      rcases hf with ⟨_, h⟩ | ⟨_, _, _, h, _⟩ | h
      · rw [hs] at h; cases h
      · rw [hs] at h; cases h
      · exact h
    rw [eff_bind_error (openWrite_missing (p := (dir, name)) (w := requested url w) hd)]
    exact ⟨_, _, rfl, by intro x hx; simpa using hx⟩

/-- the connection is lost in the body: what has arrived of the archive is left -/
theorem download_broken (env : Env) (url : String) (name dir : String) (w : World) (chunks : List Content) (e : PyErr)
    (hs : env.server url = .broken chunks e) (hd : w.dirs dir = true) :
    ∃ t, downloadTarballAndExtract env url (dir, name) dir w =
      (.error e, (requested url w).setFile (dir, name) (some chunks.flatten), t) ∧
      ∀ x ∈ t, x = requested url w ∨ ∃ c, x = (requested url w).setFile (dir, name) (some c) := by
  unfold downloadTarballAndExtract
  rw [eff_bind_ok (show (Eff.step fun w => { w with requests := w.requests ++ [url] }) w =
    (.ok (), requested url w, [requested url w]) from rfl)]
  simp only [hs]
  have h1 := openWrite_ok (p := (dir, name)) (w := requested url w) hd
  obtain ⟨t2, h2, hx2⟩ := chunks_run (dir, name) chunks ((requested url w).setFile (dir, name) (some [])) []
    (by simp [setFile_files])
  rw [List.nil_append, setFile_setFile] at h2
  rw [eff_bind_ok h1, eff_bind_ok h2]
  refine ⟨_, rfl, ?_⟩
  intro x hx
  simp only [List.cons_append, List.nil_append, List.mem_cons, List.mem_append] at hx
  rcases hx with rfl | rfl | hx | hx
  · exact Or.inl rfl
  · exact Or.inr ⟨_, rfl⟩
  · obtain ⟨c, rfl⟩ := hx2 x hx
    exact Or.inr ⟨c, by rw [setFile_setFile]⟩
  · exact absurd hx (by simp [Eff.raise])

/-- a download that does not get as far as the archive raises; at every point at most the temporary archive has
been written -/
theorem download_unusable (env : Env) (url : String) (name dir : String) (w : World)
    (hf : ¬ ((∃ st chunks, env.server url = .answered st true chunks ∧ ¬ (400 ≤ st ∧ st < 600)) ∧ w.dirs dir = true)) :
    ∃ e w' t, downloadTarballAndExtract env url (dir, name) dir w = (.error e, w', t) ∧
      ∀ x, x = w' ∨ x ∈ t → x = requested url w ∨ ∃ c, x = (requested url w).setFile (dir, name) (some c) := by
  by_cases hb : ∃ chunks e, env.server url = .broken chunks e ∧ w.dirs dir = true
  · obtain ⟨chunks, e, hs, hd⟩ := hb
    obtain ⟨t, ht, hx⟩ := download_broken env url name dir w chunks e hs hd
    refine ⟨_, _, _, ht, ?_⟩
    rintro x (rfl | h)
    · exact Or.inr ⟨_, rfl⟩
    · exact hx x h
  · have : ∃ e t, downloadTarballAndExtract env url (dir, name) dir w = (.error e, requested url w, t) ∧
        ∀ x ∈ t, x = requested url w := by
      apply download_fail
      cases hs : env.server url with
      | raises e => exact Or.inl ⟨_, rfl⟩
      | broken ch e => exact Or.inr (Or.inr (by by_contra hne; exact hb ⟨ch, e, hs, by simpa using hne⟩))
      | answered st ok ch =>
        by_cases h : 400 ≤ st ∧ st < 600
        · exact Or.inr (Or.inl ⟨st, ok, ch, rfl, Or.inl h⟩)
        · cases ok with
          | false => exact Or.inr (Or.inl ⟨st, _, ch, rfl, Or.inr rfl⟩)
          | true =>
            refine Or.inr (Or.inr ?_)
            by_contra hne
            exact hf ⟨⟨st, ch, hs, h⟩, by simpa using hne⟩
    obtain ⟨e, t, ht, hx⟩ := this
    refine ⟨_, _, _, ht, ?_⟩
    rintro x (rfl | h)
    · exact Or.inl rfl
    · exact Or.inl (hx x h)

/-- the outcome of a download depends on the state only through the existence of the directory -/
theorem download_fail_error (env : Env) (url : String) (name dir : String) (w x : World)
    (hd : x.dirs dir = w.dirs dir) :
    (downloadTarballAndExtract env url (dir, name) dir w).1 =
      (downloadTarballAndExtract env url (dir, name) dir x).1 := by
  have hstep : ∀ v : World, (Eff.step fun w => { w with requests := w.requests ++ [url] }) v =
    (.ok (), requested url v, [requested url v]) := fun v => rfl
  cases hs : env.server url with
  | raises e => unfold downloadTarballAndExtract; rw [eff_bind_ok (hstep w), eff_bind_ok (hstep x), hs]; rfl
  | answered st ok ch =>
    by_cases h1 : 400 ≤ st ∧ st < 600
    · unfold downloadTarballAndExtract; rw [eff_bind_ok (hstep w), eff_bind_ok (hstep x), hs]; simp only [h1, and_self, if_true]; rfl
    · cases ok with
      | false =>
        unfold downloadTarballAndExtract; rw [eff_bind_ok (hstep w), eff_bind_ok (hstep x), hs]
        simp only [h1, if_false, Bool.false_eq_true, not_false_eq_true, if_true]; rfl
      | true =>
        cases hw : w.dirs dir with
        | true =>
          obtain ⟨t, ht, -⟩ := download_run env url name dir w st ch hs h1 hw
          obtain ⟨t', ht', -⟩ := download_run env url name dir x st ch hs h1 (by rw [hd, hw])
          rw [ht, ht']
        | false =>
          unfold downloadTarballAndExtract; rw [eff_bind_ok (hstep w), eff_bind_ok (hstep x), hs]
          simp only [h1, if_false, not_true]
          rw [eff_bind_error (openWrite_missing (p := (dir, name)) (w := requested url w) hw),
            eff_bind_error (openWrite_missing (p := (dir, name)) (w := requested url x) (by show x.dirs dir = false; rw [hd, hw]))]
  | broken ch e =>
    cases hw : w.dirs dir with
    | true =>
      obtain ⟨t, ht, -⟩ := download_broken env url name dir w ch e hs hw
      obtain ⟨t', ht', -⟩ := download_broken env url name dir x ch e hs (by rw [hd, hw])
      rw [ht, ht']
    | false =>
      unfold downloadTarballAndExtract; rw [eff_bind_ok (hstep w), eff_bind_ok (hstep x), hs]
      simp only
      rw [eff_bind_error (openWrite_missing (p := (dir, name)) (w := requested url w) hw),
        eff_bind_error (openWrite_missing (p := (dir, name)) (w := requested url x) (by show x.dirs dir = false; rw [hd, hw]))]

/-! ### Visited states -/

/-- The final state of a run is among its crash states. -/
def Visits (m : Eff α) : Prop := ∀ w, (m w).2.1 ∈ w :: (m w).2.2

theorem visits_pure (a : α) : Visits (pure a : Eff α) := fun w => by simp [eff_pure]
theorem visits_step (f : World → World) : Visits (Eff.step f) := fun w => by simp [Eff.step]
theorem visits_get : Visits Eff.get := fun w => by simp [Eff.get]
theorem visits_raise (e : PyErr) : Visits (Eff.raise e : Eff α) := fun w => by simp [Eff.raise]

theorem visits_bind {m : Eff α} {f : α → Eff β} (hm : Visits m) (hf : ∀ a, Visits (f a)) : Visits (m >>= f) := by
  intro w
  rcases h : m w with ⟨r, w', t⟩
  have h1 := hm w
  rw [h] at h1
  cases r with
  | ok a =>
    rw [eff_bind_ok h]
    have h2 := hf a w'
    simp only [List.mem_cons, List.mem_append] at *
    rcases h2 with h2 | h2
    · rw [h2]; rcases h1 with h1 | h1
      · exact Or.inl h1
      · exact Or.inr (Or.inl h1)
    · exact Or.inr (Or.inr h2)
  | error e => rw [eff_bind_error h]; exact h1

theorem visits_forEach {f : α → Eff Unit} (hf : ∀ a, Visits (f a)) (l : List α) : Visits (Eff.forEach f l) := by
  induction l with
  | nil => exact visits_pure ()
  | cons a l ih => rw [forEach_cons]; exact visits_bind (hf a) (fun _ => ih)

theorem visits_extractMember (dir : String) (m : String × Content) : Visits (extractMember dir m) := by
  refine visits_bind (visits_step _) fun _ => visits_bind (visits_bind visits_get fun w => ?_) fun _ =>
    visits_forEach (fun c => visits_step _) _
  split
  · exact visits_step _
  · exact visits_raise _

theorem forEach_append_run (f : α → Eff Unit) (a b : List α) (w w' : World) (t : List World)
    (h : Eff.forEach f a w = (.ok (), w', t)) :
    Eff.forEach f (a ++ b) w = ((Eff.forEach f b w').1, (Eff.forEach f b w').2.1, t ++ (Eff.forEach f b w').2.2) := by
  induction a generalizing w t with
  | nil =>
    have h' : ((Except.ok (), w, []) : Py Unit × World × List World) = (.ok (), w', t) := h
    simp only [Prod.mk.injEq, true_and] at h'
    obtain ⟨rfl, rfl⟩ := h'
    rfl
  | cons x a ih =>
    rw [forEach_cons] at h
    rcases hx : f x w with ⟨r, w1, t1⟩
    cases r with
    | error e => rw [eff_bind_error hx] at h; simp at h
    | ok u =>
      rw [eff_bind_ok hx] at h
      simp only [Prod.mk.injEq] at h
      obtain ⟨h1, h2, h3⟩ := h
      have := ih w1 (Eff.forEach f a w1).2.2 (by rw [← h1, ← h2])
      rw [List.cons_append, forEach_cons, eff_bind_ok hx, this, ← h3, List.append_assoc]

/-- the extraction passes through every state with a non-empty prefix of the members in place -/
theorem extract_visits (dir : String) (pre post : List (String × Content)) (hpre : pre ≠ []) (w : World)
    (hd : w.dirs dir = true) :
    extracted dir pre w ∈ (Eff.forEach (extractMember dir) (pre ++ post) w).2.2 := by
  obtain ⟨t, ht, -⟩ := extract_run dir pre w hd
  rw [forEach_append_run _ _ _ _ _ _ ht]
  have hv : extracted dir pre w ∈ t := by
    obtain ⟨m, ms, rfl⟩ := List.exists_cons_of_ne_nil hpre
    obtain ⟨t1, h1, hx1⟩ := extractMember_run dir m w hd
    obtain ⟨t2, h2, -⟩ := extract_run dir ms (w.setFile (dir, m.1) (some m.2)) hd
    rw [forEach_cons, eff_bind_ok h1, h2] at ht
    simp only [Prod.mk.injEq] at ht
    obtain ⟨-, hfin, rfl⟩ := ht
    have hv2 := visits_forEach (visits_extractMember dir) ms (w.setFile (dir, m.1) (some m.2))
    rw [h2] at hv2
    rw [← hfin]
    rcases List.mem_cons.1 hv2 with h | h
    · simp only at h
      rw [h]
      -- the last effect of extracting the first member
      have : w.setFile (dir, m.1) (some m.2) ∈ t1 := by
        have e : extractMember dir m w = (FileOp.makedirs dir >>= fun _ => (FileOp.openWrite (dir, m.1) >>= fun _ =>
          FileOp.append (dir, m.1) m.2)) w := rfl
        rw [e, eff_bind_ok (makedirs_run dir w), withDir_self hd, eff_bind_ok (openWrite_ok (p := (dir, m.1)) hd)] at h1
        simp only [Prod.mk.injEq] at h1
        obtain ⟨-, h12, rfl⟩ := h1
        have hv3 := visits_forEach (fun c => visits_step _) m.2 (w.setFile (dir, m.1) (some [])) (f := FileOp.appendByte (dir, m.1))
        have h12' : (Eff.forEach (FileOp.appendByte (dir, m.1)) m.2 (w.setFile (dir, m.1) (some []))).2.1 = w.setFile (dir, m.1) (some m.2) := h12
        rw [h12'] at hv3
        simp only [List.cons_append, List.nil_append, List.mem_cons]
        right
        exact List.mem_cons.1 hv3
      simp [this]
    · exact List.mem_append_right _ h
  exact List.mem_append_left _ hv

/-- so does the download -/
theorem download_visits (env : Env) (url : String) (name dir : String) (w : World) (status : Nat)
    (chunks : List Content) (hs : env.server url = .answered status true chunks)
    (hst : ¬ (400 ≤ status ∧ status < 600)) (hd : w.dirs dir = true)
    (pre post : List (String × Content)) (hpre : pre ≠ []) (hm : (env.untar chunks.flatten).1 = pre ++ post) :
    extracted dir pre ((requested url w).setFile (dir, name) (some chunks.flatten)) ∈
      (downloadTarballAndExtract env url (dir, name) dir w).2.2 := by
  unfold downloadTarballAndExtract
  rw [eff_bind_ok (show (Eff.step fun w => { w with requests := w.requests ++ [url] }) w =
    (.ok (), requested url w, [requested url w]) from rfl)]
  simp only [hs, hst, if_false, not_true]
  have h1 := openWrite_ok (p := (dir, name)) (w := requested url w) hd
  obtain ⟨t2, h2, hx2⟩ := chunks_run (dir, name) chunks ((requested url w).setFile (dir, name) (some [])) []
    (by simp [setFile_files])
  rw [List.nil_append, setFile_setFile] at h2
  set w1 := (requested url w).setFile (dir, name) (some chunks.flatten) with hw1
  have hread : (w1.files (dir, name)).getD [] = chunks.flatten := by simp [hw1, setFile_files]
  obtain ⟨t3, h3, hx3⟩ := extract_run dir (env.untar chunks.flatten).1 w1 hd
  have hv := extract_visits dir pre post hpre w1 hd
  rw [← hm, h3] at hv
  rw [eff_bind_ok h1, eff_bind_ok h2, eff_bind_ok (show Eff.get w1 = (.ok w1, w1, []) from rfl)]
  rw [hread, eff_bind_ok h3]
  simp only [List.mem_append, List.mem_cons]
  right; right; right; right; left
  exact hv

/-- `get_config` only makes directories -/
def configured (env : Env) (w : World) : World := withDir env.cfg.rayleigh_dir (withDir env.cfg.rsr_dir w)

theorem getConfig_run (env : Env) (w : World) :
    getConfig env w = (.ok env.cfg, configured env w, [withDir env.cfg.rsr_dir w, configured env w]) := by
  unfold getConfig
  rw [eff_bind_ok (makedirs_run _ w), eff_bind_ok (makedirs_run _ _)]
  rfl

@[simp] theorem configured_files (env : Env) (w : World) : (configured env w).files = w.files := rfl
@[simp] theorem configured_requests (env : Env) (w : World) : (configured env w).requests = w.requests := rfl
theorem configured_rsr_dir (env : Env) (w : World) : (configured env w).dirs env.cfg.rsr_dir = true := by
  simp [configured, withDir]

end Verif.Lemmas
