import Verif.Model.ConcurrentRayleigh
import Verif.Lemmas.Owns
import Verif.Props.ConcurrentDownload
import Verif.Props.LutDownload
/-
C158: making Rayleigh objects at the same time.
-/
namespace Verif.Props
open Model Spec Lemmas

/-! ### What belongs to one aerosol type -/

/-- what belongs to one directory and one address: the files, whether the directory is there, the archives
and how often the address was asked -/
@[ext] structure Part where
  files : String → Option Content
  dir : Bool
  name : String → Option Nat
  data : String → Option Content
  asked : Nat

def part (D url : String) (s : Shared) : Part :=
  ⟨fun n => s.world.files (D, n), s.world.dirs D, fun n => s.name (D, n), fun n => (s.name (D, n)).map s.data,
    s.world.requests.count url⟩

/-- the files of the directory as a user sees them -/
def Part.visible (k : Part) (n : String) : Option Content :=
  match k.data n with
  | some c => some c
  | none => k.files n

theorem part_visible (D url : String) (s : Shared) (n : String) : (part D url s).visible n = s.view.files (D, n) := by
  unfold Part.visible part Shared.view
  dsimp only
  cases s.name (D, n) <;> rfl

/-- every archive has one name, and new ones are new -/
def NamesFresh (s : Shared) : Prop :=
  (∀ p i, s.name p = some i → i < s.next) ∧ ∀ p q i, s.name p = some i → s.name q = some i → p = q

/-- a step that changes nothing but whether the two configured directories are there -/
def Still (env : Env) (s s' : Shared) : Prop :=
  (∀ p, s'.world.files p = s.world.files p ∧ s'.name p = s.name p ∧ (s'.name p).map s'.data = (s.name p).map s.data) ∧
  (∀ d, d ≠ env.cfg.rsr_dir → d ≠ env.cfg.rayleigh_dir → s'.world.dirs d = s.world.dirs d) ∧
  ∀ u, s'.world.requests.count u = s.world.requests.count u

/-- a step that changes nothing else but what belongs to the directory and the address -/
def Apart (env : Env) (D url : String) (s s' : Shared) : Prop :=
  (∀ p : Path, p.1 ≠ D → s'.world.files p = s.world.files p ∧ s'.name p = s.name p ∧
    (s'.name p).map s'.data = (s.name p).map s.data) ∧
  (∀ d, d ≠ D → d ≠ env.cfg.rsr_dir → d ≠ env.cfg.rayleigh_dir → s'.world.dirs d = s.world.dirs d) ∧
  ∀ u, u ≠ url → s'.world.requests.count u = s.world.requests.count u

theorem still_apart {env : Env} {D url : String} {s s' : Shared} (h : Still env s s') : Apart env D url s s' :=
  ⟨fun p _ => h.1 p, fun d _ => h.2.1 d, fun u _ => h.2.2 u⟩

theorem still_refl (env : Env) (s : Shared) : Still env s s := ⟨fun _ => ⟨rfl, rfl, rfl⟩, fun _ _ _ => rfl, fun _ => rfl⟩

/-- a directory that is none of the configured ones -/
def OwnDir (env : Env) (D : String) : Prop := D ≠ env.cfg.rsr_dir ∧ D ≠ env.cfg.rayleigh_dir

theorem part_still {env : Env} {D url : String} {s s' : Shared} (hD : OwnDir env D) (h : Still env s s') :
    part D url s' = part D url s := by
  unfold part
  rw [h.2.1 D hD.1 hD.2, h.2.2 url]
  congr 1
  · funext n; exact (h.1 (D, n)).1
  · funext n; exact (h.1 (D, n)).2.1
  · funext n; exact (h.1 (D, n)).2.2

theorem part_apart {env : Env} {D D' url url' : String} {s s' : Shared} (hD : OwnDir env D) (hne : D ≠ D') (hu : url ≠ url')
    (h : Apart env D' url' s s') : part D url s' = part D url s := by
  unfold part
  rw [h.2.1 D hne hD.1 hD.2, h.2.2 url hu]
  congr 1
  · funext n; exact (h.1 (D, n) hne).1
  · funext n; exact (h.1 (D, n) hne).2.1
  · funext n; exact (h.1 (D, n) hne).2.2

section steps
variable {env : Env} {D url : String} {β : Type}

theorem owns_still {R : Shared → Shared → Prop} (hR : ∀ s s', Still env s s' → R s s') (hD : OwnDir env D)
    {F : Py β → Part → Prop} {n : Shared → Prog Shared β} {u : Shared → Shared} {k : Part}
    (hu : ∀ s, Still env s (u s) ∧ (NamesFresh s → NamesFresh (u s)))
    (hn : ∀ s, part D url s = k → Owns (part D url) R NamesFresh F k (n s)) :
    Owns (part D url) R NamesFresh F k (.step n u) := by
  intro s hs hk
  refine ⟨(hu s).2 hs, hR _ _ (hu s).1, ?_⟩
  rw [part_still hD (hu s).1, hk]
  exact hn s hk

theorem owns_getConfig {R : Shared → Shared → Prop} (hR : ∀ s s', Still env s s' → R s s') (hD : OwnDir env D) (k : Part) :
    Owns (part D url) R NamesFresh (fun r k' => r = .ok () ∧ k' = k) k (getConfigP env) := by
  have hdir : ∀ (d : String) (s : Shared), d = env.cfg.rsr_dir ∨ d = env.cfg.rayleigh_dir →
      Still env s { s with world := { s.world with dirs := fun x => if x = d then true else s.world.dirs x } } := by
    intro d s hd
    refine ⟨fun _ => ⟨rfl, rfl, rfl⟩, fun x h1 h2 => ?_, fun _ => rfl⟩
    show (if x = d then true else s.world.dirs x) = _
    rw [if_neg]
    rintro rfl
    rcases hd with h | h
    · exact h1 h
    · exact h2 h
  refine owns_still hR hD (fun s => ⟨hdir _ s (Or.inl rfl), fun h => h⟩) fun s _ => ?_
  exact owns_still hR hD (fun s => ⟨hdir _ s (Or.inr rfl), fun h => h⟩) fun s _ => ⟨rfl, rfl⟩

theorem lutUptodate_congr (env : Env) (t : String) (w v : World)
    (h : ∀ n, w.files (rayleighLutDir env t, n) = v.files (rayleighLutDir env t, n)) :
    lutVersionUptodate env w t = lutVersionUptodate env v t := by
  unfold lutVersionUptodate versionIn
  cases ATM_CORRECTION_LUT_VERSION.get? t with
  | none => rfl
  | some e => simp only [h]

theorem owns_config {R : Shared → Shared → Prop} (hR : ∀ s s', Still env s s' → R s s') (t atm : String)
    (hD : OwnDir env (rayleighLutDir env t)) (k : Part) (w : World) (hw : ∀ n, w.files (rayleighLutDir env t, n) = k.visible n) :
    Owns (part (rayleighLutDir env t) url) R NamesFresh (fun r k' => r = (rayleighConfig env t atm w).1 ∧ k' = k) k
      (rayleighConfigP env t atm) := by
  have hr : (rayleighConfig env t atm w).1 = if ATMOSPHERES.contains atm = true ∧ t ∈ AEROSOL_TYPES
      then .ok (lutVersionUptodate env w t) else .error .attributeError := by
    obtain ⟨tr, htr, -⟩ := rayleighConfig_run env t atm w
    rw [htr]
  rw [hr]
  unfold rayleighConfigP
  refine owns_then (owns_getConfig hR hD k) ?_
  by_cases h1 : ATMOSPHERES.contains atm = true
  · by_cases h2 : t ∈ AEROSOL_TYPES
    · have h2' : AEROSOL_TYPES.contains t = true := by simpa using h2
      simp only [h1, h2, h2', not_true, if_false, if_true, and_self]
      refine owns_then (owns_getConfig hR hD k) ?_
      refine owns_still hR hD (fun s => ⟨still_refl env s, fun h => h⟩) fun s hs => ⟨?_, rfl⟩
      rw [lutUptodate_congr env t s.view w]
      intro n
      rw [hw, ← hs, part_visible]
    · have h2' : AEROSOL_TYPES.contains t = false := by simpa using h2
      simp only [h1, h2, h2', not_true, if_false, if_true, and_false, Bool.false_eq_true, not_false_eq_true]
      exact ⟨rfl, rfl⟩
  · have h1' : ATMOSPHERES.contains atm = false := by simpa using h1
    simp only [h1', Bool.false_eq_true, false_and, if_false, not_false_eq_true, if_true]
    exact ⟨rfl, rfl⟩

/-! ### Steps that change the own part -/

theorem part_setFile (s : Shared) (n : String) (c : Option Content) :
    part D url { s with world := s.world.setFile (D, n) c } =
      { part D url s with files := Function.update (part D url s).files n c } := by
  refine Part.ext ?_ rfl rfl rfl rfl
  funext x
  show (s.world.setFile (D, n) c).files (D, x) = _
  rw [setFile_files]
  by_cases hx : x = n
  · subst hx; simp
  · rw [if_neg (fun h => hx (Prod.mk.inj h).2)]
    simp only
    rw [Function.update_of_ne hx]
    rfl

theorem apart_setFile (env : Env) (D url : String) (s : Shared) (n : String) (c : Option Content) :
    Apart env D url s { s with world := s.world.setFile (D, n) c } := by
  refine ⟨fun p hp => ⟨?_, rfl, rfl⟩, fun _ _ _ _ => rfl, fun _ _ => rfl⟩
  show (s.world.setFile (D, n) c).files p = _
  rw [setFile_files, if_neg]
  rintro rfl
  exact hp rfl

theorem owns_makedirs (k : Part) :
    Owns (part D url) (Apart env D url) NamesFresh (fun r k' => r = .ok () ∧ k' = { k with dir := true }) k (onWorldP (makedirsP D)) := by
  intro s hs hk
  refine ⟨hs, ⟨fun _ _ => ⟨rfl, rfl, rfl⟩, fun d hd _ _ => ?_, fun _ _ => rfl⟩, rfl, ?_⟩
  · show (if d = D then true else s.world.dirs d) = _
    rw [if_neg hd]
  · rw [← hk]
    refine Part.ext rfl ?_ rfl rfl rfl
    show (if D = D then true else s.world.dirs D) = true
    rw [if_pos rfl]

theorem owns_write (n : String) (data : Content) : ∀ (k : Part) (c : Content), k.files n = some c →
    Owns (part D url) (Apart env D url) NamesFresh
      (fun r k' => r = .ok () ∧ k' = { k with files := Function.update k.files n (some (c ++ data)) }) k
      (onWorldP (writeP (D, n) c.length data)) := by
  induction data with
  | nil =>
    intro k c hc
    refine ⟨rfl, ?_⟩
    rw [List.append_nil, ← hc, Function.update_eq_self]
  | cons b bs ih =>
    intro k c hc s hs hk
    refine ⟨hs, apart_setFile env D url s n _, ?_⟩
    have hf : s.world.files (D, n) = some c := by rw [← hc, ← hk]; rfl
    dsimp only
    rw [hf, Option.getD_some, writeAt_end, part_setFile, hk]
    have := ih { k with files := Function.update k.files n (some (c ++ [b])) } (c ++ [b]) (by simp)
    rw [List.length_append] at this
    refine owns_weaken ?_ _ _ this
    rintro r k' ⟨h1, h2⟩
    refine ⟨h1, ?_⟩
    rw [h2, Function.update_idem, List.append_assoc]
    rfl

/-- the directory after the members were written -/
def written (ms : List (String × Content)) (f : String → Option Content) : String → Option Content :=
  ms.foldl (fun f m => Function.update f m.1 (some m.2)) f

theorem owns_extract (ms : List (String × Content)) : ∀ k : Part, k.dir = true →
    Owns (part D url) (Apart env D url) NamesFresh (fun r k' => r = .ok () ∧ k' = { k with files := written ms k.files }) k
      (onWorldP (extractAllP D ms)) := by
  induction ms with
  | nil => exact fun k _ => ⟨rfl, rfl⟩
  | cons m ms ih =>
    intro k hd
    have onWorld_bind : ∀ {β γ : Type} (P : Prog World β) (f : β → Prog World γ),
        onWorldP (P.bind f) = (onWorldP P).bind fun a => onWorldP (f a) := by
      intro β γ P f
      induction P with
      | done r => cases r <;> rfl
      | step n u ih =>
        show Prog.step _ _ = Prog.step _ _
        congr 1
        funext s
        exact ih s.world
    unfold extractAllP extractMemberP
    rw [onWorld_bind, onWorld_bind, bind_assoc]
    refine owns_then (owns_makedirs k) ?_
    have hk : ({ k with dir := true } : Part) = k := Part.ext rfl hd.symm rfl rfl rfl
    rw [hk, onWorld_bind, bind_assoc]
    refine owns_then (a := ()) (k' := { k with files := Function.update k.files m.1 (some []) }) ?_ ?_
    · intro s hs hks
      have hds : s.world.dirs D = true := by rw [← hd, ← hks]; rfl
      dsimp only
      rw [if_pos hds, if_pos hds]
      refine ⟨hs, apart_setFile env D url s m.1 _, rfl, ?_⟩
      rw [part_setFile, hks]
    · refine owns_then (owns_write m.1 m.2 _ [] (by simp)) ?_
      have := ih { k with files := Function.update k.files m.1 (some m.2) } hd
      rw [List.nil_append, Function.update_idem]
      exact this

theorem owns_openArchive (nm : String) (k : Part) (hd : k.dir = true) :
    Owns (part D url) (Apart env D url) NamesFresh (fun r k' => ∃ i, r = .ok i ∧
      k' = { k with name := Function.update k.name nm (some i), data := Function.update k.data nm (some []) }) k
      (openArchiveP (D, nm)) := by
  intro s hs hk
  have hds : s.world.dirs D = true := by rw [← hd, ← hk]; rfl
  dsimp only
  rw [if_pos hds, if_pos hds]
  -- the archive is nobody else's
  have hother : ∀ q, q ≠ (D, nm) → ∀ j, s.name q = some j → j ≠ s.handle (D, nm) := by
    intro q hq j hj he
    unfold Shared.handle at he
    cases hn : s.name (D, nm) with
    | none =>
      rw [hn] at he
      have := hs.1 q j hj
      simp at he
      omega
    | some l =>
      rw [hn] at he
      simp at he
      exact hq (hs.2 q (D, nm) j hj (by rw [hn, he]))
  have hdata : ∀ q, q ≠ (D, nm) → ((s.opened (D, nm)).name q).map (s.opened (D, nm)).data = (s.name q).map s.data := by
    intro q hq
    rw [opened_other s _ q hq]
    cases hn : s.name q with
    | none => rfl
    | some j => rw [Option.map_some, Option.map_some, opened_data_other s _ j (hother q hq j hn)]
  refine ⟨⟨?_, ?_⟩, ⟨fun p hp => ?_, fun d _ _ _ => by rw [opened_world], fun u _ => by rw [opened_world]⟩, s.handle (D, nm), rfl, ?_⟩
  · intro p i hi
    have hle : s.next ≤ (s.opened (D, nm)).next ∧ (s.name (D, nm) = none → (s.opened (D, nm)).next = s.next + 1) := by
      unfold Shared.opened
      cases hn : s.name (D, nm) with
      | none => simp
      | some j => simp [Shared.setData]
    by_cases hp : p = (D, nm)
    · subst hp
      rw [opened_name] at hi
      cases hi
      unfold Shared.handle
      cases hn : s.name (D, nm) with
      | none => have := hle.2 hn; simp; omega
      | some j => have := hs.1 _ _ hn; simp; omega
    · rw [opened_other s _ p hp] at hi
      have := hs.1 p i hi
      omega
  · intro p q i hp hq
    by_cases hp' : p = (D, nm)
    · by_cases hq' : q = (D, nm)
      · rw [hp', hq']
      · subst hp'
        rw [opened_name] at hp
        rw [opened_other s _ q hq'] at hq
        cases hp
        exact absurd rfl (hother q hq' _ hq)
    · rw [opened_other s _ p hp'] at hp
      by_cases hq' : q = (D, nm)
      · subst hq'
        rw [opened_name] at hq
        cases hq
        exact absurd rfl (hother p hp' _ hp)
      · rw [opened_other s _ q hq'] at hq
        exact hs.2 p q i hp hq
  · have hne : p ≠ (D, nm) := by rintro rfl; exact hp rfl
    exact ⟨by rw [opened_world], opened_other s _ p hne, hdata p hne⟩
  · rw [← hk]
    refine Part.ext ?_ ?_ ?_ ?_ ?_
    · show (fun n => (s.opened (D, nm)).world.files (D, n)) = _
      rw [opened_world]; rfl
    · show (s.opened (D, nm)).world.dirs D = _
      rw [opened_world]; rfl
    · funext x
      show (s.opened (D, nm)).name (D, x) = _
      by_cases hx : x = nm
      · subst hx
        rw [opened_name]
        simp
      · rw [opened_other s _ _ (fun h => hx (Prod.mk.inj h).2)]
        simp only
        rw [Function.update_of_ne hx]
        rfl
    · funext x
      show ((s.opened (D, nm)).name (D, x)).map (s.opened (D, nm)).data = _
      by_cases hx : x = nm
      · subst hx
        rw [opened_name, Option.map_some, opened_data]
        simp
      · rw [hdata _ (fun h => hx (Prod.mk.inj h).2)]
        simp only
        rw [Function.update_of_ne hx]
        rfl
    · show (s.opened (D, nm)).world.requests.count url = _
      rw [opened_world]; rfl

/-- changing the data of an archive -/
theorem owns_setData (s : Shared) (hs : NamesFresh s) (nm : String) (i : Nat) (hi : s.name (D, nm) = some i) (c : Content) :
    NamesFresh (s.setData i c) ∧ Apart env D url s (s.setData i c) ∧
    part D url (s.setData i c) = { part D url s with data := Function.update (part D url s).data nm (some c) } := by
  have hdata : ∀ q, q ≠ (D, nm) → (s.name q).map (s.setData i c).data = (s.name q).map s.data := by
    intro q hq
    cases hn : s.name q with
    | none => rfl
    | some j =>
      have : j ≠ i := by
        rintro rfl
        exact hq (hs.2 _ _ _ hn hi)
      simp [Shared.setData, this]
  refine ⟨hs, ⟨fun p hp => ⟨rfl, rfl, hdata p ?_⟩, fun _ _ _ _ => rfl, fun _ _ => rfl⟩, ?_⟩
  · rintro rfl; exact hp rfl
  · refine Part.ext rfl rfl rfl ?_ rfl
    funext x
    show (s.name (D, x)).map (s.setData i c).data = _
    by_cases hx : x = nm
    · subst hx
      rw [hi, Option.map_some, setData_data]
      simp
    · rw [hdata _ (fun h => hx (Prod.mk.inj h).2)]
      simp only
      rw [Function.update_of_ne hx]
      rfl

theorem owns_writeArchive (nm : String) (i : Nat) (data : Content) : ∀ (k : Part) (c : Content), k.name nm = some i →
    k.data nm = some c →
    Owns (part D url) (Apart env D url) NamesFresh
      (fun r k' => r = .ok () ∧ k' = { k with data := Function.update k.data nm (some (c ++ data)) }) k
      (writeArchiveP i c.length data) := by
  induction data with
  | nil =>
    intro k c _ hc
    refine ⟨rfl, ?_⟩
    rw [List.append_nil, ← hc, Function.update_eq_self]
  | cons b bs ih =>
    intro k c hn hc s hs hk
    have hi : s.name (D, nm) = some i := by rw [← hn, ← hk]; rfl
    have hd : s.data i = c := by
      have : (s.name (D, nm)).map s.data = some c := by rw [← hc, ← hk]; rfl
      rw [hi] at this
      exact Option.some.inj this
    dsimp only
    rw [hd, writeAt_end]
    obtain ⟨h1, h2, h3⟩ := owns_setData (env := env) (url := url) s hs nm i hi (c ++ [b])
    refine ⟨h1, h2, ?_⟩
    rw [h3, hk]
    have := ih { k with data := Function.update k.data nm (some (c ++ [b])) } (c ++ [b]) hn (by simp)
    rw [List.length_append] at this
    refine owns_weaken ?_ _ _ this
    rintro r k' ⟨h1, h2⟩
    refine ⟨h1, ?_⟩
    rw [h2, Function.update_idem, List.append_assoc]
    rfl

theorem owns_look {R : Shared → Shared → Prop} (hR : ∀ s, R s s) {F : Py β → Part → Prop} {f : Shared → Prog Shared β} {k : Part}
    (h : ∀ s, part D url s = k → Owns (part D url) R NamesFresh F k (f s)) : Owns (part D url) R NamesFresh F k (.look f) := by
  intro s hs hk
  refine ⟨hs, hR s, ?_⟩
  show Owns _ _ _ _ (part D url s) _
  rw [hk]
  exact h s hk

theorem owns_readArchive (nm : String) (i : Nat) (k : Part) (c : Content) (hn : k.name nm = some i) (hc : k.data nm = some c)
    (m : Nat) : ∀ (j : Nat) (acc : Content), c.length ≤ j + m →
    Owns (part D url) (Apart env D url) NamesFresh (fun r k' => r = .ok (acc ++ c.drop j) ∧ k' = k) k (readArchiveP i j m acc) := by
  induction m with
  | zero =>
    intro j acc hj
    refine ⟨?_, rfl⟩
    rw [List.drop_of_length_le (by omega), List.append_nil]
  | succ m ih =>
    intro j acc hj
    refine owns_look (fun s => still_apart (still_refl env s)) fun s hk => ?_
    have hi : s.name (D, nm) = some i := by rw [← hn, ← hk]; rfl
    have hd : s.data i = c := by
      have : (s.name (D, nm)).map s.data = some c := by rw [← hc, ← hk]; rfl
      rw [hi] at this
      exact Option.some.inj this
    rw [hd]
    by_cases hlt : j < c.length
    · rw [List.getElem?_eq_getElem hlt]
      have := ih (j + 1) (acc ++ [c[j]]) (by omega)
      rw [List.append_assoc, List.singleton_append, ← List.drop_eq_getElem_cons hlt] at this
      exact this
    · rw [List.getElem?_eq_none (by omega)]
      refine ⟨?_, rfl⟩
      rw [List.drop_of_length_le (by omega), List.append_nil]

theorem owns_readAll (nm : String) (size i : Nat) (k : Part) (c : Content) (hn : k.name nm = some i) (hc : k.data nm = some c) :
    Owns (part D url) (Apart env D url) NamesFresh (fun r k' => r = .ok c ∧ k' = k) k (readAllP (D, nm) size) := by
  unfold readAllP
  refine owns_look (fun s => still_apart (still_refl env s)) fun s hk => ?_
  have hi : s.name (D, nm) = some i := by rw [← hn, ← hk]; rfl
  have hd : s.data i = c := by
    have : (s.name (D, nm)).map s.data = some c := by rw [← hc, ← hk]; rfl
    rw [hi] at this
    exact Option.some.inj this
  rw [hi]
  have := owns_readArchive (D := D) (url := url) (env := env) nm i k c hn hc (max size (s.data i).length) 0 [] (by rw [hd]; omega)
  simpa using this

theorem owns_remove (nm : String) (i : Nat) (k : Part) (hn : k.name nm = some i) :
    Owns (part D url) (Apart env D url) NamesFresh (fun r k' => r = .ok () ∧
      k' = { k with name := Function.update k.name nm none, data := Function.update k.data nm none }) k (removeP (D, nm)) := by
  intro s hs hk
  have hi : s.name (D, nm) = some i := by rw [← hn, ← hk]; rfl
  have hname : ∀ q, (s.setName (D, nm) none).name q = if q = (D, nm) then none else s.name q := fun _ => rfl
  dsimp only
  rw [hi]
  refine ⟨⟨fun p j hj => ?_, fun p q j hp hq => ?_⟩, ⟨fun p hp => ?_, fun _ _ _ _ => rfl, fun _ _ => rfl⟩, rfl, ?_⟩
  · rw [hname] at hj
    split_ifs at hj
    exact hs.1 p j hj
  · rw [hname] at hp hq
    split_ifs at hp hq
    exact hs.2 p q j hp hq
  · have hne : p ≠ (D, nm) := by rintro rfl; exact hp rfl
    have : (s.setName (D, nm) none).name p = s.name p := by rw [hname, if_neg hne]
    exact ⟨rfl, this, by rw [this]; rfl⟩
  · rw [← hk]
    refine Part.ext rfl rfl ?_ ?_ rfl
    · funext x
      show (s.setName (D, nm) none).name (D, x) = _
      rw [hname]
      by_cases hx : x = nm
      · subst hx; simp
      · rw [if_neg (fun h => hx (Prod.mk.inj h).2)]
        simp only
        rw [Function.update_of_ne hx]
        rfl
    · funext x
      show ((s.setName (D, nm) none).name (D, x)).map s.data = _
      rw [hname]
      by_cases hx : x = nm
      · subst hx; simp
      · rw [if_neg (fun h => hx (Prod.mk.inj h).2)]
        simp only
        rw [Function.update_of_ne hx]
        rfl

/-! ### The download -/

theorem extracted_written (D : String) (ms : List (String × Content)) : ∀ (w : World) (n : String),
    (extracted D ms w).files (D, n) = written ms (fun n => w.files (D, n)) n := by
  induction ms with
  | nil => exact fun _ _ => rfl
  | cons m ms ih =>
    intro w n
    show (extracted D ms (w.setFile (D, m.1) (some m.2))).files (D, n) = written ms (Function.update _ m.1 (some m.2)) n
    rw [ih]
    congr 1
    funext x
    rw [setFile_files]
    by_cases hx : x = m.1
    · subst hx; simp
    · rw [if_neg (fun h => hx (Prod.mk.inj h).2), Function.update_of_ne hx]

theorem written_congr (ms : List (String × Content)) (n : String) : ∀ f g : String → Option Content, f n = g n →
    written ms f n = written ms g n := by
  induction ms with
  | nil => exact fun _ _ h => h
  | cons m ms ih =>
    intro f g h
    refine ih _ _ ?_
    show Function.update f m.1 (some m.2) n = Function.update g m.1 (some m.2) n
    by_cases hx : n = m.1
    · subst hx; simp
    · rw [Function.update_of_ne hx, Function.update_of_ne hx, h]

theorem written_other (ms : List (String × Content)) (n : String) : ∀ f : String → Option Content, (∀ m ∈ ms, m.1 ≠ n) →
    written ms f n = f n := by
  induction ms with
  | nil => exact fun _ _ => rfl
  | cons m ms ih =>
    intro f h
    have := ih (Function.update f m.1 (some m.2)) fun m' hm' => h m' (by simp [hm'])
    rw [Function.update_of_ne (h m (by simp)).symm] at this
    exact this

/-- the archive is not among the ordinary files, and there is no other archive in the directory -/
def OneArchive (nm : String) (k : Part) : Prop := k.files nm = none ∧ ∀ n, n ≠ nm → k.data n = none

theorem owns_download (nm : String) (k : Part) (hd : k.dir = true) (hk : OneArchive nm k)
    (hm : ∀ st ok chunks, env.server url = .answered st ok chunks → ∀ m ∈ (env.untar chunks.flatten).1, m.1 ≠ nm)
    (v : World) (hvd : v.dirs D = true) (hv : ∀ n, v.files (D, n) = k.visible n) (hvr : v.requests.count url = k.asked) :
    Owns (part D url) (Apart env D url) NamesFresh
      (fun r k' => r = (downloadTarballAndExtract env url (D, nm) D v).1 ∧
        (∀ n, k'.visible n = (downloadTarballAndExtract env url (D, nm) D v).2.1.files (D, n)) ∧
        k'.asked = (downloadTarballAndExtract env url (D, nm) D v).2.1.requests.count url)
      k (downloadTarballP env url (D, nm) D) := by
  have hact : Owns (part D url) (Apart env D url) NamesFresh (fun r k' => r = .ok () ∧ k' = { k with asked := k.asked + 1 }) k
      (Prog.act fun s : Shared => { s with world := { s.world with requests := s.world.requests ++ [url] } }) := by
    intro s hs hks
    refine ⟨hs, ⟨fun _ _ => ⟨rfl, rfl, rfl⟩, fun _ _ _ _ => rfl, fun u hu => ?_⟩, rfl, ?_⟩
    · show (s.world.requests ++ [url]).count u = _
      rw [List.count_append, List.count_eq_zero_of_not_mem (a := u) (l := [url]) (by simpa using hu), Nat.add_zero]
    · rw [← hks]
      refine Part.ext rfl rfl rfl rfl ?_
      show (s.world.requests ++ [url]).count url = _
      rw [List.count_append]
      simp [part]
  have hreq : (requested url v).requests.count url = k.asked + 1 := by
    show (v.requests ++ [url]).count url = _
    rw [List.count_append, hvr]
    simp
  have hbad : ∀ e, ((∃ e, env.server url = .raises e) ∨
      ∃ st ok ch, env.server url = .answered st ok ch ∧ ((400 ≤ st ∧ st < 600) ∨ ok = false)) →
      (∀ s, ((downloadTarballP env url (D, nm) D).run s).1 = .error e) →
      (.error e : Py Unit) = (downloadTarballAndExtract env url (D, nm) D v).1 ∧
      (∀ n, ({ k with asked := k.asked + 1 } : Part).visible n =
        (downloadTarballAndExtract env url (D, nm) D v).2.1.files (D, n)) ∧
      k.asked + 1 = (downloadTarballAndExtract env url (D, nm) D v).2.1.requests.count url := by
    intro e h1 h2
    have := run_download_bad env url (D, nm) D ⟨v, fun _ => none, fun _ => [], 0⟩ v h1
    refine ⟨?_, fun n => ?_, by rw [this.2, hreq]⟩
    · rw [← h2 ⟨v, fun _ => none, fun _ => [], 0⟩, this.1]
    · rw [this.2]
      exact (hv n).symm
  cases hs : env.server url with
  | raises e =>
    have h := hbad e (Or.inl ⟨e, hs⟩) (fun s => by unfold downloadTarballP; rw [hs]; rfl)
    unfold downloadTarballP
    refine owns_then hact ?_
    simp only [hs]
    exact h
  | answered st ok chunks =>
    by_cases h4 : 400 ≤ st ∧ st < 600
    · have h := hbad .httpError (Or.inr ⟨st, ok, chunks, hs, Or.inl h4⟩) (fun s => by
        unfold downloadTarballP
        simp only [hs, if_pos h4]
        rfl)
      unfold downloadTarballP
      refine owns_then hact ?_
      simp only [hs, if_pos h4]
      exact h
    · cases ok with
      | false =>
        have h := hbad .valueError (Or.inr ⟨st, false, chunks, hs, Or.inr rfl⟩) (fun s => by
          unfold downloadTarballP
          simp only [hs, if_neg h4, Bool.false_eq_true, not_false_eq_true, if_true]
          rfl)
        unfold downloadTarballP
        refine owns_then hact ?_
        simp only [hs, if_neg h4, Bool.false_eq_true, not_false_eq_true, if_true]
        exact h
      | true =>
        obtain ⟨tr, hdl, -⟩ := download_run env url nm D v st chunks hs h4 hvd
        set E := chunks.flatten with hE
        have hm' := hm st true chunks hs
        rw [← hE] at hm'
        unfold downloadTarballP
        refine owns_then hact ?_
        simp only [hs, if_neg h4, not_true, if_false, ← hE]
        set k1 : Part := { k with asked := k.asked + 1 } with hk1
        refine owns_bind ?_ (fun e k' h => by obtain ⟨i, h, -⟩ := h; cases h) _ _ (owns_openArchive nm k1 hd)
        rintro i k2 ⟨j, hij, rfl⟩
        cases hij
        refine owns_then (owns_writeArchive nm i E _ [] (by simp) (by simp)) ?_
        rw [List.nil_append, Function.update_idem]
        refine owns_then (owns_readAll nm E.length i _ E (by simp) (by simp)) ?_
        unfold unpackP
        refine owns_then (owns_extract (env.untar E).1 _ hd) ?_
        have hbase : ∀ n, n ≠ nm → written (env.untar E).1 k.files n =
            (extracted D (env.untar E).1 ((requested url v).setFile (D, nm) (some E))).files (D, n) := by
          intro n hn
          rw [extracted_written]
          refine written_congr _ n _ _ ?_
          rw [setFile_files, if_neg (fun h => hn (Prod.mk.inj h).2)]
          show _ = v.files (D, n)
          rw [hv n]
          unfold Part.visible
          rw [hk.2 n hn]
        cases hok : (env.untar E).2 with
        | false =>
          rw [hdl]
          simp only [hok, Bool.false_eq_true, if_false]
          refine ⟨rfl, fun n => ?_, by simpa [World.setFile] using hreq.symm⟩
          unfold Part.visible
          simp only
          by_cases hn : n = nm
          · subst hn
            rw [Function.update_self]
            simp only
            rw [extracted_other D _ _ (fun m hmm h => hm' m hmm (Prod.mk.inj h).2.symm), setFile_files, if_pos rfl]
          · rw [Function.update_of_ne hn, hk.2 n hn]
            exact hbase n hn
        | true =>
          rw [hdl]
          simp only [hok, if_true]
          refine owns_weaken ?_ _ _ (owns_remove nm i _ (by simp))
          rintro r k' ⟨rfl, rfl⟩
          refine ⟨rfl, fun n => ?_, by simpa [World.setFile] using hreq.symm⟩
          unfold Part.visible
          simp only
          rw [setFile_files]
          by_cases hn : n = nm
          · subst hn
            rw [Function.update_self, if_pos rfl]
            simp only
            rw [written_other _ _ _ hm']
            exact hk.1
          · rw [Function.update_of_ne hn, Function.update_of_ne hn, hk.2 n hn, if_neg (fun h => hn (Prod.mk.inj h).2)]
            exact hbase n hn
  | broken chunks e =>
    obtain ⟨tr, hdl, -⟩ := download_broken env url nm D v chunks e hs hvd
    set E := chunks.flatten with hE
    unfold downloadTarballP
    refine owns_then hact ?_
    simp only [hs, ← hE]
    set k1 : Part := { k with asked := k.asked + 1 } with hk1
    refine owns_bind ?_ (fun e k' h => by obtain ⟨i, h, -⟩ := h; cases h) _ _ (owns_openArchive nm k1 hd)
    rintro i k2 ⟨j, hij, rfl⟩
    cases hij
    refine owns_then (owns_writeArchive nm i E _ [] (by simp) (by simp)) ?_
    rw [List.nil_append, Function.update_idem, hdl]
    refine ⟨rfl, fun n => ?_, by simpa [World.setFile] using hreq.symm⟩
    unfold Part.visible
    simp only
    rw [setFile_files]
    by_cases hn : n = nm
    · subst hn
      rw [Function.update_self, if_pos rfl]
    · rw [Function.update_of_ne hn, hk.2 n hn, if_neg (fun h => hn (Prod.mk.inj h).2)]
      show _ = v.files (D, n)
      rw [hv n]
      unfold Part.visible
      rw [hk.2 n hn]

end steps

/-! ### Making an object -/

/-- the address of the tables of a type -/
def ownUrl (t : String) : String := if t ∈ AEROSOL_TYPES then lutUrl t else ""

theorem owns_new {env : Env} {R : Shared → Shared → Prop} (pl se atm t : String) (w : World)
    (hR : ∀ s s', Still env s s' → R s s')
    (hA : t ∈ AEROSOL_TYPES → lutVersionUptodate env w t = false → env.cfg.download_from_internet = true →
      ∀ s s', Apart env (lutDir env t) (lutUrl t) s s' → R s s')
    (hD : OwnDir env (lutDir env t)) (k : Part) (hk : OneArchive LUT_TARBALL k)
    (hm : ∀ st ok chunks, env.server (lutUrl t) = .answered st ok chunks → ∀ m ∈ (env.untar chunks.flatten).1, m.1 ≠ LUT_TARBALL)
    (hw : ∀ n, w.files (lutDir env t, n) = k.visible n) (hwr : w.requests.count (ownUrl t) = k.asked) :
    Owns (part (lutDir env t) (ownUrl t)) R NamesFresh
      (fun r k' => r = (rayleighNew env pl se atm t w).1 ∧
        (∀ n, k'.visible n = (rayleighNew env pl se atm t w).2.1.files (lutDir env t, n)) ∧
        k'.asked = (rayleighNew env pl se atm t w).2.1.requests.count (ownUrl t)) k (rayleighNewP env pl se atm t) := by
  obtain ⟨tr, htr, -⟩ := rayleighConfig_run env t atm w
  unfold rayleighNewP
  by_cases hv : ATMOSPHERES.contains atm = true ∧ t ∈ AEROSOL_TYPES
  swap
  · rw [if_neg hv, if_neg hv] at htr
    have e : rayleighNew env pl se atm t w = (.error .attributeError, configured env w, tr) := by
      unfold rayleighNew
      rw [eff_bind_error htr]
    refine owns_bind ?_ ?_ _ _ (owns_config hR t atm hD k w hw)
    · rintro a k' ⟨h, -⟩
      rw [htr] at h
      cases h
    · rintro e' k' ⟨h, rfl⟩
      rw [htr] at h
      cases h
      rw [e]
      exact ⟨rfl, fun n => (hw n).symm, hwr.symm⟩
  rw [if_pos hv, if_pos hv] at htr
  refine owns_then (a := lutVersionUptodate env w t) (k' := k) ?_ ?_
  · have := owns_config (url := ownUrl t) hR t atm hD k w hw
    rw [htr] at this
    exact this
  cases hse : normalizeSensor pl se with
  | error e =>
    have e' : rayleighNew env pl se atm t w = (.error e, configured env (configured env w), tr) := by
      unfold rayleighNew
      rw [eff_bind_ok htr, hse]
      rw [eff_bind_error (show Eff.lift (.error e) _ = (.error e, _, []) from rfl), List.append_nil]
    rw [e']
    exact ⟨rfl, fun n => (hw n).symm, hwr.symm⟩
  | ok sensor =>
    obtain ⟨v, tr', hvf, hvr, -, hnew⟩ := rayleighNew_run env pl se atm t w hv.1 hv.2 sensor hse
    show Owns _ _ _ _ k (Prog.bind (getConfigP env) _)
    refine owns_then (owns_getConfig hR hD k) ?_
    dsimp only
    by_cases hd : lutVersionUptodate env w t = false ∧ env.cfg.download_from_internet = true
    · rw [if_pos hd] at hnew
      rw [if_pos (by simp [hd.1, hd.2])]
      have hu : ownUrl t = lutUrl t := if_pos hv.2
      unfold downloadLutP
      rw [lutUrl_table t hv.2, hu]
      show Owns _ _ _ _ k (Prog.bind (Prog.bind (getConfigP env) _) _)
      rw [bind_assoc]
      refine owns_then (owns_getConfig hR hD k) ?_
      rw [bind_assoc]
      refine owns_then (owns_rel (hA hv.2 hd.1 hd.2) _ _ (owns_makedirs k)) ?_
      rw [downloadLut_eq env t (lutUrl t) (lutUrl_table t hv.2)] at hnew
      have := owns_download (env := env) (D := lutDir env t) (url := lutUrl t) LUT_TARBALL { k with dir := true } rfl hk hm
        (withDir (rayleighLutDir env t) (configured env v)) (by simp [withDir, lutDir, rayleighLutDir])
        (fun n => by
          show v.files (lutDir env t, n) = _
          rw [hvf]
          exact hw n) (by
          show v.requests.count (lutUrl t) = _
          rw [hvr, ← hu]
          exact hwr)
      refine owns_bind ?_ ?_ _ _ (owns_rel (hA hv.2 hd.1 hd.2) _ _ this)
      · rintro a k' ⟨h1, h2, h3⟩
        simp only [rayleighLutDir] at h1 h2 h3 hnew
        simp only [lutDir] at h1 h2 h3 hnew ⊢
        rw [← h1] at hnew
        simp only at hnew
        rw [hnew]
        exact ⟨rfl, h2, h3⟩
      · rintro a k' ⟨h1, h2, h3⟩
        simp only [rayleighLutDir] at h1 h2 h3 hnew
        simp only [lutDir] at h1 h2 h3 hnew ⊢
        rw [← h1] at hnew
        simp only at hnew
        rw [hnew]
        exact ⟨rfl, h2, h3⟩
    · rw [if_neg hd] at hnew
      rw [if_neg (by simpa using hd), hnew]
      exact ⟨rfl, fun n => by rw [hvf]; exact (hw n).symm, by rw [hvr]; exact hwr.symm⟩

theorem ownDir_lut (env : Env) (t : String) (h : env.cfg.rsr_dir ≠ lutDir env t) : OwnDir env (lutDir env t) := by
  refine ⟨Ne.symm h, fun he => ?_⟩
  have := congrArg String.length he
  unfold lutDir at this
  rw [String.length_append, String.length_append] at this
  have h1 : "/".length = 1 := rfl
  omega

theorem lutDir_inj {env : Env} {a b : String} (h : lutDir env a = lutDir env b) : a = b := by
  unfold lutDir at h
  have := congrArg String.toList h
  simp only [String.toList_append] at this
  exact String.toList_inj.1 (List.append_cancel_left this)

/-- archives of tables are the files with the archives' name -/
def ArchivesNamed (s : Shared) : Prop :=
  NamesFresh s ∧ ∀ p : Path, (p.2 = LUT_TARBALL → s.world.files p = none) ∧ (p.2 ≠ LUT_TARBALL → s.name p = none)

theorem oneArchive_part {s : Shared} (h : ArchivesNamed s) (D url : String) : OneArchive LUT_TARBALL (part D url s) := by
  refine ⟨(h.2 (D, LUT_TARBALL)).1 rfl, fun n hn => ?_⟩
  show (s.name (D, n)).map s.data = none
  rw [(h.2 (D, n)).2 hn]
  rfl

/-- no archive has a member with the name of the archives -/
def NoNested (env : Env) : Prop :=
  ∀ url st ok chunks, env.server url = .answered st ok chunks → ∀ m ∈ (env.untar chunks.flatten).1, m.1 ≠ LUT_TARBALL

/-- C158: a process that runs alone does what the sequential model says. -/
theorem C158_alone (env : Env) (pl se atm t : String) (s : Shared) (hs : ArchivesNamed s) (hm : NoNested env)
    (hdir : env.cfg.rsr_dir ≠ lutDir env t) :
    ((rayleighNewP env pl se atm t).run s).1 = (rayleighNew env pl se atm t s.view).1 ∧
    (∀ n, ((rayleighNewP env pl se atm t).run s).2.view.files (lutDir env t, n) =
      (rayleighNew env pl se atm t s.view).2.1.files (lutDir env t, n)) := by
  have := owns_run (R := fun _ _ => True) (rayleighNewP env pl se atm t) s hs.1 (owns_new pl se atm t s.view (fun _ _ _ => trivial)
    (fun _ _ _ _ _ _ => trivial) (ownDir_lut env t hdir) (part (lutDir env t) (ownUrl t) s) (oneArchive_part hs _ _) (hm _)
    (fun n => (part_visible _ _ s n).symm) rfl)
  exact ⟨this.1, fun n => by rw [← part_visible (lutDir env t) (ownUrl t), this.2.1 n]⟩

theorem view_files_congr {a b : Shared} {p : Path} (h1 : b.world.files p = a.world.files p)
    (h2 : (b.name p).map b.data = (a.name p).map a.data) : b.view.files p = a.view.files p := by
  unfold Shared.view
  dsimp only
  cases ha : a.name p <;> cases hb : b.name p <;> rw [ha, hb] at h2 <;> simp_all

open Classical in
/-- C158: any number of processes make Rayleigh objects at the same time, in any order of their steps.  If no two
of them have to fetch the tables of the same aerosol type, each one that has finished has the result that it has
alone, the files of its aerosol type are those it leaves alone, and its tables were requested as often; all
other files are as before. -/
theorem C158_apart_partial {ι : Type} [DecidableEq ι] (env : Env) (pl se atm ty : ι → String) (s : Shared) (hs : ArchivesNamed s)
    (hm : NoNested env) (hdir : ∀ i, env.cfg.rsr_dir ≠ lutDir env (ty i))
    (hone : ∀ i j, i ≠ j → ty i = ty j → LutCurrent env s.view (ty i) ∨ env.cfg.download_from_internet = false)
    (schedule : List ι) (c : (ι → Prog Shared RayleighObj) × Shared)
    (hc : c = Prog.exec (fun i => rayleighNewP env (pl i) (se i) (atm i) (ty i), s) schedule) :
    (∀ i r, (c.1 i).result? = some r →
      r = Eff.result (rayleighNew env (pl i) (se i) (atm i) (ty i)) s.view ∧
      (∀ n, c.2.view.files (lutDir env (ty i), n) =
        (Eff.final (rayleighNew env (pl i) (se i) (atm i) (ty i)) s.view).files (lutDir env (ty i), n)) ∧
      (ty i ∈ AEROSOL_TYPES → c.2.view.requests.count (lutUrl (ty i)) =
        (Eff.final (rayleighNew env (pl i) (se i) (atm i) (ty i)) s.view).requests.count (lutUrl (ty i)))) ∧
    (∀ p : Path, (∀ i, p.1 ≠ lutDir env (ty i)) → c.2.view.files p = s.view.files p) := by
  set needs : ι → Prop := fun i => ty i ∈ AEROSOL_TYPES ∧ lutVersionUptodate env s.view (ty i) = false ∧
    env.cfg.download_from_internet = true with hneeds
  set R : ι → Shared → Shared → Prop := fun i => if needs i then Apart env (lutDir env (ty i)) (lutUrl (ty i)) else Still env with hRdef
  have hurl : ∀ i j, ty i ≠ ty j → ty i ∈ AEROSOL_TYPES → ownUrl (ty j) ≠ lutUrl (ty i) := by
    intro i j hne hi
    unfold ownUrl
    split_ifs with hj
    · exact (C67_own_place env (ty j) (ty i) hj hi (Ne.symm hne)).1
    · intro h
      have := congrArg String.length h
      unfold lutUrl at this
      rw [String.length_append, String.length_append] at this
      have h1 : (".tgz" : String).length = 4 := rfl
      have h2 : ("" : String).length = 0 := rfl
      omega
  have h := owns_exec (I := NamesFresh) (fun i => part (lutDir env (ty i)) (ownUrl (ty i))) R
    (fun i r k' => r = (rayleighNew env (pl i) (se i) (atm i) (ty i) s.view).1 ∧
      (∀ n, k'.visible n = (rayleighNew env (pl i) (se i) (atm i) (ty i) s.view).2.1.files (lutDir env (ty i), n)) ∧
      k'.asked = (rayleighNew env (pl i) (se i) (atm i) (ty i) s.view).2.1.requests.count (ownUrl (ty i)))
    ?_ (fun i => rayleighNewP env (pl i) (se i) (atm i) (ty i)) s hs.1 ?_
    (fun b => ∀ p : Path, (∀ i, p.1 ≠ lutDir env (ty i)) → b.view.files p = s.view.files p) (fun _ _ => rfl) ?_ schedule
  · rw [← hc] at h
    refine ⟨fun i r hr => ?_, h.2⟩
    obtain ⟨h1, h2, h3⟩ := h.1 i r hr
    refine ⟨h1, fun n => ?_, fun hi => ?_⟩
    · rw [← part_visible (lutDir env (ty i)) (ownUrl (ty i)), h2 n]
      rfl
    · have hu : ownUrl (ty i) = lutUrl (ty i) := if_pos hi
      rw [hu] at h3
      exact h3
  · intro i j a b hij hab
    by_cases hn : needs i
    · simp only [hRdef, if_pos hn] at hab
      have hne : ty i ≠ ty j := by
        intro he
        rcases hone i j hij he with hcur | hoff
        · rw [← lutUptodate_iff] at hcur
          rw [hn.2.1] at hcur
          cases hcur
        · rw [hn.2.2] at hoff
          cases hoff
      exact part_apart (ownDir_lut env _ (hdir j)) (fun he => hne (lutDir_inj he).symm) (hurl i j hne hn.1) hab
    · simp only [hRdef, if_neg hn] at hab
      exact part_still (ownDir_lut env _ (hdir j)) hab
  · intro i
    refine owns_new (pl i) (se i) (atm i) (ty i) s.view ?_ ?_ (ownDir_lut env _ (hdir i)) _ (oneArchive_part hs _ _) (hm _)
      (fun n => (part_visible _ _ s n).symm) rfl
    · intro a b hab
      simp only [hRdef]
      split_ifs
      · exact still_apart hab
      · exact hab
    · intro h1 h2 h3 a b hab
      simp only [hRdef]
      rw [if_pos ⟨h1, h2, h3⟩]
      exact hab
  · intro i a b hab hT p hp
    rw [← hT p hp]
    by_cases hn : needs i
    · simp only [hRdef, if_pos hn] at hab
      exact view_files_congr (hab.1 p (hp i)).1 (hab.1 p (hp i)).2.2
    · simp only [hRdef, if_neg hn] at hab
      exact view_files_congr (hab.1 p).1 (hab.1 p).2.2

/-- C158: with usable archives on the server, each process that has finished has its object, and the tables of its
aerosol type are there and current, under every schedule. -/
theorem C158_tables_there_partial {ι : Type} [DecidableEq ι] (env : Env) (pl se atm ty : ι → String) (s : Shared) (hs : ArchivesNamed s)
    (hm : NoNested env) (hdir : ∀ i, env.cfg.rsr_dir ≠ lutDir env (ty i)) (hdl : env.cfg.download_from_internet = true)
    (hone : ∀ i j, i ≠ j → ty i = ty j → LutCurrent env s.view (ty i))
    (hatm : ∀ i, ATMOSPHERES.contains (atm i) = true) (hty : ∀ i, ty i ∈ AEROSOL_TYPES)
    (hse : ∀ i, ∃ n, normalizeSensor (pl i) (se i) = .ok n)
    (hgood : ∀ i, LutCurrent env s.view (ty i) ∨ GoodLut env (ty i)) (schedule : List ι)
    (c : (ι → Prog Shared RayleighObj) × Shared)
    (hc : c = Prog.exec (fun i => rayleighNewP env (pl i) (se i) (atm i) (ty i), s) schedule) (i : ι) (r : Py RayleighObj)
    (hr : (c.1 i).result? = some r) :
    (∃ o, r = .ok o ∧ o.platform_name = pl i ∧ o.reflectance_lut_filename.1 = lutDir env (ty i)) ∧
    LutCurrent env c.2.view (ty i) := by
  obtain ⟨h1, h2, -⟩ := (C158_apart_partial env pl se atm ty s hs hm hdir (fun i j h1 h2 => Or.inl (hone i j h1 h2)) schedule c hc).1 i r hr
  obtain ⟨n, hn⟩ := hse i
  obtain ⟨v, tr, hvf, -, -, hrun⟩ := rayleighNew_run env (pl i) (se i) (atm i) (ty i) s.view (hatm i) (hty i) n hn
  refine ⟨?_, lutCurrent_congr env (Eff.final (rayleighNew env (pl i) (se i) (atm i) (ty i)) s.view) c.2.view (ty i) h2 ?_⟩
  · rw [h1]
    unfold Eff.result
    rw [hrun]
    split_ifs with hd
    · have hg : GoodLut env (ty i) := (hgood i).resolve_left (fun h => by
        rw [← lutUptodate_iff, hd.1] at h; cases h)
      have := (downloadLut_good env (ty i) (hty i) hg v).1
      rcases hdo : downloadLut env false (ty i) v with ⟨x, v', tr'⟩
      rw [hdo] at this
      dsimp only at this
      subst this
      exact ⟨_, rfl, rfl, rfl⟩
    · exact ⟨_, rfl, rfl, rfl⟩
  · unfold Eff.final
    rw [hrun]
    split_ifs with hd
    · have hg : GoodLut env (ty i) := (hgood i).resolve_left (fun h => by
        rw [← lutUptodate_iff, hd.1] at h; cases h)
      have := downloadLut_good env (ty i) (hty i) hg v
      rcases hdo : downloadLut env false (ty i) v with ⟨x, v', tr'⟩
      rw [hdo] at this
      cases x with
      | ok a => exact this.2
      | error e => exact this.2
    · have hcur : LutCurrent env s.view (ty i) := by
        rw [← lutUptodate_iff]
        by_contra h
        exact hd ⟨by simpa using h, hdl⟩
      exact lutCurrent_congr env s.view v (ty i) (fun n => by rw [hvf]) hcur

/-! ### The same aerosol type -/

section race
variable {β : Type}

/-- what is left to do after the request was answered -/
def unpackStage (env : Env) (D nm : String) (A : Content) (f : Prog Shared β) : Prog Shared β :=
  (openArchiveP (D, nm)).bind fun i => (writeArchiveP i 0 A).bind fun _ => (readAllP (D, nm) A.length).bind fun x =>
    (unpackP D (D, nm) (env.untar x)).bind fun _ => f

/-- Of two processes that got the same archive, one can fail because the other one removes it. -/
theorem race_unpack (env : Env) (D nm : String) (A : Content) (M : List (String × Content)) (hM : env.untar A = (M, true))
    (a : Bool → Py β) (P : Bool → Prog Shared β) (hP : ∀ b, P b = unpackStage env D nm A (.done (a b))) (s : Shared) (hd : s.world.dirs D = true) :
    ∃ s', Reaches (P, s) (fun b => if b then .done (.error .fileNotFound) else .done (a false), s') := by
  set p : Path := (D, nm) with hp
  set rd : β → Prog Shared β := fun _ => P true
  set readS : Bool → Prog Shared β := fun b => (readAllP p A.length).bind fun x => (unpackP D p (env.untar x)).bind fun _ => .done (a b) with hreadS
  have write : ∀ (b : Bool) (Q : Bool → Prog Shared β) (t : Shared), Q b = unpackStage env D nm A (.done (a b)) →
      t.world.dirs D = true → Reaches (Q, t) (Function.update Q b (readS b), (t.opened p).setData (t.handle p) A) := by
    intro b Q t hQ ht
    have h1 := reaches_bind b Q t _ _ _ _ hQ (run_openArchive p t ht)
    refine reaches_trans h1 ?_
    have h2 := reaches_bind b (Function.update Q b ((writeArchiveP (t.handle p) 0 A).bind fun _ => readS b)) _ _ _
      (fun _ => readS b) () (by rw [Function.update_self]) (run_writeArchive0 _ A (t.opened p) (opened_data t _))
    rw [Function.update_idem] at h2
    exact h2
  -- the first one writes and unpacks
  have h1 := write false P s (hP false) hd
  set s1 := (s.opened p).setData (s.handle p) A with hs1
  have hw1 : s1.world = s.world := opened_world s p
  have hn1 : s1.name p = some (s.handle p) := opened_name s p
  have hd1 : s1.data (s.handle p) = A := setData_data _ _ _
  set P1 := Function.update P false (readS false) with hP1
  have h2 := reaches_bind false P1 s1 s1 (readAllP p A.length) _ _ (by rw [hP1, Function.update_self]) (run_readAll p A.length _ s1 hn1)
  rw [hd1, hM] at h2
  set rm : Prog Shared β := (removeP p).bind fun _ => .done (a false) with hrm
  have h3 := reaches_bind false (Function.update P1 false ((unpackP D p (M, true)).bind fun _ => .done (a false))) s1 _
    (onWorldP (extractAllP D M)) (fun _ => rm) () (by
      rw [Function.update_self]
      unfold unpackP
      rw [bind_assoc]
      rfl) (run_extractAll D M s1 (by rw [hw1]; exact hd))
  rw [Function.update_idem, Function.update_idem] at h3
  rw [Function.update_idem] at h2
  set s3 : Shared := { s1 with world := extracted D M s1.world } with hs3
  have hd3 : s3.world.dirs D = true := by
    show (extracted D M s1.world).dirs D = true
    rw [extracted_dirs, hw1]; exact hd
  -- the second one writes
  set P3 := Function.update P false rm with hP3
  have h4 := write true P3 s3 (by rw [hP3, Function.update_of_ne (by decide)]; exact hP true) hd3
  set s4 := (s3.opened p).setData (s3.handle p) A with hs4
  have hn4 : s4.name p = some (s3.handle p) := opened_name s3 p
  set P4 := Function.update P3 true (readS true) with hP4
  -- the first one removes
  have h5 := reaches_run false P4 s4 (s4.setName p none) (a false) (by
    rw [show P4 false = rm by simp [hP4, hP3], hrm, run_bind_ok (a := ()) (s' := s4.setName p none)]
    · rfl
    · show Prog.run (match s4.name p with | some _ => .done (.ok ()) | none => .done (.error .fileNotFound)) _ = _
      rw [hn4]; rfl)
  have h6 := reaches_run true (Function.update P4 false (.done (a false))) (s4.setName p none) (s4.setName p none)
    (.error .fileNotFound) (by
      rw [show Function.update P4 false (.done (a false)) true = readS true by simp [hP4]]
      refine run_bind_error ?_
      show Prog.run (match (s4.setName p none).name p with | none => _ | some i => _) _ = _
      rw [show (s4.setName p none).name p = none by simp [Shared.setName]]
      rfl)
  refine ⟨s4.setName p none, ?_⟩
  have h := reaches_trans h1 (reaches_trans h2 (reaches_trans h3 (reaches_trans h4 (reaches_trans h5 h6))))
  have he : (fun b => if b = true then .done (.error .fileNotFound) else .done (a false) : Bool → Prog Shared β) =
      Function.update (Function.update P4 false (.done (a false))) true (.done (.error .fileNotFound)) := by
    funext b
    cases b <;> simp
  rw [he]
  exact h

end race

/-- one process goes as far as the answer of the server -/
theorem reaches_lut_answer {ι : Type} [DecidableEq ι] (env : Env) (pl se atm t n : String)
    (ha : ATMOSPHERES.contains atm = true) (ht : t ∈ AEROSOL_TYPES) (hn : normalizeSensor pl se = .ok n)
    (hdl : env.cfg.download_from_internet = true) (chunks : List Content) (hu : Usable (env.server (lutUrl t)) chunks)
    (i : ι) (P : ι → Prog Shared RayleighObj) (s : Shared) (hP : P i = rayleighNewP env pl se atm t)
    (hc : ¬ LutCurrent env s.view t) :
    ∃ s', Reaches (P, s) (Function.update P i (unpackStage env (lutDir env t) LUT_TARBALL chunks.flatten
        (.done (.ok ⟨pl, n, (lutDir env t, "rayleigh_lut_" ++ Str.replaceChar ' ' '_' atm ++ ".h5")⟩))), s') ∧
      s'.view.files = s.view.files ∧ s'.world.dirs (lutDir env t) = true := by
  obtain ⟨st, hsv, hst⟩ := hu
  have ht' : AEROSOL_TYPES.contains t = true := by simpa using ht
  set s1 : Shared := { s with world := configured env s.world } with hs1
  have hc1 : lutVersionUptodate env s1.view t = false := by
    have h : ¬ lutVersionUptodate env s1.view t = true := by rw [lutUptodate_iff]; exact hc
    simpa using h
  have hcfg : (getConfigP env).run s1 = (.ok (), s1) := by
    rw [run_getConfig]
    simp only [hs1, configured_twice]
  have hconf : (rayleighConfigP env t atm).run s = (.ok false, s1) := by
    unfold rayleighConfigP
    rw [run_bind_ok (run_getConfig env s)]
    simp only [ha, ht', not_true, if_false]
    rw [run_bind_ok hcfg]
    show Prog.run (Prog.done (.ok (lutVersionUptodate env s1.view t))) s1 = _
    rw [hc1]
    rfl
  set obj : RayleighObj := ⟨pl, n, (lutDir env t, "rayleigh_lut_" ++ Str.replaceChar ' ' '_' atm ++ ".h5")⟩ with hobj
  have h1 := reaches_bind i P s s1 _ _ _ hP hconf
  rw [hn] at h1
  set s2 : Shared := { s1 with world := withDir (lutDir env t) s1.world } with hs2
  set s3 : Shared := { s2 with world := requested (lutUrl t) s2.world } with hs3
  refine ⟨s3, reaches_trans h1 ?_, rfl, by simp [hs3, hs2, withDir, requested]⟩
  have h2 := reaches_bind i (Function.update P i ((getConfigP env).bind fun _ => (downloadLutP env t).bind fun _ => .done (.ok obj)))
    s1 s1 (getConfigP env) (fun _ => (downloadLutP env t).bind fun _ => .done (.ok obj)) () (by rw [Function.update_self]) hcfg
  rw [Function.update_idem] at h2
  have e2 : (Prog.bind (Prog.done (.ok n)) fun sensor => (getConfigP env).bind fun _ =>
      let lut : Path := (rayleighLutDir env t, "rayleigh_lut_" ++ Str.replaceChar ' ' '_' atm ++ ".h5")
      if ¬ false = true ∧ env.cfg.download_from_internet then
        (downloadLutP env t).bind fun _ => .done (.ok ⟨pl, sensor, lut⟩)
      else .done (.ok ⟨pl, sensor, lut⟩)) =
      ((getConfigP env).bind fun _ => (downloadLutP env t).bind fun _ => (.done (.ok obj) : Prog Shared RayleighObj)) := by
    simp only [Prog.bind, hdl, Bool.false_eq_true, not_false_eq_true, and_self, if_true]
    rfl
  rw [e2]
  refine reaches_trans h2 ?_
  have h3 := reaches_bind i (Function.update P i ((downloadLutP env t).bind fun _ => .done (.ok obj))) s1 s1 (getConfigP env)
    (fun _ => ((onWorldP (makedirsP (lutDir env t))).bind fun _ =>
      downloadTarballP env (lutUrl t) (lutDir env t, LUT_TARBALL) (lutDir env t)).bind fun _ => .done (.ok obj)) () (by
      rw [Function.update_self]
      unfold downloadLutP
      rw [lutUrl_table t ht, bind_assoc]
      show Prog.bind (Prog.bind _ _) _ = _
      rw [bind_assoc]
      rfl) hcfg
  rw [Function.update_idem] at h3
  refine reaches_trans h3 ?_
  have h4 := reaches_bind i (Function.update P i (((onWorldP (makedirsP (lutDir env t))).bind fun _ =>
      downloadTarballP env (lutUrl t) (lutDir env t, LUT_TARBALL) (lutDir env t)).bind fun _ => .done (.ok obj))) s1 s2
      (onWorldP (makedirsP (lutDir env t)))
    (fun _ => (downloadTarballP env (lutUrl t) (lutDir env t, LUT_TARBALL) (lutDir env t)).bind fun _ => .done (.ok obj)) () (by
      rw [Function.update_self, bind_assoc]) (by rw [run_onWorld]; rfl)
  rw [Function.update_idem] at h4
  refine reaches_trans h4 ?_
  have h5 := reaches_bind i (Function.update P i ((downloadTarballP env (lutUrl t) (lutDir env t, LUT_TARBALL)
      (lutDir env t)).bind fun _ => .done (.ok obj))) s2 s3
    (Prog.act fun s : Shared => { s with world := { s.world with requests := s.world.requests ++ [lutUrl t] } })
    (fun _ => unpackStage env (lutDir env t) LUT_TARBALL chunks.flatten (.done (.ok obj))) () (by
      rw [Function.update_self]
      unfold downloadTarballP unpackStage
      simp only [hsv, if_neg hst, not_true, if_false, bind_assoc]) rfl
  rw [Function.update_idem] at h5
  exact h5

/-- C158 is false of the code when two processes need the tables of the same aerosol type: one of them can fail
because the other one removes the archive, whatever the platforms, sensors and atmospheres. -/
theorem C158_race (env : Env) (pl se atm n : Bool → String) (t : String) (ha : ∀ b, ATMOSPHERES.contains (atm b) = true)
    (ht : t ∈ AEROSOL_TYPES) (hn : ∀ b, normalizeSensor (pl b) (se b) = .ok (n b))
    (hdl : env.cfg.download_from_internet = true) (chunks : List Content) (hu : Usable (env.server (lutUrl t)) chunks)
    (M : List (String × Content)) (hM : env.untar chunks.flatten = (M, true)) (s : Shared) (hc : ¬ LutCurrent env s.view t) :
    ∃ (schedule : List Bool) (o : RayleighObj),
      ((Prog.exec (fun b => rayleighNewP env (pl b) (se b) (atm b) t, s) schedule).1 false).result? = some (.ok o) ∧
      ((Prog.exec (fun b => rayleighNewP env (pl b) (se b) (atm b) t, s) schedule).1 true).result? = some (.error .fileNotFound) := by
  set o : Bool → RayleighObj := fun b => ⟨pl b, n b, (lutDir env t, "rayleigh_lut_" ++ Str.replaceChar ' ' '_' (atm b) ++ ".h5")⟩ with ho
  set P : Bool → Prog Shared RayleighObj := fun b => rayleighNewP env (pl b) (se b) (atm b) t with hP
  set u : Bool → Prog Shared RayleighObj := fun b => unpackStage env (lutDir env t) LUT_TARBALL chunks.flatten (.done (.ok (o b))) with hu'
  obtain ⟨s1, h1, hf1, -⟩ := reaches_lut_answer env (pl false) (se false) (atm false) t (n false) (ha _) ht (hn _) hdl chunks hu false
    P s rfl hc
  have hc1 : ¬ LutCurrent env s1.view t := fun h => hc (lutCurrent_congr env s1.view s.view t (fun n => by rw [hf1]) h)
  obtain ⟨s2, h2, -, hd2⟩ := reaches_lut_answer env (pl true) (se true) (atm true) t (n true) (ha _) ht (hn _) hdl chunks hu true
    (Function.update P false (u false)) s1 (by simp [hP]) hc1
  obtain ⟨s3, h3⟩ := race_unpack env (lutDir env t) LUT_TARBALL chunks.flatten M hM (fun b => .ok (o b))
    (Function.update (Function.update P false (u false)) true (u true)) (by
      intro b
      cases b
      · rw [Function.update_of_ne (by decide), Function.update_self]
      · rw [Function.update_self]) s2 hd2
  obtain ⟨schedule, hsch⟩ := reaches_trans h1 (reaches_trans h2 h3)
  refine ⟨schedule, o false, ?_, ?_⟩
  · rw [hsch]; rfl
  · rw [hsch]; rfl

/-! ### Cases -/

theorem empty_named : ArchivesNamed emptyShared := by
  refine ⟨⟨fun p i h => ?_, fun p q i h => ?_⟩, fun p => ⟨fun _ => rfl, fun _ => rfl⟩⟩
  · cases h
  · cases h

theorem exLut_noNested : NoNested exampleLutEnv := by
  intro url st ok chunks h
  show ∀ m ∈ [("PYSPECTRAL_ATM_CORR_LUT_RA", "v1.0.1".toList), ("PYSPECTRAL_ATM_CORR_LUT_RO", "v1.0.1".toList)], m.1 ≠ LUT_TARBALL
  decide

/-- Two processes with two aerosol types, both to be fetched: under every schedule. -/
example (schedule : List Bool) (c : (Bool → Prog Shared RayleighObj) × Shared)
    (hc : c = Prog.exec (fun b => rayleighNewP exampleLutEnv "NOAA-20" "viirs" "tropical"
      (if b then "rural_aerosol" else "rayleigh_only"), emptyShared) schedule)
    (b : Bool) (r : Py RayleighObj) (hr : (c.1 b).result? = some r) :
    (∃ o, r = .ok o ∧ o.platform_name = "NOAA-20" ∧ o.reflectance_lut_filename.1 =
      lutDir exampleLutEnv (if b then "rural_aerosol" else "rayleigh_only")) ∧
    LutCurrent exampleLutEnv c.2.view (if b then "rural_aerosol" else "rayleigh_only") :=
  C158_tables_there_partial exampleLutEnv (fun _ => "NOAA-20") (fun _ => "viirs") (fun _ => "tropical")
    (fun b => if b then "rural_aerosol" else "rayleigh_only") emptyShared empty_named exLut_noNested
    (by decide) rfl (fun i j h1 h2 => by
      exfalso
      revert i j
      decide) (by decide) (by decide) (fun _ => ⟨"viirs", by decide +kernel⟩)
    (fun b => Or.inr (exGoodLuts _ (by
      have : ∀ b : Bool, (if b then "rural_aerosol" else "rayleigh_only" : String) ∈ ["rural_aerosol", "rayleigh_only"] := by decide
      simpa [outdated, requestedTypes, emptyWorld_lut] using this b))) schedule c hc b r hr

/-- Such schedules exist: both finish. -/
example : ∃ schedule : List Bool, ∀ b, ∃ r, ((Prog.exec (fun b => rayleighNewP exampleLutEnv "NOAA-20" "viirs" "tropical"
    (if b then "rural_aerosol" else "rayleigh_only"), emptyShared) schedule).1 b).result? = some r := by
  obtain ⟨schedule, h⟩ := exec_finish [false, true] (fun b => rayleighNewP exampleLutEnv "NOAA-20" "viirs" "tropical"
    (if b then "rural_aerosol" else "rayleigh_only"), emptyShared)
  refine ⟨schedule, fun b => ?_⟩
  obtain ⟨r, hr⟩ := h b (by cases b <;> simp)
  exact ⟨r, by rw [hr]; rfl⟩

/-- The same aerosol type twice: one can fail. -/
example : ∃ (schedule : List Bool) (o : RayleighObj),
    ((Prog.exec (fun _ => rayleighNewP exampleLutEnv "NOAA-20" "viirs" "tropical" "rural_aerosol", emptyShared) schedule).1
      false).result? = some (.ok o) ∧
    ((Prog.exec (fun _ => rayleighNewP exampleLutEnv "NOAA-20" "viirs" "tropical" "rural_aerosol", emptyShared) schedule).1
      true).result? = some (.error .fileNotFound) :=
  C158_race exampleLutEnv (fun _ => "NOAA-20") (fun _ => "viirs") (fun _ => "tropical") (fun _ => "viirs") "rural_aerosol"
    (by decide) (by decide) (fun _ => by decide +kernel) rfl ["TAR".toList] ⟨200, rfl, by decide⟩ _ rfl emptyShared
    (emptyWorld_lut _ _)

end Verif.Props
