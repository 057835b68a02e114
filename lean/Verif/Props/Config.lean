import Verif.Lemmas.Config
import Verif.Lemmas.LutDownload
/-
C88, C89: nested dictionaries and the configuration file.  C93: files of raw responses.
-/
namespace Verif.Props
open Verif Verif.Model Verif.Lemmas

/-! ### Specification: nested dictionaries as trees of paths -/

/-- the value at a path of keys -/
def atPath : Conf → List String → Option Conf
  | c, [] => some c
  | .leaf _, _ :: _ => none
  | .map d, k :: p => (Dict.get? d k).bind fun c => atPath c p

/-- every mapping in the tree has pairwise different keys (as Python dictionaries have) -/
def Tree (c : Conf) : Prop := ∀ p d, atPath c p = some (.map d) → Dict.WF d

theorem tree_wf {u : List (String × Conf)} (h : Tree (.map u)) : Dict.WF u := h [] u rfl

theorem tree_sub {u : List (String × Conf)} (h : Tree (.map u)) {k : String} {c : Conf} (hk : Dict.get? u k = some c) :
    Tree c := by
  intro p d hp
  exact h (k :: p) d (by rw [atPath, hk]; exact hp)

theorem atPath_empty (p : List String) (v : Leaf) : atPath (.map []) p ≠ some (.leaf v) := by
  cases p with
  | nil => intro h; cases h
  | cons k p => intro h; cases h

/-! ### C88 -/

/-- C88: every path of `u` to a value that is no mapping holds that value afterwards. -/
theorem C88_overrides (p : List String) : ∀ (d : Conf) (u : List (String × Conf)) (r : Conf), Tree (.map u) →
    recursiveDictUpdate d u = .ok r → ∀ v, atPath (.map u) p = some (.leaf v) → atPath r p = some (.leaf v) := by
  induction p with
  | nil => intro d u r _ _ v hv; cases hv
  | cons k p ih =>
    intro d u r hu h v hv
    rw [atPath] at hv
    cases hk : Dict.get? u k with
    | none => rw [hk] at hv; cases hv
    | some c =>
      rw [hk] at hv
      have hv' : atPath c p = some (.leaf v) := hv
      cases d with
      | leaf x =>
        cases u with
        | nil => cases hk
        | cons e u =>
          obtain ⟨err, he⟩ := update_leaf_cons x e u
          rw [he] at h; cases h
      | map dd =>
        obtain ⟨rr, rfl, hlev⟩ := update_level u dd r (tree_wf hu) h
        obtain ⟨_, l2, l3⟩ := hlev k
        rw [atPath]
        cases c with
        | leaf x => rw [l2 x hk]; exact hv'
        | map m =>
          obtain ⟨x, e1, e2⟩ := l3 m hk
          rw [e2]
          exact ih _ m x (tree_sub hu hk) e1 v hv'

/-- C88: every path of `d` to a value that is no mapping is kept unless `u` has such a value at that
path or on the way to it. -/
theorem C88_keeps (p : List String) : ∀ (d : Conf) (u : List (String × Conf)) (r : Conf), Tree (.map u) →
    recursiveDictUpdate d u = .ok r → ∀ v, atPath d p = some (.leaf v) →
    (∀ q x, q <+: p → atPath (.map u) q ≠ some (.leaf x)) → atPath r p = some (.leaf v) := by
  induction p with
  | nil =>
    intro d u r _ h v hv _
    cases hv
    cases u with
    | nil => rw [update_nil] at h; cases h; rfl
    | cons e u =>
      obtain ⟨err, he⟩ := update_leaf_cons v e u
      rw [he] at h; cases h
  | cons k p ih =>
    intro d u r hu h v hv hq
    cases d with
    | leaf x => cases hv
    | map dd =>
      obtain ⟨rr, rfl, hlev⟩ := update_level u dd r (tree_wf hu) h
      obtain ⟨l1, l2, l3⟩ := hlev k
      rw [atPath] at hv ⊢
      cases hk : Dict.get? u k with
      | none => rw [l1 hk]; exact hv
      | some c =>
        cases c with
        | leaf x => exact absurd (by rw [atPath, hk]; rfl) (hq [k] x ⟨p, rfl⟩)
        | map m =>
          obtain ⟨x, e1, e2⟩ := l3 m hk
          rw [e2]
          cases hd : Dict.get? dd k with
          | none => rw [hd] at hv; cases hv
          | some c =>
            rw [hd] at hv e1
            refine ih c m x (tree_sub hu hk) e1 v hv ?_
            intro q y hpre hat
            obtain ⟨s, hs⟩ := hpre
            refine hq (k :: q) y ⟨s, by rw [List.cons_append, hs]⟩ ?_
            rw [atPath, hk]; exact hat

/-- C88: nothing else appears: a value that is no mapping comes from `u` or from `d`. -/
theorem C88_nothing_else (p : List String) : ∀ (d : Conf) (u : List (String × Conf)) (r : Conf), Tree (.map u) →
    recursiveDictUpdate d u = .ok r → ∀ v, atPath r p = some (.leaf v) →
    atPath (.map u) p = some (.leaf v) ∨ atPath d p = some (.leaf v) := by
  induction p with
  | nil =>
    intro d u r hu h v hv
    right
    cases d with
    | leaf x =>
      cases u with
      | nil => rw [update_nil] at h; cases h; exact hv
      | cons e u =>
        obtain ⟨err, he⟩ := update_leaf_cons x e u
        rw [he] at h; cases h
    | map dd =>
      obtain ⟨rr, rfl, _⟩ := update_level u dd r (tree_wf hu) h
      cases hv
  | cons k p ih =>
    intro d u r hu h v hv
    cases d with
    | leaf x =>
      cases u with
      | nil => rw [update_nil] at h; cases h; cases hv
      | cons e u =>
        obtain ⟨err, he⟩ := update_leaf_cons x e u
        rw [he] at h; cases h
    | map dd =>
      obtain ⟨rr, rfl, hlev⟩ := update_level u dd r (tree_wf hu) h
      obtain ⟨l1, l2, l3⟩ := hlev k
      rw [atPath] at hv
      cases hk : Dict.get? u k with
      | none => right; rw [l1 hk] at hv; rw [atPath]; exact hv
      | some c =>
        cases c with
        | leaf x => left; rw [l2 x hk] at hv; rw [atPath, hk]; exact hv
        | map m =>
          obtain ⟨x, e1, e2⟩ := l3 m hk
          rw [e2] at hv
          rcases ih _ m x (tree_sub hu hk) e1 v hv with h' | h'
          · left; rw [atPath, hk]; exact h'
          · right
            rw [atPath]
            cases hd : Dict.get? dd k with
            | none => rw [hd] at h'; exact absurd h' (atPath_empty p v)
            | some c => rw [hd] at h'; exact h'

theorem tree_mem {u : List (String × Conf)} (h : Tree (.map u)) {k : String} {c : Conf} (hk : (k, c) ∈ u) :
    Tree c ∧ Dict.get? u k = some c := by
  have := get?_of_mem (tree_wf h) hk
  exact ⟨tree_sub h this, this⟩

theorem sizeOf_mem {u : List (String × Conf)} {k : String} {m : List (String × Conf)} (h : (k, Conf.map m) ∈ u) :
    sizeOf m < sizeOf u := by
  have := List.sizeOf_lt_of_mem h
  simp only [Prod.mk.sizeOf_spec, Conf.map.sizeOf_spec] at this
  omega

theorem update_append (n : Nat) : ∀ (u pre : List (String × Conf)), sizeOf u ≤ n →
    Dict.WF (pre ++ u) → (∀ k m, (k, Conf.map m) ∈ u → Tree (.map m)) →
    recursiveDictUpdate (.map pre) u = .ok (.map (pre ++ u)) := by
  induction n with
  | zero =>
    intro u pre h
    cases u <;> simp at h
  | succ n ih =>
    intro u
    induction u with
    | nil => intro pre _ _ _; rw [update_nil, List.append_nil]
    | cons e u ihu =>
      intro pre hn hwf ht
      obtain ⟨k, c⟩ := e
      have hk : k ∉ Dict.keys pre := by
        intro hmem
        unfold Dict.WF at hwf
        rw [List.map_append, List.nodup_append] at hwf
        exact hwf.2.2 k hmem k (by simp) rfl
      have hsz : sizeOf u ≤ n + 1 := by
        simp only [List.cons.sizeOf_spec] at hn; omega
      have hgo : ∀ c', recursiveDictUpdate (.map (Dict.set pre k c')) u = .ok (.map (pre ++ (k, c') :: u)) := by
        intro c'
        rw [show Dict.set pre k c' = pre ++ [(k, c')] from set_new c' hk]
        rw [ihu (pre ++ [(k, c')]) hsz (by
          unfold Dict.WF at hwf ⊢; simpa using hwf) (fun k m h => ht k m (List.mem_cons_of_mem _ h))]
        rw [List.append_assoc]; rfl
      cases c with
      | leaf v => rw [update_map_leaf, hgo]
      | map m =>
        rw [update_map_map, show Dict.get? pre k = none from get?_eq_none_iff.2 hk, Option.getD_none]
        have hm := ht k m (List.mem_cons_self ..)
        have hsm : sizeOf m ≤ n := by
          have := sizeOf_mem (u := (k, Conf.map m) :: u) (List.mem_cons_self ..)
          omega
        rw [ih m [] hsm (tree_wf hm) (fun k' m' h' => (tree_mem hm h').1)]
        exact hgo _

/-- C88: updating an empty dictionary with `u` gives `u`. -/
theorem C88_empty (u : List (String × Conf)) (hu : Tree (.map u)) : recursiveDictUpdate (.map []) u = .ok (.map u) :=
  update_append (sizeOf u) u [] le_rfl (tree_wf hu) fun _ _ h => (tree_mem hu h).1

theorem update_twice (n : Nat) : ∀ (d : Conf) (u : List (String × Conf)) (r : Conf), sizeOf u ≤ n → Tree (.map u) →
    recursiveDictUpdate d u = .ok r → recursiveDictUpdate r u = .ok r := by
  induction n with
  | zero =>
    intro d u r h
    cases u <;> simp at h
  | succ n ih =>
    intro d u r hn hu h
    cases d with
    | leaf x =>
      cases u with
      | nil => exact update_nil r
      | cons e u =>
        obtain ⟨err, he⟩ := update_leaf_cons x e u
        rw [he] at h; cases h
    | map dd =>
      obtain ⟨rr, rfl, hlev⟩ := update_level u dd r (tree_wf hu) h
      apply update_fixed
      · intro k v hmem
        exact (hlev k).2.1 v (tree_mem hu hmem).2
      · intro k m hmem
        obtain ⟨x, e1, e2⟩ := (hlev k).2.2 m (tree_mem hu hmem).2
        exact ⟨x, e2, ih _ m x (by have := sizeOf_mem hmem; omega) (tree_mem hu hmem).1 e1⟩

/-- C88: updating twice with `u` is the same as once. -/
theorem C88_idempotent (d : Conf) (u : List (String × Conf)) (r : Conf) (hu : Tree (.map u))
    (h : recursiveDictUpdate d u = .ok r) : recursiveDictUpdate r u = .ok r :=
  update_twice (sizeOf u) d u r le_rfl hu h

theorem update_ok_no_conflict (p : List String) : ∀ (d : Conf) (u : List (String × Conf)) (r : Conf), Tree (.map u) →
    recursiveDictUpdate d u = .ok r → ∀ x m, atPath d p = some (.leaf x) → atPath (.map u) p = some (.map m) → m = [] := by
  induction p with
  | nil =>
    intro d u r _ h x m hd hu
    cases hd
    cases hu
    cases u with
    | nil => rfl
    | cons e u =>
      obtain ⟨err, he⟩ := update_leaf_cons x e u
      rw [he] at h; cases h
  | cons k p ih =>
    intro d u r hu h x m hd hm
    cases d with
    | leaf x => cases hd
    | map dd =>
      obtain ⟨rr, rfl, hlev⟩ := update_level u dd r (tree_wf hu) h
      rw [atPath] at hd hm
      cases hk : Dict.get? u k with
      | none => rw [hk] at hm; cases hm
      | some c =>
        rw [hk] at hm
        cases c with
        | leaf v =>
          cases p with
          | nil => cases hm
          | cons k' p => cases hm
        | map m' =>
          obtain ⟨y, e1, _⟩ := (hlev k).2.2 m' hk
          cases hd' : Dict.get? dd k with
          | none => rw [hd'] at hd; cases hd
          | some c' =>
            rw [hd'] at hd e1
            exact ih c' m' y (tree_sub hu hk) e1 x m hd hm

theorem update_no_conflict_ok (n : Nat) : ∀ (u : List (String × Conf)), sizeOf u ≤ n → ∀ (d : Conf), Tree (.map u) →
    (∀ p x m, atPath d p = some (.leaf x) → atPath (.map u) p = some (.map m) → m = []) →
    ∃ r, recursiveDictUpdate d u = .ok r := by
  induction n with
  | zero =>
    intro u h
    cases u <;> simp at h
  | succ n ih =>
    intro u
    induction u with
    | nil => intro _ d _ _; exact ⟨d, update_nil d⟩
    | cons e u ihu =>
      intro hn d hu hc
      obtain ⟨k, c⟩ := e
      cases d with
      | leaf x => exact absurd (hc [] x _ rfl rfl) (by simp)
      | map dd =>
        have hsz : sizeOf u ≤ n + 1 := by
          simp only [List.cons.sizeOf_spec] at hn; omega
        have hk : Dict.get? u k = none := get?_eq_none_iff.2 (List.nodup_cons.1 (tree_wf hu)).1
        have hu' : Tree (.map u) := by
          intro p d' hp
          cases p with
          | nil => cases hp; exact (List.nodup_cons.1 (tree_wf hu)).2
          | cons k' p =>
            refine hu (k' :: p) d' ?_
            rw [atPath] at hp ⊢
            by_cases hkk : k = k'
            · subst hkk; rw [hk] at hp; cases hp
            · rw [show Dict.get? ((k, c) :: u) k' = Dict.get? u k' from if_neg hkk]; exact hp
        have hrest : ∀ c', ∃ r, recursiveDictUpdate (.map (Dict.set dd k c')) u = .ok r := by
          intro c'
          refine ihu hsz _ hu' ?_
          intro p x m h1 h2
          cases p with
          | nil => cases h1
          | cons k' p =>
            rw [atPath] at h1 h2
            by_cases hkk : k' = k
            · subst hkk; rw [hk] at h2; cases h2
            · rw [get?_set, if_neg hkk] at h1
              refine hc (k' :: p) x m (by rw [atPath]; exact h1) ?_
              rw [atPath, show Dict.get? ((k, c) :: u) k' = Dict.get? u k' from if_neg (Ne.symm hkk)]
              exact h2
        cases c with
        | leaf v => rw [update_map_leaf]; exact hrest _
        | map m =>
          rw [update_map_map]
          have hsm : sizeOf m ≤ n := by
            have := sizeOf_mem (u := (k, Conf.map m) :: u) (List.mem_cons_self ..)
            omega
          obtain ⟨r, hr⟩ := ih m hsm ((Dict.get? dd k).getD (.map [])) (tree_mem hu (List.mem_cons_self ..)).1 (by
            intro p x m' h1 h2
            cases hd : Dict.get? dd k with
            | none => rw [hd] at h1; exact absurd h1 (atPath_empty p x)
            | some c' =>
              rw [hd] at h1
              refine hc (k :: p) x m' (by rw [atPath, hd]; exact h1) ?_
              rw [atPath, show Dict.get? ((k, Conf.map m) :: u) k = some (.map m) from if_pos rfl]
              exact h2)
          rw [hr]
          exact hrest r

/-- C88: the update returns exactly when `u` has no non-empty mapping at a path where `d` has a value
that is no mapping. -/
theorem C88_returns_iff (d : Conf) (u : List (String × Conf)) (hu : Tree (.map u)) :
    (∃ r, recursiveDictUpdate d u = .ok r) ↔
      ∀ p x m, atPath d p = some (.leaf x) → atPath (.map u) p = some (.map m) → m = [] :=
  ⟨fun ⟨_, h⟩ p => update_ok_no_conflict p d u _ hu h, update_no_conflict_ok (sizeOf u) u le_rfl d hu⟩

/-- a nested update -/
example : recursiveDictUpdate
    (.map [("rsr_dir", .leaf (.str "/a")), ("Metop-A-avhrr", .map [("path", .leaf (.str "/p")), ("ch1", .leaf (.str "f1"))])])
    [("Metop-A-avhrr", .map [("ch1", .leaf (.str "g1")), ("ch2", .leaf (.str "g2"))])] =
    .ok (.map [("rsr_dir", .leaf (.str "/a")),
      ("Metop-A-avhrr", .map [("path", .leaf (.str "/p")), ("ch1", .leaf (.str "g1")), ("ch2", .leaf (.str "g2"))])]) := by
  simp [update_map_map, update_map_leaf, update_nil, Dict.get?, Dict.set, Except.bind]

/-- the trees of the theorems -/
theorem exTree : Tree (.map [("Metop-A-avhrr", .map [("ch1", .leaf (.str "g1")), ("ch2", .leaf (.str "g2"))])]) := by
  intro p d h
  cases p with
  | nil => cases h; simp [Dict.WF]
  | cons k p =>
    rw [atPath] at h
    by_cases hk : "Metop-A-avhrr" = k
    · rw [show Dict.get? [("Metop-A-avhrr", Conf.map _)] k = some _ from if_pos hk] at h
      cases p with
      | nil => cases h; simp [Dict.WF]
      | cons k' p =>
        have h' : atPath (.map [("ch1", .leaf (.str "g1")), ("ch2", .leaf (.str "g2"))]) (k' :: p) = some (.map d) := h
        rw [atPath] at h'
        simp only [Dict.get?] at h'
        split at h'
        · cases p <;> cases h'
        · split at h'
          · cases p <;> cases h'
          · cases h'
    · rw [show Dict.get? [("Metop-A-avhrr", Conf.map _)] k = none from if_neg hk] at h; cases h

/-- the old configuration of the examples -/
def exOldConf : Conf :=
  .map [("rsr_dir", .leaf (.str "/a")), ("Metop-A-avhrr", .map [("path", .leaf (.str "/p")), ("ch1", .leaf (.str "f1"))])]

theorem exUpdate : recursiveDictUpdate exOldConf
    [("Metop-A-avhrr", .map [("ch1", .leaf (.str "g1")), ("ch2", .leaf (.str "g2"))])] =
    .ok (.map [("rsr_dir", .leaf (.str "/a")),
      ("Metop-A-avhrr", .map [("path", .leaf (.str "/p")), ("ch1", .leaf (.str "g1")), ("ch2", .leaf (.str "g2"))])]) := by
  simp [exOldConf, update_map_map, update_map_leaf, update_nil, Dict.get?, Dict.set, Except.bind]

/-- overridden, kept, and all there is -/
example : ∃ r, recursiveDictUpdate exOldConf
      [("Metop-A-avhrr", .map [("ch1", .leaf (.str "g1")), ("ch2", .leaf (.str "g2"))])] = .ok r ∧
    atPath r ["Metop-A-avhrr", "ch1"] = some (.leaf (.str "g1")) ∧
    atPath r ["rsr_dir"] = some (.leaf (.str "/a")) ∧
    (∀ v, atPath r ["Metop-A-avhrr", "path"] = some (.leaf v) → v = .str "/p") ∧
    recursiveDictUpdate r [("Metop-A-avhrr", .map [("ch1", .leaf (.str "g1")), ("ch2", .leaf (.str "g2"))])] = .ok r := by
  refine ⟨_, exUpdate, C88_overrides _ _ _ _ exTree exUpdate _ rfl, C88_keeps _ _ _ _ exTree exUpdate _ rfl ?_, ?_,
    C88_idempotent _ _ _ exTree exUpdate⟩
  · intro q x hq
    rw [List.prefix_cons_iff] at hq
    rcases hq with rfl | ⟨t, rfl, ht⟩
    · exact fun h => by cases h
    · obtain rfl := List.prefix_nil.1 ht
      exact fun h => by cases h
  · intro v hv
    rcases C88_nothing_else _ _ _ _ exTree exUpdate v hv with h | h
    · cases h
    · cases h; rfl

/-- a section cannot replace a value -/
example : ¬ ∃ r, recursiveDictUpdate (.map [("Metop-A-avhrr", .leaf (.str "x"))])
    [("Metop-A-avhrr", .map [("ch1", .leaf (.str "g1")), ("ch2", .leaf (.str "g2"))])] = .ok r := by
  rw [C88_returns_iff _ _ exTree]
  intro h
  exact absurd (h ["Metop-A-avhrr"] _ _ rfl rfl) (by simp)

example : recursiveDictUpdate (.map [])
    [("Metop-A-avhrr", .map [("ch1", .leaf (.str "g1")), ("ch2", .leaf (.str "g2"))])] =
    .ok (.map [("Metop-A-avhrr", .map [("ch1", .leaf (.str "g1")), ("ch2", .leaf (.str "g2"))])]) :=
  C88_empty _ exTree

/-! ### C89 -/

/-- the file `get_config` reads -/
def chosenFile (e : ConfEnv) : Option String → String
  | some f => f
  | none => e.psp.getD e.builtin

theorem getConfigFull_pspmissing (e : ConfEnv) (f : String) (hf : e.psp = some f) (w : World)
    (hmiss : w.files (OsPath.file f) = none) : getConfigFull e none w = (.error .ioError, w, []) := by
  have : configPath e none w = .error .ioError := by
    unfold configPath getEnvOrBuiltinConfigPath; rw [hf]; simp [hmiss]
  unfold getConfigFull
  rw [eff_bind_ok (eff_get w), eff_bind_error (eff_lift_error this w)]
  rfl

/-- C89: PSP_CONFIG_FILE naming something that is no file is an IOError, and nothing is changed. -/
theorem C89_env_not_a_file (e : ConfEnv) (f : String) (hf : e.psp = some f) (w : World)
    (hmiss : w.files (OsPath.file f) = none) :
    (getConfigFull e none).result w = .error .ioError ∧ (getConfigFull e none).final w = w := by
  unfold Eff.result Eff.final
  rw [getConfigFull_pspmissing e f hf w hmiss]
  exact ⟨rfl, rfl⟩

/-- the directory option: `~` expanded, or the user data directory if missing -/
def dirOption (e : ConfEnv) (doc : List (String × Conf)) (key : String) (s : String) : Prop :=
  (Dict.get? doc key = none ∧ s = expanduser e.home e.userDataDir) ∨
  ∃ t, Dict.get? doc key = some (.leaf (.str t)) ∧ s = expanduser e.home t

theorem expandOption_ok (e : ConfEnv) (doc : List (String × Conf)) (key s : String) :
    expandOption e doc key = .ok s ↔ dirOption e doc key s := by
  unfold expandOption dirOption
  cases h : Dict.get? doc key with
  | none =>
    simp only [true_and, reduceCtorEq, false_and, exists_false, or_false]
    exact ⟨fun h => by cases h; rfl, fun h => by rw [h]⟩
  | some c =>
    cases c with
    | map m => simp
    | leaf v =>
      cases v with
      | str t =>
        simp only [reduceCtorEq, false_and, Option.some.injEq, Conf.leaf.injEq, Leaf.str.injEq, false_or]
        exact ⟨fun h => ⟨t, rfl, by cases h; rfl⟩, fun ⟨t', h1, h2⟩ => by subst h1; rw [h2]⟩
      | bool b => simp
      | other n t => simp

/-- running `get_config` when all goes well -/
theorem getConfigFull_run (e : ConfEnv) (arg : Option String) (w : World) (content : Content)
    (doc : List (String × Conf)) (rsr ray : String)
    (hpsp : arg = none → ∀ f, e.psp = some f → (w.files (OsPath.file f)).isSome)
    (hfile : w.files (OsPath.file (chosenFile e arg)) = some content)
    (hyaml : e.yamlLoad content = .ok (.map doc)) (hdoc : Tree (.map doc))
    (hr : dirOption e doc "rsr_dir" rsr) (hl : dirOption e doc "rayleigh_dir" ray) :
    getConfigFull e arg w = (.ok (Dict.set (Dict.set doc "rsr_dir" (.leaf (.str rsr))) "rayleigh_dir" (.leaf (.str ray))),
      withDir ray (withDir rsr w), [withDir rsr w, withDir ray (withDir rsr w)]) := by
  have h1 : configPath e arg w = .ok (chosenFile e arg) := by
    unfold configPath
    cases arg with
    | some f => rfl
    | none =>
      dsimp only
      unfold getEnvOrBuiltinConfigPath chosenFile
      cases hp : e.psp with
      | none => rfl
      | some f => simp [hpsp rfl f hp]
  have h2 : loadConfigFile e (chosenFile e arg) w = .ok doc := by
    unfold loadConfigFile
    rw [hfile]
    dsimp only
    rw [hyaml]
    simp only [bind, Except.bind]
    rw [C88_empty doc hdoc]
    rfl
  have h3 := (expandOption_ok e doc "rsr_dir" rsr).2 hr
  have h4 : expandOption e (Dict.set doc "rsr_dir" (.leaf (.str rsr))) "rayleigh_dir" = .ok ray := by
    rw [expandOption_ok]
    unfold dirOption at hl ⊢
    rw [get?_set, if_neg (by decide)]
    exact hl
  unfold getConfigFull
  rw [eff_bind_ok (eff_get w), eff_bind_ok (eff_lift_ok h1 w), eff_bind_ok (eff_lift_ok h2 w),
    eff_bind_ok (eff_lift_ok h3 w), eff_bind_ok (eff_lift_ok h4 w), eff_bind_ok (makedirs_run _ _),
    eff_bind_ok (makedirs_run _ _), eff_pure]
  rfl

/-- C89: whatever the environment, the files and their contents: if `get_config` returns, it has read
the file given, else the one named by PSP_CONFIG_FILE, else the builtin one; both directories are the
configured ones expanded (or the user data directory) and exist; every other option is that of the file;
and no file is changed and nothing requested. -/
theorem C89_config (e : ConfEnv) (arg : Option String) (w w' : World) (t : List World) (cfg : List (String × Conf))
    (hy : ∀ c d, e.yamlLoad c = .ok d → Tree d) (h : getConfigFull e arg w = (.ok cfg, w', t)) :
    ∃ content doc rsr ray, w.files (OsPath.file (chosenFile e arg)) = some content ∧
      e.yamlLoad content = .ok (.map doc) ∧
      dirOption e doc "rsr_dir" rsr ∧ dirOption e doc "rayleigh_dir" ray ∧
      Dict.get? cfg "rsr_dir" = some (.leaf (.str rsr)) ∧ Dict.get? cfg "rayleigh_dir" = some (.leaf (.str ray)) ∧
      w'.dirs rsr = true ∧ w'.dirs ray = true ∧
      (∀ k, k ≠ "rsr_dir" → k ≠ "rayleigh_dir" → Dict.get? cfg k = Dict.get? doc k) ∧
      w'.files = w.files ∧ w'.requests = w.requests := by
  have hfail : ∀ {α : Type} {err : PyErr} {a b : World} {s s' : List World} {x : α},
      ((.error err, a, s) : Py α × World × List World) ≠ (.ok x, b, s') := by
    intro α err a b s s' x hh; cases hh
  unfold getConfigFull at h
  rw [eff_bind_ok (eff_get w)] at h
  cases h1 : configPath e arg w with
  | error err => rw [eff_bind_error (eff_lift_error h1 w)] at h; cases h
  | ok f =>
    have hf : f = chosenFile e arg := by
      unfold configPath at h1
      unfold chosenFile
      cases arg with
      | some g => cases h1; rfl
      | none =>
        dsimp only at h1 ⊢
        unfold getEnvOrBuiltinConfigPath at h1
        cases hp : e.psp with
        | none => rw [hp] at h1; cases h1; rfl
        | some g =>
          rw [hp] at h1
          dsimp only at h1
          split at h1
          · cases h1; rfl
          · cases h1
    subst hf
    rw [eff_bind_ok (eff_lift_ok h1 w)] at h
    cases hfile : w.files (OsPath.file (chosenFile e arg)) with
    | none =>
      have : ∃ err, loadConfigFile e (chosenFile e arg) w = .error err := by
        unfold loadConfigFile; rw [hfile]; exact ⟨_, rfl⟩
      obtain ⟨err, he⟩ := this
      rw [eff_bind_error (eff_lift_error he w)] at h; cases h
    | some content =>
      cases hyl : e.yamlLoad content with
      | error err =>
        have : loadConfigFile e (chosenFile e arg) w = .error err := by
          unfold loadConfigFile; rw [hfile]; dsimp only; rw [hyl]; rfl
        rw [eff_bind_error (eff_lift_error this w)] at h; cases h
      | ok d =>
        cases d with
        | leaf v =>
          have : loadConfigFile e (chosenFile e arg) w = .error .attributeError := by
            unfold loadConfigFile; rw [hfile]; dsimp only; rw [hyl]; rfl
          rw [eff_bind_error (eff_lift_error this w)] at h; cases h
        | map doc =>
          have h2 : loadConfigFile e (chosenFile e arg) w = .ok doc := by
            unfold loadConfigFile
            rw [hfile]
            dsimp only
            rw [hyl]
            simp only [bind, Except.bind]
            rw [C88_empty doc (hy _ _ hyl)]
            rfl
          rw [eff_bind_ok (eff_lift_ok h2 w)] at h
          cases h3 : expandOption e doc "rsr_dir" with
          | error err => rw [eff_bind_error (eff_lift_error h3 w)] at h; cases h
          | ok rsr =>
            rw [eff_bind_ok (eff_lift_ok h3 w)] at h
            cases h4 : expandOption e (Dict.set doc "rsr_dir" (.leaf (.str rsr))) "rayleigh_dir" with
            | error err => rw [eff_bind_error (eff_lift_error h4 w)] at h; cases h
            | ok ray =>
              rw [eff_bind_ok (eff_lift_ok h4 w), eff_bind_ok (makedirs_run _ _),
                eff_bind_ok (makedirs_run _ _), eff_pure] at h
              cases h
              rw [expandOption_ok] at h3 h4
              have h4' : dirOption e doc "rayleigh_dir" ray := by
                unfold dirOption at h4 ⊢
                rwa [get?_set, if_neg (by decide)] at h4
              refine ⟨content, doc, rsr, ray, rfl, hyl, h3, h4', ?_, ?_, ?_, ?_, ?_, rfl, rfl⟩
              · rw [get?_set, if_neg (by decide), get?_set, if_pos rfl]
              · rw [get?_set, if_pos rfl]
              · simp [withDir]
              · simp [withDir]
              · intro k hk1 hk2
                rw [get?_set, if_neg hk2, get?_set, if_neg hk1]

/-- C89: and it does return when the chosen file can be read and parsed to a mapping, with directories
that are strings; whatever else the mapping holds. -/
theorem C89_returns (e : ConfEnv) (arg : Option String) (w : World) (content : Content) (doc : List (String × Conf))
    (hfile : w.files (OsPath.file (chosenFile e arg)) = some content)
    (hyaml : e.yamlLoad content = .ok (.map doc)) (hdoc : Tree (.map doc))
    (hr : ∀ c, Dict.get? doc "rsr_dir" = some c → ∃ s, c = .leaf (.str s))
    (hl : ∀ c, Dict.get? doc "rayleigh_dir" = some c → ∃ s, c = .leaf (.str s)) :
    ∃ cfg, (getConfigFull e arg).result w = .ok cfg := by
  have key : ∀ k, (∀ c, Dict.get? doc k = some c → ∃ s, c = .leaf (.str s)) → ∃ s, dirOption e doc k s := by
    intro k hk
    cases h : Dict.get? doc k with
    | none => exact ⟨_, .inl ⟨h, rfl⟩⟩
    | some c =>
      obtain ⟨s, rfl⟩ := hk c h
      exact ⟨_, .inr ⟨s, h, rfl⟩⟩
  obtain ⟨rsr, h1⟩ := key _ hr
  obtain ⟨ray, h2⟩ := key _ hl
  refine ⟨_, congrArg Prod.fst (getConfigFull_run e arg w content doc rsr ray ?_ hfile hyaml hdoc h1 h2)⟩
  intro ha f hf
  subst ha
  unfold chosenFile at hfile
  rw [hf] at hfile
  rw [show OsPath.file f = OsPath.file ((some f).getD e.builtin) from rfl, hfile]; rfl

/-- the model of downloads reads the same configuration: running `getConfig` there is running
`get_config` here and taking the options -/
theorem C89_download_options (e : ConfEnv) (env : Env) (w : World) (content : Content) (doc : List (String × Conf))
    (hpsp : ∀ f, e.psp = some f → (w.files (OsPath.file f)).isSome)
    (hfile : w.files (OsPath.file (chosenFile e none)) = some content)
    (hyaml : e.yamlLoad content = .ok (.map doc)) (hdoc : Tree (.map doc))
    (hr : dirOption e doc "rsr_dir" env.cfg.rsr_dir) (hl : dirOption e doc "rayleigh_dir" env.cfg.rayleigh_dir)
    (hd : env.cfg.download_from_internet =
      ((Dict.get? doc "download_from_internet").map Conf.truthy).getD false) :
    (getConfigFull e none >>= fun c => Eff.lift (downloadOptions c)) w = getConfig env w := by
  have h := getConfigFull_run e none w content doc _ _ (fun _ => hpsp) hfile hyaml hdoc hr hl
  have ho : downloadOptions (Dict.set (Dict.set doc "rsr_dir" (.leaf (.str env.cfg.rsr_dir))) "rayleigh_dir"
      (.leaf (.str env.cfg.rayleigh_dir))) = .ok env.cfg := by
    unfold downloadOptions Dict.getItem
    rw [get?_set, if_neg (by decide), get?_set, if_pos rfl, get?_set, if_pos rfl, get?_set, if_neg (by decide),
      get?_set, if_neg (by decide)]
    simp only [bind, Except.bind, pure, Except.pure]
    congr 1
    cases hc : env.cfg with
    | mk r l b =>
      rw [hc] at hd
      simp only [Config.mk.injEq, true_and]
      rw [show b = _ from hd]
      cases Dict.get? doc "download_from_internet" <;> rfl
  rw [eff_bind_ok h, show Eff.lift (downloadOptions _) _ = _ from eff_lift_ok ho _, getConfig_run]
  rfl

/-- an environment with PSP_CONFIG_FILE set -/
def exConfEnv (psp : Option String) : ConfEnv where
  psp := psp
  builtin := "/pkg/etc/pyspectral.yaml"
  yamlLoad := fun c => if c = "rsr_dir: ~/rsr".toList then .ok (.map [("rsr_dir", .leaf (.str "~/rsr")), ("x", .leaf (.bool true))])
    else .ok (.leaf (.other "None" false))
  userDataDir := "/home/u/.local/share/pyspectral"
  home := fun n => if n = "" then some "/home/u" else none

/-- a file system with one configuration file -/
def exConfWorld : World where
  files := fun p => if p = ("/etc", "psp.yaml") then some "rsr_dir: ~/rsr".toList else none
  dirs := fun _ => false
  requests := []

/-- the directories of the example -/
example : dirOption (exConfEnv none) [("rsr_dir", .leaf (.str "~/rsr")), ("x", .leaf (.bool true))] "rsr_dir" "/home/u/rsr" ∧
    dirOption (exConfEnv none) [("rsr_dir", .leaf (.str "~/rsr")), ("x", .leaf (.bool true))] "rayleigh_dir"
      "/home/u/.local/share/pyspectral" := by
  refine ⟨.inr ⟨"~/rsr", rfl, by decide⟩, .inl ⟨rfl, by decide⟩⟩

/-- the hypotheses of `C89_returns` and of `C89_env_not_a_file` -/
example : exConfWorld.files (OsPath.file (chosenFile (exConfEnv (some "/etc/psp.yaml")) none)) = some "rsr_dir: ~/rsr".toList ∧
    exConfWorld.files (OsPath.file "/etc/other.yaml") = none := by
  constructor <;> decide

theorem exDocTree : Tree (.map [("rsr_dir", .leaf (.str "~/rsr")), ("x", .leaf (.bool true))]) := by
  intro p d h
  cases p with
  | nil => cases h; simp [Dict.WF]
  | cons k p =>
    rw [atPath] at h
    simp only [Dict.get?] at h
    split at h
    · cases p <;> cases h
    · split at h
      · cases p <;> cases h
      · cases h

theorem exYaml_tree (psp : Option String) (c : Content) (d : Conf) (h : (exConfEnv psp).yamlLoad c = .ok d) : Tree d := by
  simp only [exConfEnv] at h
  split at h
  · cases h; exact exDocTree
  · cases h
    intro p d h
    cases p <;> cases h

theorem exConf_returns : ∃ cfg, (getConfigFull (exConfEnv (some "/etc/psp.yaml")) none).result exConfWorld = .ok cfg :=
  C89_returns _ _ _ "rsr_dir: ~/rsr".toList [("rsr_dir", .leaf (.str "~/rsr")), ("x", .leaf (.bool true))]
    (by decide) rfl exDocTree (by rintro c h; cases h; exact ⟨_, rfl⟩) (by rintro c h; cases h)

/-- the file named by the environment variable is read and its directory is created -/
example : ∃ cfg w' t, getConfigFull (exConfEnv (some "/etc/psp.yaml")) none exConfWorld = (.ok cfg, w', t) ∧
    Dict.get? cfg "rsr_dir" = some (.leaf (.str "/home/u/rsr")) ∧ w'.dirs "/home/u/rsr" = true := by
  obtain ⟨cfg, h⟩ := exConf_returns
  rcases hh : getConfigFull (exConfEnv (some "/etc/psp.yaml")) none exConfWorld with ⟨r, w', t⟩
  rw [Eff.result, hh] at h
  cases h
  obtain ⟨content, doc, rsr, ray, h1, h2, h3, h4, h5, h6, h7, -⟩ := C89_config _ _ _ _ _ _ (exYaml_tree _) hh
  rw [show exConfWorld.files (OsPath.file (chosenFile (exConfEnv (some "/etc/psp.yaml")) none)) =
    some "rsr_dir: ~/rsr".toList by decide] at h1
  cases h1
  cases h2
  have : rsr = "/home/u/rsr" := by
    rcases h3 with ⟨h, -⟩ | ⟨s, hs, h⟩
    · cases h
    · cases hs
      rw [show expanduser (exConfEnv (some "/etc/psp.yaml")).home "~/rsr" = "/home/u/rsr" by decide] at h
      exact h
  subst this
  exact ⟨cfg, w', t, rfl, h5, h7⟩

/-- the variable names a missing file -/
example : (getConfigFull (exConfEnv (some "/etc/other.yaml")) none).result exConfWorld = .error .ioError :=
  (C89_env_not_a_file _ "/etc/other.yaml" rfl _ (by decide)).1

/-! ### C93 -/

/-- the section of a platform and instrument in a configuration -/
def InSection (options : List (String × Conf)) (platform instrument key : String) (v : Conf) : Prop :=
  ∃ d, Dict.get? options (platform ++ "-" ++ instrument) = some (.map d) ∧ Dict.get? d key = some v

theorem sectionOf_ok {r : InstrumentRSR} {i : String} (hi : r.instrument = some i) {options d : List (String × Conf)} :
    r.sectionOf options = .ok d ↔ Dict.get? options (r.platform_name ++ "-" ++ i) = some (.map d) := by
  unfold InstrumentRSR.sectionOf Dict.getItem
  rw [hi]
  dsimp only
  cases Dict.get? options (r.platform_name ++ "-" ++ i) with
  | none => simp [bind, Except.bind]
  | some c => cases c <;> simp [bind, Except.bind, pure, Except.pure]

/-- C93: the output directory is the configured `rsr_dir`, the path that of the section. -/
theorem C93_options (options : List (String × Conf)) (r r' : InstrumentRSR) (i : String) (hi : r.instrument = some i)
    (h : r.getOptionsFrom options = .ok r') :
    (∀ c, Dict.get? options "rsr_dir" = some c → r'.output_dir = some c) ∧
    (∃ p, InSection options r.platform_name i "path" (.leaf (.str p)) ∧ r'.path = some p) ∧
    (∀ f, r'.filename = some f ↔ InSection options r.platform_name i "filename" f) ∧
    r'.options = options ∧ r'.platform_name = r.platform_name ∧ r'.instrument = r.instrument ∧
    r'.bandnames = r.bandnames ∧ r'.filenames = r.filenames := by
  unfold InstrumentRSR.getOptionsFrom at h
  cases hs : r.sectionOf options with
  | error e => rw [hs] at h; simp [bind, Except.bind] at h
  | ok d =>
    rw [hs] at h
    simp only [bind, Except.bind] at h
    have hd := (sectionOf_ok hi).1 hs
    unfold Dict.getItem at h
    cases hp : Dict.get? d "path" with
    | none => rw [hp] at h; simp at h
    | some c =>
      rw [hp] at h
      cases c with
      | map m => simp at h
      | leaf v =>
        cases v with
        | bool b => simp at h
        | other n t => simp at h
        | str p =>
          simp only [pure, Except.pure, Except.ok.injEq] at h
          subst h
          refine ⟨fun c hc => by simp [hc], ⟨p, ⟨d, hd, hp⟩, rfl⟩, ?_, rfl, rfl, rfl, rfl, rfl⟩
          intro f
          constructor
          · intro hf; exact ⟨d, hd, hf⟩
          · rintro ⟨d', h1, h2⟩
            rw [hd] at h1
            cases h1
            exact h2

/-- C93: KeyError when the section is missing; the section's path missing is a KeyError too. -/
theorem C93_missing_section (options : List (String × Conf)) (r : InstrumentRSR) (i : String) (hi : r.instrument = some i)
    (h : Dict.get? options (r.platform_name ++ "-" ++ i) = none ∨
      ∃ d, Dict.get? options (r.platform_name ++ "-" ++ i) = some (.map d) ∧ Dict.get? d "path" = none) :
    r.getOptionsFrom options = .error .keyError := by
  unfold InstrumentRSR.getOptionsFrom
  rcases h with h | ⟨d, h, h'⟩
  · have : r.sectionOf options = .error .keyError := by
      unfold InstrumentRSR.sectionOf Dict.getItem
      rw [hi]; dsimp only; rw [h]; rfl
    rw [this]; rfl
  · rw [(sectionOf_ok hi).2 h]
    simp only [bind, Except.bind]
    unfold Dict.getItem
    rw [h']

theorem bandFiles_run (f : String → Py String) : ∀ (bs : List String) (fs : List (String × String)),
    (bs.mapM fun b => do return (b, ← f b)) = .ok fs →
    fs.map Prod.fst = bs ∧ ∀ p ∈ fs, f p.1 = .ok p.2
  | [], fs, h => by cases h; simp
  | b :: bs, fs, h => by
    rw [List.mapM_cons] at h
    cases hb : f b with
    | error e => rw [hb] at h; simp [bind, Except.bind] at h
    | ok s =>
      cases hbs : (bs.mapM fun b => do return (b, ← f b) : Py (List (String × String))) with
      | error e => rw [hb, hbs] at h; simp [bind, Except.bind, pure, Except.pure] at h
      | ok gs =>
        rw [hb, hbs] at h
        simp only [bind, Except.bind, pure, Except.pure, Except.ok.injEq] at h
        subst h
        obtain ⟨h1, h2⟩ := bandFiles_run f bs gs hbs
        refine ⟨by simp [h1], ?_⟩
        intro p hp
        rcases List.mem_cons.1 hp with rfl | hp
        · exact hb
        · exact h2 p hp

theorem foldl_set_get? (fs : List (String × String)) : ∀ (d : Dict String (Option String)) (k : String),
    (k ∉ fs.map Prod.fst → Dict.get? (fs.foldl (fun d p => Dict.set d p.1 (some p.2)) d) k = Dict.get? d k) ∧
    (k ∈ fs.map Prod.fst → ∃ s, (k, s) ∈ fs ∧
      Dict.get? (fs.foldl (fun d p => Dict.set d p.1 (some p.2)) d) k = some (some s)) := by
  induction fs with
  | nil => intro d k; simp
  | cons p fs ih =>
    intro d k
    obtain ⟨h1, h2⟩ := ih (Dict.set d p.1 (some p.2)) k
    constructor
    · intro hk
      simp only [List.map_cons, List.mem_cons, not_or] at hk
      rw [List.foldl_cons, h1 hk.2, get?_set_ne _ _ hk.1]
    · intro hk
      by_cases hm : k ∈ fs.map Prod.fst
      · obtain ⟨s, hs, he⟩ := h2 hm
        exact ⟨s, List.mem_cons_of_mem _ hs, he⟩
      · have : k = p.1 := by
          simp only [List.map_cons, List.mem_cons] at hk
          rcases hk with hk | hk
          · exact hk
          · exact absurd hk hm
        subst this
        refine ⟨p.2, List.mem_cons_self .., ?_⟩
        rw [List.foldl_cons, h1 hm, get?_set_self]

/-- C93: after `_get_options_from_config` and `_get_bandfilenames`, every requested band has the path of
the section joined with the file name of the band in the section; other entries are kept. -/
theorem C93_band_files (options : List (String × Conf)) (r r' r'' : InstrumentRSR) (i : String) (hi : r.instrument = some i)
    (h : r.getOptionsFrom options = .ok r') (h' : r'.getBandfilenames = .ok r'') :
    (∀ b ∈ r.bandnames, ∃ p f, InSection options r.platform_name i "path" (.leaf (.str p)) ∧
      InSection options r.platform_name i b (.leaf (.str f)) ∧
      Dict.get? r''.filenames b = some (some (OsPath.join p f))) ∧
    (∀ b, b ∉ r.bandnames → Dict.get? r''.filenames b = Dict.get? r.filenames b) := by
  obtain ⟨_, ⟨p, hp, hp'⟩, _, ho, hpl, hin, hbn, hfn⟩ := C93_options options r r' i hi h
  unfold InstrumentRSR.getBandfilenames at h'
  cases hm : (r'.bandnames.mapM fun b => do return (b, ← r'.bandFilename b) : Py (List (String × String))) with
  | error e => rw [hm] at h'; simp [bind, Except.bind] at h'
  | ok fs =>
    rw [hm] at h'
    simp only [bind, Except.bind, pure, Except.pure, Except.ok.injEq] at h'
    subst h'
    obtain ⟨e1, e2⟩ := bandFiles_run _ _ _ hm
    constructor
    · intro b hb
      obtain ⟨s, hs, he⟩ := (foldl_set_get? fs r'.filenames b).2 (by rw [e1, hbn]; exact hb)
      have hbf := e2 _ hs
      unfold InstrumentRSR.bandFilename at hbf
      cases hsec : r'.sectionOf r'.options with
      | error e => rw [hsec] at hbf; simp [bind, Except.bind] at hbf
      | ok d =>
        rw [hsec, hp'] at hbf
        simp only [bind, Except.bind] at hbf
        unfold Dict.getItem at hbf
        have hd := (sectionOf_ok (hin.trans hi)).1 hsec
        rw [ho, hpl] at hd
        cases hbv : Dict.get? d b with
        | none => rw [hbv] at hbf; simp at hbf
        | some c =>
          rw [hbv] at hbf
          cases c with
          | map m => simp at hbf
          | leaf v =>
            cases v with
            | bool t => simp at hbf
            | other n t => simp at hbf
            | str f =>
              simp only [pure, Except.pure, Except.ok.injEq] at hbf
              exact ⟨p, f, hp, ⟨d, hd, hbv⟩, by rw [he, hbf]⟩
    · intro b hb
      rw [← hfn]
      exact (foldl_set_get? fs r'.filenames b).1 (by rw [e1, hbn]; exact hb)

/-- C93: and it succeeds whenever the section has a path and a file name for every requested band. -/
theorem C93_returns (options : List (String × Conf)) (r : InstrumentRSR) (i p : String) (hi : r.instrument = some i)
    (hp : InSection options r.platform_name i "path" (.leaf (.str p)))
    (hb : ∀ b ∈ r.bandnames, ∃ f, InSection options r.platform_name i b (.leaf (.str f))) :
    ∃ r' r'', r.getOptionsFrom options = .ok r' ∧ r'.getBandfilenames = .ok r'' := by
  obtain ⟨d, hd, hdp⟩ := hp
  have h1 : ∃ r', r.getOptionsFrom options = .ok r' := by
    unfold InstrumentRSR.getOptionsFrom
    rw [(sectionOf_ok hi).2 hd]
    simp only [bind, Except.bind]
    unfold Dict.getItem
    rw [hdp]
    exact ⟨_, rfl⟩
  obtain ⟨r', h1⟩ := h1
  obtain ⟨_, ⟨p', _, hp'⟩, _, ho, hpl, hin, hbn, _⟩ := C93_options options r r' i hi h1
  have h2 : ∀ b ∈ r.bandnames, ∃ s, r'.bandFilename b = .ok s := by
    intro b hmem
    obtain ⟨f, d', hd', hf⟩ := hb b hmem
    refine ⟨OsPath.join p' f, ?_⟩
    unfold InstrumentRSR.bandFilename
    rw [ho, (sectionOf_ok (hin.trans hi)).2 (by rw [hpl]; exact hd'), hp']
    simp only [bind, Except.bind]
    unfold Dict.getItem
    rw [hf]
    rfl
  have h3 : ∀ bs : List String, (∀ b ∈ bs, ∃ s, r'.bandFilename b = .ok s) →
      ∃ fs, (bs.mapM fun b => do return (b, ← r'.bandFilename b) : Py (List (String × String))) = .ok fs := by
    intro bs
    induction bs with
    | nil => intro _; exact ⟨[], rfl⟩
    | cons b bs ih =>
      intro h
      obtain ⟨s, hs⟩ := h b (List.mem_cons_self ..)
      obtain ⟨fs, hfs⟩ := ih fun b hb => h b (List.mem_cons_of_mem _ hb)
      refine ⟨(b, s) :: fs, ?_⟩
      rw [List.mapM_cons, hs, hfs]
      rfl
  obtain ⟨fs, h3⟩ := h3 r'.bandnames (by rw [hbn]; exact h2)
  have h4 : ∃ r'', r'.getBandfilenames = .ok r'' := by
    unfold InstrumentRSR.getBandfilenames
    rw [h3]
    exact ⟨_, rfl⟩
  obtain ⟨r'', h4⟩ := h4
  exact ⟨r', r'', h1, h4⟩

/-- C93: all from the configuration file, reading it with `get_config`. -/
theorem C93_from_config (e : ConfEnv) (r : InstrumentRSR) (w : World) (cfg : List (String × Conf))
    (h : (getConfigFull e none).result w = .ok cfg) :
    (r.getOptionsFromConfig e).result w = r.getOptionsFrom cfg := by
  unfold InstrumentRSR.getOptionsFromConfig Eff.result at *
  rcases hh : getConfigFull e none w with ⟨x, w', t⟩
  rw [hh] at h
  cases h
  rw [eff_bind_ok hh]
  rfl

/-- a section as in the example configuration of the package -/
def exOptions : List (String × Conf) :=
  [("rsr_dir", .leaf (.str "/data")),
   ("Metop-A-avhrr-3", .map [("path", .leaf (.str "/raw")), ("ch1", .leaf (.str "a1.txt")), ("ch2", .leaf (.str "/abs/a2.txt"))])]

example : (do
    let r ← ({ InstrumentRSR.new "ch1" "Metop-A" (some ["ch1", "ch2"]) with instrument := some "avhrr-3" } : InstrumentRSR).getOptionsFrom exOptions
    let r ← r.getBandfilenames
    return (r.path, r.filenames) : Py _) =
    .ok (some "/raw", [("ch1", some "/raw/a1.txt"), ("ch2", some "/abs/a2.txt")]) := by
  decide +kernel

example : InSection exOptions "Metop-A" "avhrr-3" "path" (.leaf (.str "/raw")) :=
  ⟨_, rfl, rfl⟩

/-- the reader of the examples -/
def exRaw : InstrumentRSR :=
  { InstrumentRSR.new "ch1" "Metop-A" (some ["ch1", "ch2"]) with instrument := some "avhrr-3" }

theorem exRaw_returns : ∃ r' r'', exRaw.getOptionsFrom exOptions = .ok r' ∧ r'.getBandfilenames = .ok r'' :=
  C93_returns exOptions exRaw "avhrr-3" "/raw" rfl ⟨_, rfl, rfl⟩ (by
    intro b hb
    have : b = "ch1" ∨ b = "ch2" := by simpa [exRaw, InstrumentRSR.new] using hb
    rcases this with rfl | rfl
    · exact ⟨"a1.txt", _, rfl, rfl⟩
    · exact ⟨"/abs/a2.txt", _, rfl, rfl⟩)

example : ∃ r' r'', exRaw.getOptionsFrom exOptions = .ok r' ∧ r'.getBandfilenames = .ok r'' ∧
    r'.output_dir = some (.leaf (.str "/data")) ∧ r'.filename = none ∧
    ∃ f, Dict.get? r''.filenames "ch1" = some (some (OsPath.join "/raw" f)) := by
  obtain ⟨r', r'', h1, h2⟩ := exRaw_returns
  obtain ⟨g1, -, g3, -⟩ := C93_options exOptions exRaw r' "avhrr-3" rfl h1
  obtain ⟨k1, -⟩ := C93_band_files exOptions exRaw r' r'' "avhrr-3" rfl h1 h2
  obtain ⟨p, f, ⟨d, hd, hp⟩, -, hf⟩ := k1 "ch1" (by simp [exRaw, InstrumentRSR.new])
  have hd' : some (Conf.map d) = some (Conf.map [("path", .leaf (.str "/raw")), ("ch1", .leaf (.str "a1.txt")),
    ("ch2", .leaf (.str "/abs/a2.txt"))]) := hd.symm
  cases hd'
  cases hp
  refine ⟨r', r'', h1, h2, g1 _ rfl, ?_, f, hf⟩
  cases hn : r'.filename with
  | none => rfl
  | some f =>
    obtain ⟨d, hd, hf⟩ := (g3 f).1 hn
    have hd' : some (Conf.map d) = some (Conf.map [("path", .leaf (.str "/raw")), ("ch1", .leaf (.str "a1.txt")),
      ("ch2", .leaf (.str "/abs/a2.txt"))]) := hd.symm
    cases hd'
    cases hf

/-- no section for the platform -/
example : ({ exRaw with platform_name := "NOAA-19" } : InstrumentRSR).getOptionsFrom exOptions = .error .keyError :=
  C93_missing_section _ _ "avhrr-3" rfl (Or.inl (by decide))

example : ∃ cfg, (exRaw.getOptionsFromConfig (exConfEnv (some "/etc/psp.yaml"))).result exConfWorld = exRaw.getOptionsFrom cfg := by
  obtain ⟨cfg, h⟩ := exConf_returns
  exact ⟨cfg, C93_from_config _ _ _ _ h⟩

end Verif.Props
