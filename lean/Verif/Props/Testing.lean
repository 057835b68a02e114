import Verif.Props.Config
import Verif.Props.Reader
import Verif.Lemmas.ReaderOps
import Verif.Model.Testing
/-
C90, C98: overriding the configuration.  C91: no downloads in tests.
-/
namespace Verif.Props
open Verif Verif.Model Verif.Lemmas
variable {α : Type} [PyNum α] {β : Type}

/-! ### C90 -/

omit [PyNum α] in
theorem overridden_psp (old : Option String) (p : String) (body : String → Test α β) (s : TestState α) :
    (overridden old p body s).2.psp = old := by
  unfold overridden
  rcases body p { s with psp := some p } with ⟨r, s'⟩
  cases old with
  | some v => rfl
  | none =>
    dsimp only
    cases h : s'.psp with
    | none => exact h
    | some _ => rfl

omit [PyNum α] in
theorem withTempDir_psp (te : TestEnv α) (body : String → Test α β) (s : TestState α)
    (h : ∀ d s', s'.psp = s.psp → (body d s').2.psp = s.psp) : (withTempDir te body s).2.psp = s.psp := by
  exact h _ _ rfl

omit [PyNum α] in
/-- C90: after an `override_config` block PSP_CONFIG_FILE is what it was before, whatever the body does
(nested blocks, changes of the variable, exceptions) and whatever goes wrong. -/
theorem C90_restored (te : TestEnv α) (options : Option (List (String × Conf))) (path : Option String)
    (body : String → Test α β) (s : TestState α) : (overrideConfig te options path body s).2.psp = s.psp := by
  unfold overrideConfig
  cases path with
  | some p => exact overridden_psp _ _ _ _
  | none =>
    apply withTempDir_psp
    intro d s' hs
    show (PySt.bind _ _ s').2.psp = s.psp
    unfold PySt.bind
    rcases hc : createPyspectralConfigFile te (configPathIn d) options s' with ⟨r, s''⟩
    have hp : s''.psp = s.psp := by
      rw [← hs]
      unfold createPyspectralConfigFile writeFile at hc
      split at hc <;> cases hc <;> rfl
    cases r with
    | ok _ => exact overridden_psp _ _ _ _
    | error e => exact hp

/-- what the body sees and what the block returns, for a body that leaves the variable set -/
def BodyResult (m : Test α β) (s : TestState α) (r : Py β) (w : World) : Prop :=
  ∃ s', m s = (r, s') ∧ s'.world = w ∧ s'.psp ≠ none

omit [PyNum α] in
/-- C90: the block ends as its body ended (same value or same exception), with the files as the body left
them, if the body does not delete the variable; inside, the variable names the given file. -/
theorem C90_transparent (te : TestEnv α) (options : Option (List (String × Conf))) (p : String)
    (body : String → Test α β) (s : TestState α) (r : Py β) (w : World)
    (h : BodyResult (body p) { s with psp := some p } r w) :
    (overrideConfig te options (some p) body s).1 = r ∧ (overrideConfig te options (some p) body s).2.world = w := by
  obtain ⟨s', h1, h2, h3⟩ := h
  unfold overrideConfig overridden
  dsimp only
  rw [h1]
  cases hs : s.psp with
  | some v => exact ⟨rfl, h2⟩
  | none =>
    dsimp only
    cases h4 : s'.psp with
    | none => exact absurd h4 h3
    | some _ => exact ⟨rfl, h2⟩

omit [PyNum α] in
/-- C90: deleting the variable in the body is a KeyError at the end if it was unset before. -/
theorem C90_deleted (te : TestEnv α) (options : Option (List (String × Conf))) (p : String)
    (body : String → Test α β) (s : TestState α) (hs : s.psp = none)
    (h : (body p { s with psp := some p }).2.psp = none) :
    (overrideConfig te options (some p) body s).1 = .error .keyError := by
  unfold overrideConfig overridden
  dsimp only
  rw [hs]
  rcases hb : body p { world := s.world, psp := some p, loader := s.loader, forbidden := s.forbidden } with ⟨r, s'⟩
  have : s'.psp = none := by rw [hb] at h; exact h
  dsimp only
  rw [this]

/-- is `x` the directory `d` or inside it? -/
def Inside (d x : String) : Prop := x = d ∨ ∃ r : List Char, x.toList = d.toList ++ '/' :: r

theorem within_iff (d x : String) : within d x = true ↔ Inside d x := by
  unfold within Inside Str.startsWith
  simp only [Bool.or_eq_true, decide_eq_true_eq, List.isPrefixOf_iff_prefix, List.IsPrefix, String.toList_append]
  apply or_congr Iff.rfl
  apply exists_congr
  intro r
  rw [show ("/" : String).toList = ['/'] from rfl]
  simp [eq_comm]

omit [PyNum α] in
/-- C90: without a path, the temporary directory of the configuration file is gone after the block, however
it ends. -/
theorem C90_temporary_removed (te : TestEnv α) (options : Option (List (String × Conf)))
    (body : String → Test α β) (s : TestState α) :
    (∀ x, Inside (te.fresh s.world) x → (overrideConfig te options none body s).2.world.dirs x = false) ∧
    (∀ p : Path, Inside (te.fresh s.world) p.1 → (overrideConfig te options none body s).2.world.files p = none) := by
  unfold overrideConfig withTempDir
  dsimp only
  constructor
  · intro x hx
    simp only [removeTree, (within_iff _ _).2 hx, if_true]
  · intro p hp
    simp only [removeTree, (within_iff _ _).2 hp, if_true]

/-- an absolute directory name without a slash at the end (and not the root) -/
def PlainDir (d : String) : Prop := ∃ cs c, d.toList = '/' :: cs ++ [c] ∧ c ≠ '/'

theorem file_in (d n : String) (hd : PlainDir d) (hn : '/' ∉ n.toList) : OsPath.file (d ++ "/" ++ n) = (d, n) := by
  obtain ⟨cs, c, hcs, hc⟩ := hd
  have hl : (d ++ "/" ++ n).toList = '/' :: cs ++ [c] ++ ['/'] ++ n.toList := by
    rw [String.toList_append, String.toList_append, hcs]; rfl
  have hrev : ∀ x ∈ n.toList.reverse, (x ≠ '/') := by
    intro x hx he
    rw [List.mem_reverse] at hx
    exact hn (he ▸ hx)
  have htail : OsPath.tailL ('/' :: cs ++ [c] ++ ['/'] ++ n.toList) = n.toList := by
    unfold OsPath.tailL
    rw [List.reverse_append, List.takeWhile_append_of_pos (by simpa using hrev)]
    simp
  have hhead : OsPath.headL ('/' :: cs ++ [c] ++ ['/'] ++ n.toList) = '/' :: cs ++ [c] ++ ['/'] := by
    unfold OsPath.headL
    rw [List.reverse_append, List.dropWhile_append_of_pos (by simpa using hrev)]
    simp
  unfold OsPath.file OsPath.dirname OsPath.basename
  rw [hl, htail, hhead]
  have hall : ('/' :: cs ++ [c] ++ ['/']).all (fun x => decide (x = '/')) = false := by
    simp [hc]
  simp only [hall]
  refine Prod.ext ?_ (by simp)
  show String.ofList _ = d
  rw [show ('/' :: cs ++ [c] ++ ['/']).reverse.dropWhile (fun x => decide (x = '/')) = c :: ('/' :: cs).reverse by
    simp [hc]]
  rw [show (c :: ('/' :: cs).reverse).reverse = d.toList by rw [hcs]; simp]
  simp

/-- the state in which the body of a block without a path starts -/
def started (te : TestEnv α) (options : Option (List (String × Conf))) (s : TestState α) : TestState α :=
  { s with psp := some (te.fresh s.world ++ "/pyspectral.yaml")
           world := (withDir (te.fresh s.world) s.world).setFile (te.fresh s.world, "pyspectral.yaml")
             (some (te.yamlDump (options.getD []))) }

theorem configPathIn_eq (d : String) : configPathIn d = d ++ "/pyspectral.yaml" := by
  unfold configPathIn
  rw [String.append_assoc]
  rfl

omit [PyNum α] in
theorem override_run (te : TestEnv α) (options : Option (List (String × Conf))) (body : String → Test α β) (s : TestState α)
    (hd : PlainDir (te.fresh s.world)) (r : Py β) (s' : TestState α)
    (hb : body (te.fresh s.world ++ "/pyspectral.yaml") (started te options s) = (r, s')) (hp : s'.psp ≠ none) :
    overrideConfig te options none body s = (r, { s' with psp := s.psp, world := removeTree (te.fresh s.world) s'.world }) := by
  unfold overrideConfig withTempDir
  dsimp only
  have hfile := file_in (te.fresh s.world) "pyspectral.yaml" hd (by decide)
  have hw : createPyspectralConfigFile te (configPathIn (te.fresh s.world)) options (mkdir (te.fresh s.world) s).2 =
      (.ok (), { started te options s with psp := s.psp }) := by
    unfold createPyspectralConfigFile writeFile
    rw [show OsPath.file (configPathIn (te.fresh s.world)) = _ from hfile]
    have : (mkdir (te.fresh s.world) s).2.world.dirs (te.fresh s.world) = true := by
      show (if te.fresh s.world = te.fresh s.world then true else _) = true
      rw [if_pos rfl]
    dsimp only
    rw [if_pos this]
    rfl
  rw [st_bind_ok hw]
  unfold overridden
  rw [configPathIn_eq]
  rw [show ({ (({ started te options s with psp := s.psp } : TestState α)) with
    psp := some (te.fresh s.world ++ "/pyspectral.yaml") } : TestState α) = started te options s from rfl, hb]
  cases hs : s.psp with
  | some v => rfl
  | none =>
    dsimp only
    cases h : s'.psp with
    | none => exact absurd h hp
    | some _ => rfl

/-! ### C98 -/

/-- `get_config()` in a test -/
def readConfig (te : TestEnv α) : Test α (List (String × Conf)) := fun s =>
  match getConfigFull { te.conf with psp := s.psp } none s.world with
  | (r, w, _) => (r, { s with world := w })

/-- what is at a path: nothing, a mapping (none), or a value that is no mapping -/
def valueAt (c : Conf) (p : List String) : Option (Option Leaf) :=
  (atPath c p).map fun
    | .leaf v => some v
    | .map _ => none

/-- equal as Python dictionaries (the order of keys does not matter) -/
def SameConf (c d : Conf) : Prop := ∀ p, valueAt c p = valueAt d p

/-- what `yaml.dump` wrote is read back as an equal dictionary (`yaml.dump` sorts keys) -/
def RoundTrip (te : TestEnv α) (options : List (String × Conf)) : Prop :=
  ∃ c, te.conf.yamlLoad (te.yamlDump options) = .ok c ∧ Tree c ∧ SameConf c (.map options)

omit [PyNum α] in
theorem roundTrip_map {te : TestEnv α} {options : List (String × Conf)} (h : RoundTrip te options) :
    ∃ o, te.conf.yamlLoad (te.yamlDump options) = .ok (.map o) ∧ Tree (.map o) ∧ SameConf (.map o) (.map options) := by
  obtain ⟨c, h1, h2, h3⟩ := h
  cases c with
  | map o => exact ⟨o, h1, h2, h3⟩
  | leaf v => exact absurd (h3 []) (by simp [valueAt, atPath])

theorem same_leaf {a b : List (String × Conf)} (h : SameConf (.map a) (.map b)) (k : String) (v : Leaf) :
    Dict.get? a k = some (.leaf v) ↔ Dict.get? b k = some (.leaf v) := by
  have key : ∀ c : List (String × Conf), Dict.get? c k = some (.leaf v) ↔ valueAt (.map c) [k] = some (some v) := by
    intro c
    unfold valueAt
    rw [atPath]
    cases Dict.get? c k with
    | none => simp
    | some d => cases d <;> simp [atPath]
  rw [key, key, h [k]]

theorem same_none {a b : List (String × Conf)} (h : SameConf (.map a) (.map b)) (k : String) :
    Dict.get? a k = none ↔ Dict.get? b k = none := by
  have key : ∀ c : List (String × Conf), Dict.get? c k = none ↔ valueAt (.map c) [k] = none := by
    intro c
    unfold valueAt
    rw [atPath]
    cases Dict.get? c k with
    | none => simp
    | some d => cases d <;> simp [atPath]
  rw [key, key, h [k]]

theorem same_dirOption (e : ConfEnv) {a b : List (String × Conf)} (h : SameConf (.map a) (.map b)) (k s : String) :
    dirOption e a k s ↔ dirOption e b k s := by
  unfold dirOption
  rw [same_none h]
  simp only [same_leaf h]

/-- the directory options are strings if they are there -/
def StringDirs (options : List (String × Conf)) : Prop :=
  ∀ k ∈ ["rsr_dir", "rayleigh_dir"], ∀ c, Dict.get? options k = some c → ∃ s, c = .leaf (.str s)

theorem stringDirs_option (e : ConfEnv) {options : List (String × Conf)} (h : StringDirs options) :
    (∃ s, dirOption e options "rsr_dir" s) ∧ (∃ s, dirOption e options "rayleigh_dir" s) := by
  have key : ∀ k, (∀ c, Dict.get? options k = some c → ∃ s, c = .leaf (.str s)) → ∃ s, dirOption e options k s := by
    intro k hk
    cases h : Dict.get? options k with
    | none => exact ⟨_, .inl ⟨h, rfl⟩⟩
    | some c =>
      obtain ⟨s, rfl⟩ := hk c h
      exact ⟨_, .inr ⟨s, h, rfl⟩⟩
  exact ⟨key _ (h _ (by simp)), key _ (h _ (by simp))⟩

/-- the configuration in force: the variable names a file `pyspectral.yaml` with these options -/
def InForce (te : TestEnv α) (options : List (String × Conf)) (s : TestState α) : Prop :=
  ∃ d, PlainDir d ∧ s.psp = some (d ++ "/pyspectral.yaml") ∧
    s.world.files (d, "pyspectral.yaml") = some (te.yamlDump options)

theorem yaml_file (d : String) (hd : PlainDir d) : OsPath.file (d ++ "/pyspectral.yaml") = (d, "pyspectral.yaml") := by
  have := file_in d "pyspectral.yaml" hd (by decide)
  rwa [String.append_assoc] at this

omit [PyNum α] in
theorem started_inForce (te : TestEnv α) (options : Option (List (String × Conf))) (s : TestState α)
    (hd : PlainDir (te.fresh s.world)) : InForce te (options.getD []) (started te options s) := by
  refine ⟨_, hd, rfl, ?_⟩
  simp [started, World.setFile]

/-- the configuration `get_config` makes of the options `o` -/
def madeConfig (o : List (String × Conf)) (rsr ray : String) : List (String × Conf) :=
  Dict.set (Dict.set o "rsr_dir" (.leaf (.str rsr))) "rayleigh_dir" (.leaf (.str ray))

omit [PyNum α] in
theorem readConfig_run (te : TestEnv α) (options : List (String × Conf)) (s : TestState α)
    (hf : InForce te options s) (hy : RoundTrip te options) (rsr ray : String)
    (hr : dirOption te.conf options "rsr_dir" rsr) (hl : dirOption te.conf options "rayleigh_dir" ray) :
    ∃ o, SameConf (.map o) (.map options) ∧ getConfigFull { te.conf with psp := s.psp } none s.world =
      (.ok (madeConfig o rsr ray), withDir ray (withDir rsr s.world),
        [withDir rsr s.world, withDir ray (withDir rsr s.world)]) := by
  obtain ⟨d, h0, h1, h2⟩ := hf
  rw [← yaml_file d h0] at h2
  obtain ⟨o, ho, ht, hsame⟩ := roundTrip_map hy
  refine ⟨o, hsame, getConfigFull_run { te.conf with psp := s.psp } none s.world _ o rsr ray ?_ ?_ ho ht
    ((same_dirOption _ hsame _ _).2 hr) ((same_dirOption _ hsame _ _).2 hl)⟩
  · intro _ f hfs
    have : s.psp = some f := hfs
    rw [h1] at this
    cases this
    rw [h2]; rfl
  · unfold chosenFile
    rw [h1]
    exact h2

omit [PyNum α] in
/-- C98: inside an `override_config(config_options=...)` block `get_config()` gives exactly these options,
with both directories expanded, or the user data directory if not given; whatever the environment, the
files and the builtin configuration were, and whatever the body did before, as long as it kept the
variable and the file. -/
theorem C98_config_in_force (te : TestEnv α) (options : List (String × Conf)) (before : Test α Unit) (s : TestState α)
    (hd : PlainDir (te.fresh s.world)) (hy : RoundTrip te options) (hs : StringDirs options)
    (hb : ∀ s₁, InForce te options s₁ → ∃ s₂, before s₁ = (.ok (), s₂) ∧ InForce te options s₂) :
    ∃ cfg, (overrideConfig te (some options) none (fun _ => do before; readConfig te) s).1 = .ok cfg ∧
      (∀ k p, k ≠ "rsr_dir" → k ≠ "rayleigh_dir" → valueAt (.map cfg) (k :: p) = valueAt (.map options) (k :: p)) ∧
      (∀ k ∈ ["rsr_dir", "rayleigh_dir"], ∃ v, Dict.get? cfg k = some (.leaf (.str v)) ∧ dirOption te.conf options k v) := by
  obtain ⟨⟨rsr, hr⟩, ⟨ray, hl⟩⟩ := stringDirs_option te.conf hs
  obtain ⟨s₂, h1, h2⟩ := hb _ (started_inForce te (some options) s hd)
  obtain ⟨o, hsame, h3⟩ := readConfig_run te options s₂ h2 hy rsr ray hr hl
  have hbody : (do before; readConfig te : Test α _) (started te (some options) s) =
      (.ok (madeConfig o rsr ray), { s₂ with world := withDir ray (withDir rsr s₂.world) }) := by
    rw [st_bind_ok h1]
    unfold readConfig
    rw [h3]
  refine ⟨_, congrArg Prod.fst (override_run te (some options) _ s hd _ _ hbody ?_), ?_, ?_⟩
  · show s₂.psp ≠ none
    obtain ⟨_, _, h4, _⟩ := h2
    rw [h4]; simp
  · intro k p hk1 hk2
    rw [← hsame (k :: p)]
    unfold valueAt madeConfig
    rw [atPath, atPath, get?_set, if_neg hk2, get?_set, if_neg hk1]
  · intro k hk
    simp only [List.mem_cons, List.not_mem_nil, or_false] at hk
    rcases hk with rfl | rfl
    · exact ⟨rsr, by rw [madeConfig, get?_set, if_neg (by decide), get?_set, if_pos rfl], hr⟩
    · exact ⟨ray, by rw [madeConfig, get?_set, if_pos rfl], hl⟩

/-! ### C91 -/

/-- what a test may construct -/
inductive Use where
  | reader (platform instrument : Option String) (filename : Option Path)
  | rayleigh (platform sensor atmosphere aerosol : String)

/-- construct it; an exception is caught by the test -/
def Use.run (te : TestEnv α) : Use → Test α Unit
  | .reader p i f => fun s => (.ok (), (newReader te p i f s).2)
  | .rayleigh p i atm aer => fun s => (.ok (), (newRayleigh te p i atm aer s).2)

/-- construct all of them -/
def useAll (te : TestEnv α) (us : List Use) : Test α Unit := PySt.forEach (Use.run te) us

/-- same files, requests, variable and mocks (only directories may have been made) -/
structure OnlyDirs (s s' : TestState α) : Prop where
  files : s'.world.files = s.world.files
  requests : s'.world.requests = s.world.requests
  psp : s'.psp = s.psp
  loader : s'.loader = s.loader
  forbidden : s'.forbidden = s.forbidden

omit [PyNum α] in
theorem useConfig_run (te : TestEnv α) (options : List (String × Conf)) (s : TestState α)
    (hf : InForce te options s) (hy : RoundTrip te options)
    (hoff : Dict.get? options "download_from_internet" = some (.leaf (.bool false)))
    (rsr ray : String) (hr : dirOption te.conf options "rsr_dir" rsr) (hl : dirOption te.conf options "rayleigh_dir" ray)
    (f : Env → Eff β) : ∃ env : Env, env.cfg = ⟨rsr, ray, false⟩ ∧ env.untar = te.untar ∧
      useConfig te f s = ((f env (withDir ray (withDir rsr s.world))).1,
        { s with world := (f env (withDir ray (withDir rsr s.world))).2.1 }) := by
  obtain ⟨o, hsame, h3⟩ := readConfig_run te options s hf hy rsr ray hr hl
  refine ⟨⟨⟨rsr, ray, false⟩, if s.forbidden then fun _ => Answer.raises .runtimeError else te.server, te.untar⟩,
    rfl, rfl, ?_⟩
  have ho : downloadOptions (madeConfig o rsr ray) = .ok ⟨rsr, ray, false⟩ := by
    unfold downloadOptions Dict.getItem madeConfig
    rw [get?_set, if_neg (by decide), get?_set, if_pos rfl, get?_set, if_pos rfl, get?_set, if_neg (by decide),
      get?_set, if_neg (by decide), (same_leaf hsame _ _).2 hoff]
    rfl
  unfold useConfig
  dsimp only
  rw [eff_bind_ok h3, eff_bind_ok (eff_lift_ok ho _)]

omit [PyNum α] in
theorem useConfig_onlyDirs (te : TestEnv α) (options : List (String × Conf)) (s : TestState α)
    (hf : InForce te options s) (hy : RoundTrip te options) (hs : StringDirs options)
    (hoff : Dict.get? options "download_from_internet" = some (.leaf (.bool false)))
    (f : Env → Eff β) (hq : ∀ env w, env.cfg.download_from_internet = false → Quiet (f env) w) :
    OnlyDirs s (useConfig te f s).2 := by
  obtain ⟨⟨rsr, hr⟩, ⟨ray, hl⟩⟩ := stringDirs_option te.conf hs
  obtain ⟨env, henv, -, hrun⟩ := useConfig_run te options s hf hy hoff rsr ray hr hl f
  have hq' := hq env (withDir ray (withDir rsr s.world)) (by rw [henv]) _ (Or.inl rfl)
  rw [hrun]
  exact ⟨hq'.1, hq'.2, rfl, rfl, rfl⟩

theorem quiet_bind {γ δ : Type} {m : Eff γ} {f : γ → Eff δ} {w : World} (h : Quiet m w)
    (hf : ∀ a w', w'.files = w.files → w'.requests = w.requests → Quiet (f a) w') : Quiet (m >>= f) w := by
  rcases hm : m w with ⟨r, w', t⟩
  have h1 : ∀ x ∈ w' :: t, x.files = w.files ∧ x.requests = w.requests := by
    intro x hx
    apply h
    unfold Eff.final Eff.crashStates
    rw [hm]
    rcases List.mem_cons.1 hx with rfl | hx
    · exact .inl rfl
    · exact .inr (List.mem_cons_of_mem _ hx)
  have hw := h1 w' (by simp)
  cases r with
  | error e => exact quiet_of_eq (eff_bind_error hm) hw (fun x hx => h1 x (by simp [hx]))
  | ok a =>
    have hq := hf a w' hw.1 hw.2
    refine quiet_of_eq (eff_bind_ok hm) ?_ ?_
    · have := hq _ (.inl rfl)
      exact ⟨this.1.trans hw.1, this.2.trans hw.2⟩
    · intro x hx
      rcases List.mem_append.1 hx with hx | hx
      · exact h1 x (by simp [hx])
      · have := hq x (.inr (List.mem_cons_of_mem _ hx))
        exact ⟨this.1.trans hw.1, this.2.trans hw.2⟩

theorem quiet_pure {γ : Type} (a : γ) (w : World) : Quiet (pure a : Eff γ) w :=
  quiet_of_eq (eff_pure a w) ⟨rfl, rfl⟩ (by simp)

theorem quiet_lift {γ : Type} (r : Py γ) (w : World) : Quiet (Eff.lift r) w :=
  quiet_of_eq (r := r) (w' := w) (t := []) rfl ⟨rfl, rfl⟩ (by simp)

theorem quiet_getConfig (env : Env) (w : World) : Quiet (getConfig env) w := by
  refine quiet_of_eq (getConfig_run env w) ⟨rfl, rfl⟩ ?_
  intro x hx
  simp only [List.mem_cons, List.not_mem_nil, or_false] at hx
  rcases hx with rfl | rfl <;> exact ⟨rfl, rfl⟩

theorem readerWith_quiet (load : Path → Py (RsrInfo α)) (env : Env) (p i : Option String) (f : Option Path) (w : World)
    (hoff : env.cfg.download_from_internet = false) : Quiet (readerWith load env p i f) w := by
  unfold readerWith
  refine quiet_bind (quiet_getConfig env w) fun cfg w₁ _ _ => ?_
  refine quiet_bind (quiet_lift _ _) fun a w₂ _ _ => ?_
  have hload : ∀ w', Quiet (do let info ← Eff.lift (load a.1); return readerOf a.1 a.2.1 a.2.2 info) w' := fun w' =>
    quiet_bind (quiet_lift _ _) fun _ _ _ _ => quiet_pure _ _
  by_cases hn : f.isNone = true
  · simp only [hn, if_true]
    exact quiet_bind ((C68_switched_off_partial env hoff w₂).2.1 none false) fun _ w' _ _ => hload w'
  · simp only [hn]
    exact hload w₂

theorem use_onlyDirs (te : TestEnv α) (options : List (String × Conf)) (s : TestState α)
    (hf : InForce te options s) (hy : RoundTrip te options) (hs : StringDirs options)
    (hoff : Dict.get? options "download_from_internet" = some (.leaf (.bool false))) (u : Use) :
    OnlyDirs s (u.run te s).2 := by
  cases u with
  | reader p i f =>
    unfold Use.run newReader
    dsimp only
    cases s.loader with
    | none =>
      exact useConfig_onlyDirs te options s hf hy hs hoff _ fun env w h => C68_reader_switched_off env te.h5open p i f w h
    | some load =>
      exact useConfig_onlyDirs te options s hf hy hs hoff _ fun env w h => readerWith_quiet load env p i f w h
  | rayleigh p i atm aer =>
    exact useConfig_onlyDirs te options s hf hy hs hoff _ fun env w h => (C68_switched_off_partial env h w).1 p i atm aer

theorem useAll_onlyDirs (te : TestEnv α) (options : List (String × Conf)) (hy : RoundTrip te options) (hs : StringDirs options)
    (hoff : Dict.get? options "download_from_internet" = some (.leaf (.bool false))) (us : List Use) :
    ∀ s : TestState α, InForce te options s → OnlyDirs s (useAll te us s).2 := by
  induction us with
  | nil => intro s _; exact ⟨rfl, rfl, rfl, rfl, rfl⟩
  | cons u us ih =>
    intro s hf
    have h1 := use_onlyDirs te options s hf hy hs hoff u
    have hok : u.run te s = (.ok (), (u.run te s).2) := by cases u <;> rfl
    have hf' : InForce te options (u.run te s).2 := by
      obtain ⟨d, h0, h2, h3⟩ := hf
      exact ⟨d, h0, h1.psp.trans h2, by rw [h1.files]; exact h3⟩
    have h2 := ih _ hf'
    have e : useAll te (u :: us) s = useAll te us (u.run te s).2 := by
      show PySt.bind (u.run te) (fun _ => useAll te us) s = _
      unfold PySt.bind
      rw [hok]
    rw [e]
    exact ⟨h2.files.trans h1.files, h2.requests.trans h1.requests, h2.psp.trans h1.psp, h2.loader.trans h1.loader,
      h2.forbidden.trans h1.forbidden⟩

/-- keeps the variable, requests and every `pyspectral.yaml` -/
structure CalmStep (s s' : TestState α) : Prop where
  requests : s'.world.requests = s.world.requests
  psp : s'.psp = s.psp
  yaml : ∀ d, s'.world.files (d, "pyspectral.yaml") = s.world.files (d, "pyspectral.yaml")

/-- a computation that only prepares files -/
def Calm (m : Test α β) : Prop := ∀ s, CalmStep s (m s).2

/-- a body that makes no request when these options are in force -/
def Harmless (te : TestEnv α) (options : List (String × Conf)) (m : Test α β) : Prop :=
  ∀ s, InForce te options s → (m s).2.world.requests = s.world.requests ∧ (m s).2.psp = s.psp

omit [PyNum α] in
theorem calm_bind {γ δ : Type} {m : Test α γ} {f : γ → Test α δ} (h : Calm m) (hf : ∀ a, Calm (f a)) : Calm (m >>= f) := by
  intro s
  show CalmStep s (PySt.bind m f s).2
  unfold PySt.bind
  have h1 := h s
  rcases hm : m s with ⟨r, s'⟩
  rw [hm] at h1
  cases r with
  | error e => exact h1
  | ok a =>
    have h2 := hf a s'
    exact ⟨h2.requests.trans h1.requests, h2.psp.trans h1.psp, fun d => (h2.yaml d).trans (h1.yaml d)⟩

omit [PyNum α] in
theorem calm_refl (s : TestState α) : CalmStep s s := ⟨rfl, rfl, fun _ => rfl⟩

omit [PyNum α] in
theorem calm_pure (b : β) : Calm (pure b : Test α β) := fun s => calm_refl s

omit [PyNum α] in
theorem calm_lift (r : Py β) : Calm (PySt.lift r : Test α β) := fun s => calm_refl s

omit [PyNum α] in
theorem calm_mkdir (d : String) : Calm (mkdir d : Test α Unit) := fun _ => ⟨rfl, rfl, fun _ => rfl⟩

omit [PyNum α] in
theorem calm_writeFile (p : Path) (c : Content) (hp : p.2 ≠ "pyspectral.yaml") : Calm (writeFile p c : Test α Unit) := by
  intro s
  unfold writeFile
  split
  · refine ⟨rfl, rfl, fun d => ?_⟩
    show (if (d, "pyspectral.yaml") = p then _ else _) = _
    rw [if_neg]
    rintro rfl
    exact hp rfl
  · exact calm_refl s

omit [PyNum α] in
theorem calm_forEach (f : String → Test α Unit) (h : ∀ a, Calm (f a)) (l : List String) : Calm (PySt.forEach f l) := by
  induction l with
  | nil => exact calm_pure ()
  | cons a l ih => exact calm_bind (h a) fun _ => ih

omit [PyNum α] in
theorem harmless_bind {γ δ : Type} {te : TestEnv α} {options : List (String × Conf)} {m : Test α γ} {f : γ → Test α δ}
    (h : Calm m) (hf : ∀ a, Harmless te options (f a)) : Harmless te options (m >>= f) := by
  intro s hs
  show (PySt.bind m f s).2.world.requests = _ ∧ (PySt.bind m f s).2.psp = _
  unfold PySt.bind
  have h1 := h s
  rcases hm : m s with ⟨r, s'⟩
  rw [hm] at h1
  cases r with
  | error e => exact ⟨h1.requests, h1.psp⟩
  | ok a =>
    have hs' : InForce te options s' := by
      obtain ⟨d, h0, h2, h3⟩ := hs
      exact ⟨d, h0, h1.psp.trans h2, (h1.yaml d).trans h3⟩
    have h2 := hf a s' hs'
    exact ⟨h2.1.trans h1.requests, h2.2.trans h1.psp⟩

omit [PyNum α] in
theorem harmless_withLoader {te : TestEnv α} {options : List (String × Conf)} {m : Test α β} (load : Path → Py (RsrInfo α))
    (h : Harmless te options m) : Harmless te options (withLoader load m) := by
  intro s hs
  exact h { s with loader := some load } hs

theorem harmless_mockRsrFiles {te : TestEnv α} {options : List (String × Conf)} {m : Test α β} (d : String)
    (v : Option String) (cw : Dict String α) (h : Harmless te options m) : Harmless te options (mockRsrFiles d v cw m) := by
  unfold mockRsrFiles
  cases v with
  | none => exact harmless_withLoader _ h
  | some v =>
    exact harmless_bind (calm_mkdir d) fun _ => harmless_bind (calm_writeFile _ _ (by show RSR_DATA_VERSION_FILENAME ≠ _; decide +kernel))
      fun _ => harmless_withLoader _ h

theorem version_names : ∀ p ∈ ATM_CORRECTION_LUT_VERSION, p.2.2 ≠ "pyspectral.yaml" := by decide +kernel

omit [PyNum α] in
theorem calm_version_files (d : String) (ev : ExistingVersion) (types : List String) :
    Calm (initRayleighVersionFiles d ev types : Test α Unit) := by
  unfold initRayleighVersionFiles
  refine calm_forEach _ (fun t => ?_) _
  intro s
  cases hg : ATM_CORRECTION_LUT_VERSION.getItem t with
  | error e =>
    rw [st_bind_error (st_lift_error rfl s)]
    exact calm_refl s
  | ok v =>
    rw [st_bind_ok (st_lift_ok rfl s)]
    have hv := version_names _ (get?_eq_some_mem (getItem_ok_iff.1 hg))
    obtain ⟨version, filename⟩ := v
    exact calm_bind (calm_mkdir _) (fun _ => calm_writeFile (d ++ "/" ++ t, filename) _ hv) s

theorem link_name (a : String) : "rayleigh_lut_" ++ Str.replaceChar ' ' '_' a ++ ".h5" ≠ "pyspectral.yaml" := by
  intro h
  have := congrArg String.toList h
  rw [String.toList_append, String.toList_append] at this
  simp at this

omit [PyNum α] in
theorem calm_symlink (d : String) (p : Path) (hp : p.2 ≠ "pyspectral.yaml") : Calm (symlinkRayleighLut d p : Test α Unit) := by
  intro s
  unfold symlinkRayleighLut
  split
  · exact calm_refl s
  · refine ⟨rfl, rfl, fun x => ?_⟩
    show (if (x, "pyspectral.yaml") = p then _ else _) = _
    rw [if_neg]
    rintro rfl
    exact hp rfl

omit [PyNum α] in
theorem harmless_mockRayleighLuts {te : TestEnv α} {options : List (String × Conf)} {m : Test α β} (d : String)
    (ev : ExistingVersion) (types atms : Option (List String)) (h : Harmless te options m) :
    Harmless te options (mockRayleighLuts te d ev types atms m) := by
  unfold mockRayleighLuts
  refine harmless_bind (calm_mkdir d) fun _ => harmless_bind (calm_writeFile _ _ (by show BASE_RAYLEIGH_LUT_FILENAME ≠ _; decide +kernel))
    fun _ => ?_
  split
  · exact harmless_bind (calm_version_files _ _ _) fun _ => harmless_bind (calm_forEach _ (fun t =>
      calm_bind (calm_mkdir _) fun _ => calm_forEach _ (fun a => calm_symlink _ _ (link_name a)) _) _) fun _ => h
  · exact h

omit [PyNum α] in
theorem override_requests (te : TestEnv α) (hfresh : ∀ w, PlainDir (te.fresh w)) (options : List (String × Conf))
    (body : String → Test α β) (hb : ∀ p, Harmless te options (body p)) (s : TestState α) :
    (overrideConfig te (some options) none body s).2.world.requests = s.world.requests := by
  have hin := started_inForce te (some options) s (hfresh _)
  have h := hb (te.fresh s.world ++ "/pyspectral.yaml") _ hin
  rcases hr : body (te.fresh s.world ++ "/pyspectral.yaml") (started te (some options) s) with ⟨r, s'⟩
  rw [hr] at h
  have hp : s'.psp ≠ none := by
    rw [show s'.psp = _ from h.2]
    simp [started]
  rw [override_run te (some options) body s (hfresh _) r s' hr hp]
  exact h.1

omit [PyNum α] in
theorem dirOrTemp_requests (te : TestEnv α) (d : Option String) (body : String → Test α β)
    (hb : ∀ d s, (body d s).2.world.requests = s.world.requests) (s : TestState α) :
    (withDirOrTemp te d body s).2.world.requests = s.world.requests := by
  cases d with
  | some d => exact hb d s
  | none => exact hb _ _

theorem useAll_harmless (te : TestEnv α) (options : List (String × Conf)) (hy : RoundTrip te options) (hs : StringDirs options)
    (hoff : Dict.get? options "download_from_internet" = some (.leaf (.bool false))) (us : List Use) :
    Harmless te options (useAll te us) := by
  intro s hf
  have h := useAll_onlyDirs te options hy hs hoff us s hf
  exact ⟨h.requests, h.psp⟩

/-- what is assumed of the outside: temporary directories have ordinary absolute names, and yaml reads back what
it wrote -/
structure Outside (te : TestEnv α) : Prop where
  fresh : ∀ w, PlainDir (te.fresh w)
  yaml : ∀ options, Tree (.map options) → RoundTrip te options

theorem tree_iff (u : List (String × Conf)) :
    Tree (.map u) ↔ Dict.WF u ∧ ∀ k c, Dict.get? u k = some c → Tree c := by
  constructor
  · exact fun h => ⟨tree_wf h, fun k c hk => tree_sub h hk⟩
  · rintro ⟨h1, h2⟩ p d hp
    cases p with
    | nil => cases hp; exact h1
    | cons k p =>
      rw [atPath] at hp
      cases hk : Dict.get? u k with
      | none => rw [hk] at hp; cases hp
      | some c => rw [hk] at hp; exact h2 k c hk p d hp

theorem tree_leaf (v : Leaf) : Tree (.leaf v) := by
  intro p d hp
  cases p <;> cases hp

theorem tree_set {u : List (String × Conf)} (h : Tree (.map u)) (k : String) {c : Conf} (hc : Tree c) :
    Tree (.map (Dict.set u k c)) := by
  rw [tree_iff] at h ⊢
  refine ⟨set_wf u k c h.1, ?_⟩
  intro k' c' hk
  rw [get?_set] at hk
  split at hk
  · cases hk; exact hc
  · exact h.2 _ _ hk

/-- `d.update(u)` -/
def updated (d u : List (String × Conf)) : List (String × Conf) := u.foldl (fun d p => Dict.set d p.1 p.2) d

theorem updated_tree : ∀ (u d : List (String × Conf)), Tree (.map d) → (∀ p ∈ u, Tree p.2) → Tree (.map (updated d u))
  | [], _, h, _ => h
  | p :: u, d, h, hu => updated_tree u (Dict.set d p.1 p.2) (tree_set h _ (hu p (by simp)))
      fun q hq => hu q (by simp [hq])

theorem updated_get : ∀ (u d : List (String × Conf)) (k : String) (c : Conf), Dict.get? (updated d u) k = some c →
    (k, c) ∈ u ∨ Dict.get? d k = some c
  | [], _, _, _, h => .inr h
  | p :: u, d, k, c, h => by
    rcases updated_get u (Dict.set d p.1 p.2) k c h with h | h
    · exact .inl (by simp [h])
    · rw [get?_set] at h
      split at h
      · rename_i hk
        cases h
        exact .inl (by simp [hk])
      · exact .inr h

theorem updated_keep : ∀ (u d : List (String × Conf)) (k : String), k ∉ u.map Prod.fst →
    Dict.get? (updated d u) k = Dict.get? d k
  | [], _, _, _ => rfl
  | p :: u, d, k, h => by
    simp only [List.map_cons, List.mem_cons, not_or] at h
    refine (updated_keep u (Dict.set d p.1 p.2) k h.2).trans ?_
    rw [get?_set, if_neg h.1]

theorem flat_tree {u : List (String × Conf)} (h1 : Dict.WF u) (h2 : ∀ p ∈ u, ∃ v, p.2 = .leaf v) : Tree (.map u) := by
  rw [tree_iff]
  refine ⟨h1, fun k c hk => ?_⟩
  obtain ⟨v, hv⟩ := h2 _ (get?_eq_some_mem hk)
  rw [show c = .leaf v from hv]
  exact tree_leaf v

theorem stringDirs_of_mem {u : List (String × Conf)}
    (h : ∀ p ∈ u, p.1 ∈ ["rsr_dir", "rayleigh_dir"] → ∃ s, p.2 = .leaf (.str s)) : StringDirs u :=
  fun k hk _ hc => h (k, _) (get?_eq_some_mem hc) hk

/-- C91: constructing any readers and Rayleigh objects (of any names, supported or not) inside a `mock_rsr`
block makes no request, for every directory, version and central wavelengths. -/
theorem C91_mock_rsr (te : TestEnv α) (ho : Outside te) (rsr_dir version : Option String) (cw : Dict String α)
    (us : List Use) (s : TestState α) :
    (mockRsr te rsr_dir version false cw (useAll te us) s).2.world.requests = s.world.requests := by
  unfold mockRsr
  refine dirOrTemp_requests te _ _ (fun d s => ?_) s
  refine override_requests te ho.fresh _ _ (fun _ => harmless_mockRsrFiles _ _ _ (useAll_harmless te _ (ho.yaml _ ?_) ?_ rfl us)) s
  · exact flat_tree (by simp [Dict.WF]) (by simp)
  · exact stringDirs_of_mem (by simp)

/-- C91: the same inside `mock_rayleigh`, for every directory, version, aerosol types and atmospheres. -/
theorem C91_mock_rayleigh (te : TestEnv α) (ho : Outside te) (rayleigh_dir rsr_dir : Option String) (ev : ExistingVersion)
    (types atms : Option (List String)) (us : List Use) (s : TestState α) :
    (mockRayleigh te rayleigh_dir rsr_dir ev types atms (useAll te us) s).2.world.requests = s.world.requests := by
  unfold mockRayleigh
  refine dirOrTemp_requests te _ _ (fun d s => ?_) s
  refine override_requests te ho.fresh _ _ (fun _ => harmless_mockRayleighLuts _ _ _ _ (harmless_mockRsrFiles _ _ _
    (useAll_harmless te _ (ho.yaml _ ?_) ?_ rfl us))) s
  · exact flat_tree (by simp [Dict.WF]) (by simp)
  · exact stringDirs_of_mem (by simp)

/-- C91: the same inside `mock_tb_conversion`. -/
theorem C91_mock_tb_conversion (te : TestEnv α) (ho : Outside te) (tb2rad_dir rsr_dir version : Option String)
    (cw : Dict String α) (us : List Use) (s : TestState α) :
    (mockTbConversion te tb2rad_dir rsr_dir version cw (useAll te us) s).2.world.requests = s.world.requests := by
  unfold mockTbConversion
  refine dirOrTemp_requests te _ _ (fun d s => ?_) s
  refine override_requests te ho.fresh _ _ (fun _ => harmless_mockRsrFiles _ _ _
    (useAll_harmless te _ (ho.yaml _ ?_) ?_ rfl us)) s
  · exact flat_tree (by simp [Dict.WF]) (by simp)
  · exact stringDirs_of_mem (by simp)

/-- C91: the same inside `mock_pyspectral_downloads`, for any extra options but `download_from_internet` (the
directories, if given, as strings). -/
theorem C91_mock_pyspectral_downloads (te : TestEnv α) (ho : Outside te) (tmp_path version : Option String)
    (extra : List (String × Conf)) (cw : Dict String α) (us : List Use) (s : TestState α)
    (hx : ∀ p ∈ extra, Tree p.2 ∧ p.1 ≠ "download_from_internet" ∧
      (p.1 ∈ ["rsr_dir", "rayleigh_dir"] → ∃ d, p.2 = .leaf (.str d))) :
    (mockPyspectralDownloads te tmp_path extra version cw (useAll te us) s).2.world.requests = s.world.requests := by
  unfold mockPyspectralDownloads
  refine dirOrTemp_requests te _ _ (fun d s => ?_) s
  refine override_requests te ho.fresh _ _ (fun _ => harmless_mockRayleighLuts _ _ _ _ (harmless_bind (calm_mkdir _)
    fun _ => harmless_mockRsrFiles _ _ _ (useAll_harmless te _ (ho.yaml _ ?_) ?_ ?_ us))) s
  · exact updated_tree extra _ (flat_tree (by simp [Dict.WF]) (by simp)) fun p hp => (hx p hp).1
  · intro k hk c hc
    rcases updated_get extra _ k c hc with h | h
    · exact (hx _ h).2.2 hk
    · exact stringDirs_of_mem (by simp) k hk c h
  · refine (updated_keep extra _ _ ?_).trans rfl
    intro hm
    obtain ⟨p, hp, he⟩ := List.mem_map.1 hm
    exact (hx p hp).2.1 he

/-! ### forbid_pyspectral_downloads -/

/-- every state of the run has the files it started with, and if anything was requested the run ends in a
RuntimeError -/
def Blocked {γ : Type} (m : Eff γ) (w : World) : Prop :=
  (∀ x, (x = Eff.final m w ∨ x ∈ Eff.crashStates m w) → x.files = w.files) ∧
  ((Eff.final m w).requests = w.requests ∨ Eff.result m w = .error .runtimeError)

theorem blocked_of_quiet {γ : Type} {m : Eff γ} {w : World} (h : Quiet m w) : Blocked m w :=
  ⟨fun x hx => (h x hx).1, .inl (h _ (.inl rfl)).2⟩

theorem blocked_bind {γ δ : Type} {m : Eff γ} {f : γ → Eff δ} {w : World} (h : Blocked m w)
    (hf : ∀ a w', Blocked (f a) w') : Blocked (m >>= f) w := by
  unfold Blocked Eff.final Eff.crashStates Eff.result at h ⊢
  rcases hm : m w with ⟨r, w', t⟩
  rw [hm] at h
  cases r with
  | error e =>
    rw [eff_bind_error hm]
    exact ⟨h.1, h.2.imp id fun h => by cases h; rfl⟩
  | ok a =>
    rw [eff_bind_ok hm]
    have h2 := hf a w'
    unfold Blocked Eff.final Eff.crashStates Eff.result at h2
    have hw : w'.files = w.files := h.1 w' (.inl rfl)
    have hr : w'.requests = w.requests := h.2.resolve_right (by simp)
    refine ⟨?_, h2.2.imp (fun h => h.trans hr) id⟩
    intro x hx
    rcases hx with rfl | hx
    · exact (h2.1 _ (.inl rfl)).trans hw
    · rcases List.mem_cons.1 hx with rfl | hx
      · rfl
      · rcases List.mem_append.1 hx with hx | hx
        · exact h.1 x (.inr (by simp [hx]))
        · exact (h2.1 x (.inr (by simp [hx]))).trans hw

theorem blocked_forEach {γ : Type} (f : γ → Eff Unit) (h : ∀ a w, Blocked (f a) w) :
    ∀ (l : List γ) (w : World), Blocked (Eff.forEach f l) w
  | [], w => blocked_of_quiet (quiet_pure () w)
  | a :: l, w => blocked_bind (h a w) fun _ w' => blocked_forEach f h l w'

theorem blocked_tarball (env : Env) (hf : ∀ url, env.server url = .raises .runtimeError) (url : String) (p : Path) (d : String)
    (w : World) : Blocked (downloadTarballAndExtract env url p d) w := by
  have e : downloadTarballAndExtract env url p d w =
      (.error .runtimeError, { w with requests := w.requests ++ [url] }, [{ w with requests := w.requests ++ [url] }]) := by
    unfold downloadTarballAndExtract
    rw [hf]
    rfl
  unfold Blocked Eff.final Eff.crashStates Eff.result
  rw [e]
  refine ⟨?_, .inr rfl⟩
  intro x hx
  simp only [List.mem_cons, List.not_mem_nil, or_false] at hx
  rcases hx with rfl | rfl | rfl <;> rfl

/-- the entry points that may download -/
inductive Entry where
  | reader (platform instrument : Option String) (filename : Option Path)
  | rayleigh (platform sensor atmosphere aerosol : String)
  | checkRsr (dest : Option String) (dry_run : Bool)
  | checkLuts (dry_run : Bool) (aerosol_types : Option (List String))
  | downloadRsr (dest : Option String) (dry_run : Bool)
  | downloadLuts (types : Option (List String)) (dry_run : Bool)

/-- call it in a test -/
def Entry.run (te : TestEnv α) : Entry → Test α Unit
  | .reader p i f => do let _ ← newReader te p i f
  | .rayleigh p i atm aer => do let _ ← newRayleigh te p i atm aer
  | .checkRsr dest dry => useConfig te fun env => checkAndDownloadRsr env dest dry
  | .checkLuts dry types => useConfig te fun env => checkAndDownloadLuts env dry types
  | .downloadRsr dest dry => useConfig te fun env => Model.downloadRsr env dest dry
  | .downloadLuts types dry => useConfig te fun env => Model.downloadLuts env types dry

theorem quiet_get (w : World) : Quiet Eff.get w :=
  quiet_of_eq (r := .ok w) (w' := w) (t := []) rfl ⟨rfl, rfl⟩ (by simp)

theorem quiet_makedirs (d : String) (w : World) : Quiet (FileOp.makedirs d) w := by
  refine quiet_of_eq (makedirs_run d w) ⟨rfl, rfl⟩ ?_
  intro x hx
  simp only [List.mem_cons, List.not_mem_nil, or_false] at hx
  rw [hx]
  exact ⟨rfl, rfl⟩

theorem quiet_getConfigFull (e : ConfEnv) (f : Option String) (w : World) : Quiet (getConfigFull e f) w := by
  unfold getConfigFull
  refine quiet_bind (quiet_get w) fun _ _ _ _ => quiet_bind (quiet_lift _ _) fun _ _ _ _ =>
    quiet_bind (quiet_lift _ _) fun _ _ _ _ => quiet_bind (quiet_lift _ _) fun _ _ _ _ =>
    quiet_bind (quiet_lift _ _) fun _ _ _ _ => quiet_bind (quiet_makedirs _ _) fun _ _ _ _ =>
    quiet_bind (quiet_makedirs _ _) fun _ _ _ _ => quiet_pure _ _

section forbid
variable (env : Env) (hf : ∀ url, env.server url = .raises .runtimeError)
include hf

theorem blocked_downloadRsr (dest : Option String) (dry : Bool) (w : World) : Blocked (downloadRsr env dest dry) w := by
  unfold downloadRsr
  refine blocked_bind (blocked_of_quiet (quiet_getConfig env w)) fun cfg w' => ?_
  cases dry with
  | true => exact blocked_of_quiet (quiet_pure _ _)
  | false => exact blocked_tarball env hf _ _ _ _

theorem blocked_updates (dest : Option String) (dry : Bool) (w : World) : Blocked (downloadRsrUpdates env dest dry) w := by
  unfold downloadRsrUpdates
  refine blocked_bind (blocked_of_quiet (quiet_get w)) fun v w' => ?_
  split
  · exact blocked_of_quiet (quiet_pure _ _)
  · split
    · exact blocked_of_quiet (quiet_pure _ _)
    · exact blocked_bind (blocked_downloadRsr env hf dest dry w') fun _ _ => blocked_of_quiet (quiet_pure _ _)

theorem blocked_downloadLuts (types : Option (List String)) (dry : Bool) (w : World) :
    Blocked (downloadLuts env types dry) w := by
  unfold downloadLuts
  refine blocked_forEach _ (fun t w => ?_) _ _
  unfold downloadLut
  refine blocked_bind (blocked_of_quiet (quiet_lift _ _)) fun url w' =>
    blocked_bind (blocked_of_quiet (quiet_getConfig env w')) fun _ w' => ?_
  cases dry with
  | true => exact blocked_of_quiet (quiet_pure _ _)
  | false => exact blocked_bind (blocked_of_quiet (quiet_makedirs _ _)) fun _ _ => blocked_tarball env hf _ _ _ _

omit hf in
theorem quiet_rayleighConfig (t atm : String) (w : World) : Quiet (rayleighConfig env t atm) w := by
  obtain ⟨tr, htr, hx⟩ := rayleighConfig_run env t atm w
  refine quiet_of_eq htr ?_ hx
  split <;> exact ⟨rfl, rfl⟩

omit hf in
theorem quiet_neededTypes : ∀ (l : List String) (w : World), Quiet (neededTypes env l) w
  | [], w => quiet_pure _ w
  | t :: l, w => quiet_bind (quiet_rayleighConfig env t _ w) fun _ w' _ _ =>
      quiet_bind (quiet_neededTypes l w') fun _ _ _ _ => quiet_pure _ _

theorem blocked_rayleighNew (p i atm aer : String) (w : World) : Blocked (rayleighNew env p i atm aer) w := by
  unfold rayleighNew
  refine blocked_bind (blocked_of_quiet (quiet_rayleighConfig env _ _ w)) fun up w' =>
    blocked_bind (blocked_of_quiet (quiet_lift _ _)) fun _ w' =>
    blocked_bind (blocked_of_quiet (quiet_getConfig env w')) fun _ w' => ?_
  dsimp only
  split
  · exact blocked_bind (blocked_downloadLuts env hf _ _ _) fun _ _ => blocked_of_quiet (quiet_pure _ _)
  · exact blocked_of_quiet (quiet_pure _ _)

omit hf [PyNum α] in
theorem quiet_openRsrFile (h5open : Content → Option (H5File α)) (p : Path) (w : World) : Quiet (openRsrFile h5open p) w := by
  unfold openRsrFile
  refine quiet_bind (quiet_get w) fun v w' _ _ => ?_
  cases v.files p with
  | none => exact quiet_lift (.error .fileNotFound) w'
  | some c =>
    dsimp only
    cases h5open c with
    | none => exact quiet_lift (.error .ioError) w'
    | some f => exact quiet_pure f w'

omit hf in
theorem quiet_readerLoad (h5open : Content → Option (H5File α)) (path : Path) (platform inst : Option String) (w : World) :
    Quiet (readerLoad h5open path platform inst) w :=
  quiet_bind (quiet_openRsrFile h5open path w) fun _ _ _ _ => quiet_bind (quiet_lift _ _) fun _ _ _ _ => quiet_pure _ _

theorem blocked_readerNew (h5open : Content → Option (H5File α)) (p i : Option String) (f : Option Path) (w : World) :
    Blocked (readerNew env h5open p i f) w := by
  unfold readerNew
  refine blocked_bind (blocked_of_quiet (quiet_getConfig env w)) fun cfg w' =>
    blocked_bind (blocked_of_quiet (quiet_lift _ _)) fun a w' => ?_
  dsimp only
  split
  · exact blocked_bind (blocked_updates env hf _ _ _) fun _ w' => blocked_of_quiet (quiet_readerLoad h5open _ _ _ w')
  · exact blocked_of_quiet (quiet_readerLoad h5open _ _ _ w')

theorem blocked_readerWith (load : Path → Py (RsrInfo α)) (p i : Option String) (f : Option Path) (w : World) :
    Blocked (readerWith load env p i f) w := by
  unfold readerWith
  refine blocked_bind (blocked_of_quiet (quiet_getConfig env w)) fun cfg w' =>
    blocked_bind (blocked_of_quiet (quiet_lift _ _)) fun a w' => ?_
  have hload : ∀ w', Quiet (do let info ← Eff.lift (load a.1); return readerOf a.1 a.2.1 a.2.2 info) w' := fun w' =>
    quiet_bind (quiet_lift _ _) fun _ _ _ _ => quiet_pure _ _
  dsimp only
  split
  · exact blocked_bind (blocked_updates env hf _ _ _) fun _ w' => blocked_of_quiet (hload w')
  · exact blocked_of_quiet (hload w')

theorem blocked_checkRsr (dest : Option String) (dry : Bool) (w : World) : Blocked (checkAndDownloadRsr env dest dry) w := by
  unfold checkAndDownloadRsr
  exact blocked_bind (blocked_of_quiet (quiet_getConfig env w)) fun _ w' =>
    blocked_bind (blocked_updates env hf dest dry w') fun _ _ => blocked_of_quiet (quiet_pure _ _)

theorem blocked_checkLuts (dry : Bool) (types : Option (List String)) (w : World) :
    Blocked (checkAndDownloadLuts env dry types) w := by
  unfold checkAndDownloadLuts
  dsimp only
  refine blocked_bind (blocked_of_quiet (quiet_neededTypes env _ w)) fun needed w' => ?_
  split
  · exact blocked_of_quiet (quiet_pure _ _)
  · exact blocked_downloadLuts env hf _ _ _

end forbid

/-- nothing of the files has changed, and a request was a RuntimeError -/
def BlockedTest (m : Test α β) (s : TestState α) : Prop :=
  (m s).2.world.files = s.world.files ∧
  ((m s).2.world.requests = s.world.requests ∨ (m s).1 = .error .runtimeError)

omit [PyNum α] in
theorem useConfig_blocked (te : TestEnv α) (f : Env → Eff β) (s : TestState α) (hs : s.forbidden = true)
    (h : ∀ env w, (∀ url, env.server url = .raises .runtimeError) → Blocked (f env) w) : BlockedTest (useConfig te f) s := by
  have hb : Blocked (do
      let options ← Eff.lift (downloadOptions (← getConfigFull { te.conf with psp := s.psp }))
      f { cfg := options, server := fun _ => Answer.raises .runtimeError, untar := te.untar }) s.world :=
    blocked_bind (blocked_of_quiet (quiet_getConfigFull _ _ _)) fun _ w' =>
      blocked_bind (blocked_of_quiet (quiet_lift _ _)) fun _ w' => h _ w' fun _ => rfl
  unfold BlockedTest useConfig
  dsimp only
  rw [hs]
  exact ⟨hb.1 _ (.inl rfl), hb.2⟩

/-- C91: inside a `forbid_pyspectral_downloads` block, calling any entry point with any arguments, whatever the
configuration and the files, changes no file; if it attempted a download, it raises RuntimeError. -/
theorem C91_forbidden (te : TestEnv α) (e : Entry) (s : TestState α) :
    BlockedTest (forbidPyspectralDownloads (e.run te)) s := by
  have key : ∀ s : TestState α, s.forbidden = true → BlockedTest (e.run te) s := by
    intro s hs
    have tail : ∀ {γ : Type} (m : Test α γ), BlockedTest m s → BlockedTest (do let _ ← m : Test α Unit) s := by
      intro γ m hm
      unfold BlockedTest at hm ⊢
      rcases h : m s with ⟨r, s'⟩
      rw [h] at hm
      cases r with
      | ok a => rw [st_bind_ok h]; exact ⟨hm.1, .inl (hm.2.resolve_right (by simp))⟩
      | error e => rw [st_bind_error h]; exact ⟨hm.1, hm.2.imp id fun h => by cases h; rfl⟩
    cases e with
    | reader p i f =>
      refine tail _ ?_
      cases hl : s.loader with
      | none =>
        have e : newReader te p i f s = useConfig te (fun env => readerNew env te.h5open p i f) s := by
          unfold newReader; rw [hl]
        have := useConfig_blocked te _ s hs fun env w h => blocked_readerNew env h te.h5open p i f w
        unfold BlockedTest at this ⊢
        rwa [e]
      | some load =>
        have e : newReader te p i f s = useConfig te (fun env => readerWith load env p i f) s := by
          unfold newReader; rw [hl]
        have := useConfig_blocked te _ s hs fun env w h => blocked_readerWith env h load p i f w
        unfold BlockedTest at this ⊢
        rwa [e]
    | rayleigh p i atm aer =>
      exact tail _ (useConfig_blocked te _ s hs fun env w h => blocked_rayleighNew env h p i atm aer w)
    | checkRsr d b => exact useConfig_blocked te _ s hs fun env w h => blocked_checkRsr env h d b w
    | checkLuts b t => exact useConfig_blocked te _ s hs fun env w h => blocked_checkLuts env h b t w
    | downloadRsr d b => exact useConfig_blocked te _ s hs fun env w h => blocked_downloadRsr env h d b w
    | downloadLuts t b => exact useConfig_blocked te _ s hs fun env w h => blocked_downloadLuts env h t b w
  exact key { s with forbidden := true } rfl

/-- C91: inside the block, with a readable configuration, `download_rsr` (not a dry run) raises RuntimeError. -/
theorem C91_forbidden_raises (te : TestEnv α) (dest : Option String) (s : TestState α)
    (h : (useConfig te (fun _ => (pure () : Eff Unit)) s).1 = .ok ()) :
    (forbidPyspectralDownloads ((Entry.downloadRsr dest false).run te) s).1 = .error .runtimeError := by
  unfold forbidPyspectralDownloads Entry.run useConfig
  unfold useConfig at h
  dsimp only at h ⊢
  rcases hg : getConfigFull { te.conf with psp := s.psp } none s.world with ⟨r, w, t⟩
  cases r with
  | error e =>
    rw [eff_bind_error hg] at h
    cases h
  | ok o =>
    rw [eff_bind_ok hg] at h ⊢
    dsimp only at h ⊢
    cases hd : downloadOptions o with
    | error e =>
      rw [hd, eff_bind_error (eff_lift_error rfl _)] at h
      cases h
    | ok c =>
      rw [eff_bind_ok (eff_lift_ok rfl _)]
      rfl

omit [PyNum α] in
/-- C91: after the block, whatever its body does, downloads are as before. -/
theorem C91_forbid_restored (body : Test α β) (s : TestState α) :
    (forbidPyspectralDownloads body s).2.forbidden = s.forbidden := rfl

end Verif.Props
