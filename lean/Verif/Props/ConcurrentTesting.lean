import Verif.Lemmas.Conc
import Verif.Model.ConcurrentTesting
import Verif.Props.TestData
/-
C156: overriding the configuration in one of several threads, and in several.
-/
namespace Verif.Props
open Verif Verif.Model Verif.Lemmas
variable {α : Type} [PyNum α] {β ι : Type}

theorem run_onEnd {σ γ : Type} (P : Prog σ β) (f : Py β → Prog σ γ) (s : σ) :
    (P.onEnd f).run s = (f (P.run s).1).run (P.run s).2 := by
  induction P generalizing s with
  | done r => rfl
  | step n u ih => exact ih s (u s)

omit [PyNum α] in
theorem tempdir_alone (te : TestEnv α) (bodyP : String → Prog (TestState α) β) (body : String → Test α β)
    (hb : ∀ d s, (bodyP d).run s = body d s) (s : TestState α) : (withTempDirP te bodyP).run s = withTempDir te body s := by
  have h : (withTempDirP te bodyP).run s = ((bodyP (te.fresh s.world)).onEnd fun r =>
      .step (fun _ => .done r) fun s' : TestState α => { s' with world := removeTree (te.fresh s.world) s'.world }).run
        (mkdir (te.fresh s.world) s).2 := rfl
  rw [h, run_onEnd, hb]
  rfl

omit [PyNum α] in
/-- C156: a thread alone does what `override_config` does. -/
theorem C156_alone (te : TestEnv α) (options : Option (List (String × Conf))) (path : Option String)
    (bodyP : String → Prog (TestState α) β) (body : String → Test α β) (hb : ∀ p s, (bodyP p).run s = body p s)
    (s : TestState α) : (overrideConfigP te options path bodyP).run s = overrideConfig te options path body s := by
  have key : ∀ (old : Option String) (p : String) (s : TestState α),
      (overriddenP old p bodyP).run s = overridden old p body s := by
    intro old p s
    show ((bodyP p).onEnd (restoreP old)).run { s with psp := some p } = _
    rw [run_onEnd, hb]
    unfold overridden restoreP
    rcases body p { s with psp := some p } with ⟨r, s'⟩
    cases old with
    | some v => rfl
    | none =>
      dsimp only
      show Prog.run (if s'.psp = none then Prog.done (.error .keyError) else .done r) { s' with psp := none } = _
      cases h : s'.psp with
      | none =>
        obtain ⟨w, q, l, f⟩ := s'
        dsimp only at h
        subst h
        rfl
      | some v => rfl
  cases path with
  | some p => exact key s.psp p s
  | none =>
    have h1 : (overrideConfigP te options none bodyP).run s = (withTempDirP te fun d =>
        (createPyspectralConfigFileP te (configPathIn d) options).bind fun _ =>
          overriddenP s.psp (configPathIn d) bodyP).run s := rfl
    have h2 : overrideConfig te options none body s = withTempDir te (fun d =>
        PySt.bind (createPyspectralConfigFile te (configPathIn d) options) fun _ =>
          overridden s.psp (configPathIn d) body) s := rfl
    rw [h1, h2]
    exact tempdir_alone te _ _ (fun d s' => by
      rw [run_bind]
      unfold PySt.bind
      have hc : (createPyspectralConfigFileP te (configPathIn d) options).run s' =
        createPyspectralConfigFile te (configPathIn d) options s' := rfl
      rw [hc]
      rcases createPyspectralConfigFile te (configPathIn d) options s' with ⟨r, m'⟩
      cases r with
      | ok u => exact key _ _ _
      | error e => rfl) s

/-! ### One thread that overrides -/

/-- `Own F v P`: as long as nobody else changes the variable, which is `v` now, the program ends with a result
and a value of the variable that meet `F`. -/
def Own (F : Py β → Option String → Prop) : Option String → Prog (TestState α) β → Prop
  | v, .done r => F r v
  | v, .step n u => ∀ s, s.psp = v → Own F (u s).psp (n s)

/-- the program never changes the variable -/
def KeepsVariable : Prog (TestState α) β → Prop
  | .done _ => True
  | .step n u => ∀ s, (u s).psp = s.psp ∧ KeepsVariable (n s)

omit [PyNum α] in
theorem own_weaken {F G : Py β → Option String → Prop} (P : Prog (TestState α) β) (h : ∀ r v, F r v → G r v) :
    ∀ v, Own F v P → Own G v P := by
  induction P with
  | done r => exact fun v hv => h r v hv
  | step n u ih => exact fun v hv s hs => ih s _ (hv s hs)

omit [PyNum α] in
theorem own_onEnd {γ : Type} {F : Py β → Option String → Prop} {G : Py γ → Option String → Prop}
    (P : Prog (TestState α) β) (f : Py β → Prog (TestState α) γ) (hf : ∀ r v, F r v → Own G v (f r)) :
    ∀ v, Own F v P → Own G v (P.onEnd f) := by
  induction P with
  | done r => exact fun v hv => hf r v hv
  | step n u ih => exact fun v hv s hs => ih s _ (hv s hs)

omit [PyNum α] in
theorem own_any (P : Prog (TestState α) β) : ∀ v, Own (fun _ _ => True) v P := by
  induction P with
  | done r => exact fun _ => trivial
  | step n u ih => exact fun v s _ => ih s _

omit [PyNum α] in
/-- Under every schedule, of any number of threads of which only one changes the variable. -/
theorem own_exec [DecidableEq ι] (i : ι) (F : Py β → Option String → Prop) (P : ι → Prog (TestState α) β)
    (s : TestState α) (hi : Own F s.psp (P i)) (hj : ∀ j, j ≠ i → KeepsVariable (P j)) (schedule : List ι) :
    Own F (Prog.exec (P, s) schedule).2.psp ((Prog.exec (P, s) schedule).1 i) := by
  refine (exec_invariant (fun c : (ι → Prog (TestState α) β) × TestState α =>
    Own F c.2.psp (c.1 i) ∧ ∀ j, j ≠ i → KeepsVariable (c.1 j)) ?_ schedule (P, s) ⟨hi, hj⟩).1
  rintro ⟨Q, t⟩ k ⟨h1, h2⟩
  dsimp only at h1 h2
  cases h : Q k with
  | done r =>
    have : Prog.move k (Q, t) = (Q, t) := by simp [Prog.move, h]
    rw [this]
    exact ⟨h1, h2⟩
  | step n u =>
    have : Prog.move k (Q, t) = (Function.update Q k (n t), u t) := by simp [Prog.move, h]
    rw [this]
    by_cases hk : k = i
    · subst hk
      rw [h] at h1
      refine ⟨by simpa using h1 t rfl, fun j hj => ?_⟩
      simpa [Function.update_of_ne hj] using h2 j hj
    · have hkk := h2 k hk
      rw [h] at hkk
      refine ⟨?_, fun j hj => ?_⟩
      · dsimp only
        rw [Function.update_of_ne (Ne.symm hk), (hkk t).1]
        exact h1
      · by_cases hjk : j = k
        · subst hjk; simpa using (hkk t).2
        · simpa [Function.update_of_ne hjk] using h2 j hj

omit [PyNum α] in
theorem own_overridden (old : Option String) (p : String) (body : String → Prog (TestState α) β)
    (F : Py β → Option String → Prop) (G : Py β → Prop)
    (hF : ∀ r v, F r v → (v ≠ none → G r) ∧ (v = none → old ≠ none → G r) ∧ (v = none → old = none → G (.error .keyError)))
    (hb : Own F (some p) (body p)) (v : Option String) :
    Own (fun r v' => v' = old ∧ G r) v (overriddenP old p body) := by
  intro s _
  refine own_onEnd _ _ (fun r v' h => ?_) _ hb
  cases old with
  | some w =>
    intro s' hs'
    refine ⟨rfl, ?_⟩
    by_cases hv : v' = none
    · exact (hF r v' h).2.1 hv (by simp)
    · exact (hF r v' h).1 hv
  | none =>
    intro s' hs'
    show Own _ none (if s'.psp = none then _ else _)
    by_cases hv : v' = none
    · rw [if_pos (hs'.trans hv)]
      exact ⟨rfl, (hF r v' h).2.2 hv rfl⟩
    · rw [if_neg (by rw [hs']; exact hv)]
      exact ⟨rfl, (hF r v' h).1 hv⟩

omit [PyNum α] in
theorem own_override (te : TestEnv α) (options : Option (List (String × Conf))) (path : Option String)
    (body : String → Prog (TestState α) β) (old : Option String) (F : Py β → Option String → Prop) (G : Py β → Prop)
    (hF : ∀ r v, F r v → (v ≠ none → G r) ∧ (v = none → old ≠ none → G r) ∧ (v = none → old = none → G (.error .keyError)))
    (hb : ∀ p, (path = none ∨ path = some p) → Own F (some p) (body p))
    (herr : path = none → ∀ e, G (.error e)) :
    Own (fun r v' => v' = old ∧ G r) old (overrideConfigP te options path body) := by
  intro s hs
  subst hs
  cases path with
  | some p => exact own_overridden s.psp p body F G hF (hb p (Or.inr rfl)) s.psp
  | none =>
    intro s1 hs1
    have hb' : Own (fun r v' => v' = s.psp ∧ G r) s.psp
        ((createPyspectralConfigFileP te (configPathIn (te.fresh s1.world)) options).bind fun _ =>
          overriddenP s.psp (configPathIn (te.fresh s1.world)) body) := by
      intro s2 hs2
      have hk : (createPyspectralConfigFile te (configPathIn (te.fresh s1.world)) options s2).2.psp = s.psp := by
        unfold createPyspectralConfigFile writeFile
        split <;> exact hs2
      rw [hk]
      show Own _ _ (Prog.bind (.done _) _)
      cases hr : (createPyspectralConfigFile te (configPathIn (te.fresh s1.world)) options s2).1 with
      | ok u => exact own_overridden s.psp _ body F G hF (hb _ (Or.inl rfl)) s.psp
      | error e => exact ⟨rfl, herr rfl e⟩
    have hs1' : (mkdir (te.fresh s1.world) s1).2.psp = s.psp := hs1
    show Own _ (mkdir (te.fresh s1.world) s1).2.psp _
    rw [hs1']
    refine own_onEnd (F := fun r v' => v' = s.psp ∧ G r) _ _ (fun r v' h => ?_) _ hb'
    intro s2 hs2
    rw [← hs2] at h
    exact h

/-! ### C156 -/

omit [PyNum α] in
/-- C156, the part that holds: one thread has an `override_config` block, with any body, and the other threads do
anything but change PSP_CONFIG_FILE.  Under every schedule, when that thread has finished the variable is what it
was at the start. -/
theorem C156_restored_partial [DecidableEq ι] (te : TestEnv α) (options : Option (List (String × Conf)))
    (path : Option String) (body : String → Prog (TestState α) β) (i : ι) (P : ι → Prog (TestState α) β)
    (hi : P i = overrideConfigP te options path body) (hj : ∀ j, j ≠ i → KeepsVariable (P j)) (s : TestState α)
    (schedule : List ι) (r : Py β) (hr : ((Prog.exec (P, s) schedule).1 i).result? = some r) :
    (Prog.exec (P, s) schedule).2.psp = s.psp := by
  have h := own_exec i (fun _ v => v = s.psp ∧ True) P s (by
    rw [hi]
    exact own_override te options path body s.psp (fun _ _ => True) (fun _ => True) (fun _ _ _ => ⟨fun _ => trivial,
      fun _ _ => trivial, fun _ _ => trivial⟩) (fun p _ => own_any _ _) (fun _ _ => trivial)) hj schedule
  cases hd : (Prog.exec (P, s) schedule).1 i with
  | done r' => rw [hd] at h; exact h.1
  | step n u => rw [hd] at hr; cases hr

omit [PyNum α] in
/-- C156, the part that holds: and meanwhile the body has the configuration of the block, whatever it does with
it: if its results meet `R` whenever nobody else changes the variable, so does the result of the block. -/
theorem C156_in_force_partial [DecidableEq ι] (te : TestEnv α) (options : Option (List (String × Conf))) (p : String)
    (body : String → Prog (TestState α) β) (R : Py β → Prop) (i : ι) (P : ι → Prog (TestState α) β)
    (hi : P i = overrideConfigP te options (some p) body) (hj : ∀ j, j ≠ i → KeepsVariable (P j))
    (hb : Own (fun r v => v = some p ∧ R r) (some p) (body p)) (s : TestState α)
    (schedule : List ι) (r : Py β) (hr : ((Prog.exec (P, s) schedule).1 i).result? = some r) : R r := by
  have h := own_exec i (fun r v => v = s.psp ∧ R r) P s (by
    rw [hi]
    refine own_override te options (some p) body s.psp (fun r v => v = some p ∧ R r) R (fun r v hv => ?_) (fun q hq => ?_)
      (fun h => by cases h)
    · exact ⟨fun _ => hv.2, fun h => (by rw [h] at hv; cases hv.1), fun h => (by rw [h] at hv; cases hv.1)⟩
    · rcases hq with h | h
      · cases h
      · cases h; exact hb) hj schedule
  cases hd : (Prog.exec (P, s) schedule).1 i with
  | done r' =>
    rw [hd] at h hr
    cases hr
    exact h.2
  | step n u => rw [hd] at hr; cases hr

/-- a body that tells which configuration file it saw -/
def seeConfig (_ : String) : Prog (TestState α) (Option String) := .look fun s => .done (.ok s.psp)

/-- a thread that makes a directory and writes a file in it -/
def otherWork : Prog (TestState α) (Option String) :=
  (Prog.act fun s => (mkdir "/x" s).2).bind fun _ =>
    .step (fun _ => .done (.ok none)) fun s => { s with world := s.world.setFile ("/x", "y") (some []) }

example (te : TestEnv α) (s : TestState α) (schedule : List Bool) (r : Py (Option String))
    (hr : ((Prog.exec ((fun i => if i then overrideConfigP te none (some "/etc/p.yaml") seeConfig else otherWork), s)
      schedule).1 true).result? = some r) :
    r = .ok (some "/etc/p.yaml") ∧
    (Prog.exec ((fun i => if i then overrideConfigP te none (some "/etc/p.yaml") seeConfig else otherWork), s)
      schedule).2.psp = s.psp := by
  have hj : ∀ j : Bool, j ≠ true → KeepsVariable
      (if j then overrideConfigP te none (some "/etc/p.yaml") seeConfig else otherWork : Prog (TestState α) (Option String)) := by
    intro j h
    cases j with
    | true => exact absurd rfl h
    | false => exact fun s => ⟨rfl, fun s => ⟨rfl, trivial⟩⟩
  refine ⟨C156_in_force_partial te none "/etc/p.yaml" seeConfig (fun r => r = .ok (some "/etc/p.yaml")) true _ rfl hj
    (fun s hs => ⟨hs, by rw [hs]⟩) s schedule r hr, C156_restored_partial te none (some "/etc/p.yaml") seeConfig true _ rfl hj
      s schedule r hr⟩

omit [PyNum α] in
theorem stays_onEnd {γ : Type} {I : TestState α → Prop} {R : Py γ → Prop} (P : Prog (TestState α) β)
    (hP : KeepsVariable P) (hI : ∀ s t : TestState α, s.psp = t.psp → I s → I t) (f : Py β → Prog (TestState α) γ)
    (hf : ∀ r, Stays I R (f r)) : Stays I R (P.onEnd f) := by
  induction P with
  | done r => exact hf r
  | step n u ih => exact fun s hs => ⟨hI _ _ (hP s).1.symm hs, ih s (hP s).2⟩

omit [PyNum α] in
/-- C156: any number of threads have blocks with files of their own, and bodies that do not change the variable.
Under every schedule, at all times the variable is what it was at the start or names one of their files. -/
theorem C156_values [DecidableEq ι] (te : TestEnv α) (options : ι → Option (List (String × Conf)))
    (path : ι → String) (body : ι → String → Prog (TestState α) β) (hb : ∀ i p, KeepsVariable (body i p))
    (s : TestState α) (schedule : List ι) :
    let v := (Prog.exec ((fun i => overrideConfigP te (options i) (some (path i)) (body i)), s) schedule).2.psp
    v = s.psp ∨ ∃ i, v = some (path i) := by
  refine (exec_stays (fun t : TestState α => t.psp = s.psp ∨ ∃ i, t.psp = some (path i)) (fun _ _ => True) _ s (Or.inl rfl)
    (fun i => ?_) schedule).1
  intro t ht
  refine ⟨ht, ?_⟩
  show Stays _ _ (overriddenP t.psp (path i) (body i))
  intro t' _
  refine ⟨Or.inr ⟨i, rfl⟩, ?_⟩
  refine stays_onEnd _ (hb i _) (fun a b hab ha => by rw [← hab]; exact ha) _ fun r => ?_
  cases hp : t.psp with
  | some v => exact fun t2 _ => ⟨by rw [hp] at ht; exact ht, trivial⟩
  | none =>
    intro t2 _
    refine ⟨by rw [hp] at ht; exact ht, ?_⟩
    show Stays _ _ (if t2.psp = none then _ else _)
    split <;> trivial

omit [PyNum α] in
/-- C156: the full claim, for several threads with blocks, is false.  Two threads with files `p` and `q` of their
own: under some schedule the first one's body sees the other's file, the second one's body sees none of
the two, and when both have finished the variable names the first one's file. -/
theorem C156_race (te : TestEnv α) (p q : String) (s : TestState α) :
    ∃ schedule : List Bool,
      let c := Prog.exec ((fun i => overrideConfigP te none (some (if i then p else q)) seeConfig), s) schedule
      (c.1 true).result? = some (.ok (some q)) ∧ (c.1 false).result? = some (.ok s.psp) ∧ c.2.psp = some p := by
  refine ⟨[true, true, false, false, true, true, false, false], ?_⟩
  obtain ⟨w, v, l, f⟩ := s
  cases v <;> exact ⟨rfl, rfl, rfl⟩

omit [PyNum α] in
/-- C156: if the variable was not set, the exit of a block can fail with KeyError although its body succeeded. -/
theorem C156_key_error (te : TestEnv α) (p q : String) (s : TestState α) (hs : s.psp = none) :
    ∃ schedule : List Bool,
      let c := Prog.exec ((fun i => overrideConfigP te none (some (if i then p else q)) seeConfig), s) schedule
      (c.1 true).result? = some (.ok (some q)) ∧ (c.1 false).result? = some (.error .keyError) := by
  refine ⟨[true, false, true, false, true, true, false, false], ?_⟩
  obtain ⟨w, v, l, f⟩ := s
  dsimp only at hs
  subst hs
  exact ⟨rfl, rfl⟩

/-- what is left to do in a block with a temporary file, from the beginning of its body -/
def insideP (te : TestEnv α) (d : String) (old : Option String) (body : String → Prog (TestState α) β) :
    Prog (TestState α) β :=
  ((body (configPathIn d)).onEnd (restoreP old)).onEnd fun r =>
    .step (fun _ => .done r) fun s' => { s' with world := removeTree d s'.world }

omit [PyNum α] in
theorem enter_turns (te : TestEnv α) (body : String → Prog (TestState α) β) (s : TestState α)
    (hd : PlainDir (te.fresh s.world)) :
    turns 4 (overrideConfigP te none none body) s = (insideP te (te.fresh s.world) s.psp body, started te none s) := by
  have hfile := file_in (te.fresh s.world) "pyspectral.yaml" hd (by decide)
  have hw : createPyspectralConfigFile te (configPathIn (te.fresh s.world)) none (mkdir (te.fresh s.world) s).2 =
      (.ok (), { started te none s with psp := s.psp }) := by
    unfold createPyspectralConfigFile writeFile
    rw [show OsPath.file (configPathIn (te.fresh s.world)) = _ from hfile]
    have : (mkdir (te.fresh s.world) s).2.world.dirs (te.fresh s.world) = true := by
      show (if te.fresh s.world = te.fresh s.world then true else _) = true
      rw [if_pos rfl]
    dsimp only
    rw [if_pos this]
    rfl
  have h1 : turns 4 (overrideConfigP te none none body) s = turns 2 (((createPyspectralConfigFileP te
      (configPathIn (te.fresh s.world)) none).bind fun _ => overriddenP s.psp (configPathIn (te.fresh s.world)) body).onEnd
      fun r => .step (fun _ => .done r) fun s' => { s' with world := removeTree (te.fresh s.world) s'.world })
      (mkdir (te.fresh s.world) s).2 := rfl
  rw [h1]
  have h2 : ∀ m : TestState α, turns 2 (((createPyspectralConfigFileP te
      (configPathIn (te.fresh s.world)) none).bind fun _ => overriddenP s.psp (configPathIn (te.fresh s.world)) body).onEnd
      fun r => .step (fun _ => .done r) fun s' => { s' with world := removeTree (te.fresh s.world) s'.world }) m =
      turns 1 (((Prog.done (createPyspectralConfigFile te (configPathIn (te.fresh s.world)) none m).1).bind fun _ =>
        overriddenP s.psp (configPathIn (te.fresh s.world)) body).onEnd
        fun r => .step (fun _ => .done r) fun s' => { s' with world := removeTree (te.fresh s.world) s'.world })
        (createPyspectralConfigFile te (configPathIn (te.fresh s.world)) none m).2 := fun _ => rfl
  rw [h2, hw, show started te none s = { { started te none s with psp := s.psp } with
    psp := some (configPathIn (te.fresh s.world)) } by rw [configPathIn_eq]; rfl]
  rfl

omit [PyNum α] in
/-- C156: with temporary files, the variable can be left naming a file that is gone, so that every later
`get_config()` fails. -/
theorem C156_race_temporary (te : TestEnv α) (hfresh : ∀ w, PlainDir (te.fresh w))
    (s : TestState α) :
    ∃ schedule : List Bool,
      let c := Prog.exec ((fun _ => overrideConfigP te none none seeConfig), s) schedule
      (∀ i, ∃ v, (c.1 i).result? = some (.ok v)) ∧
      c.2.psp = some (te.fresh s.world ++ "/pyspectral.yaml") ∧ (readConfig te c.2).1 = .error .ioError := by
  refine ⟨List.replicate 4 true ++ (List.replicate 4 false ++ (List.replicate 3 true ++ List.replicate 3 false)), ?_⟩
  have hexit : ∀ (d : String) (old : Option String) (t : TestState α), t.psp ≠ none ∨ old ≠ none →
      turns 3 (insideP te d old seeConfig) t = (.done (.ok t.psp), { t with psp := old, world := removeTree d t.world }) := by
    intro d old t ht
    obtain ⟨w, v, l, f⟩ := t
    cases old with
    | some o => rfl
    | none =>
      cases v with
      | none => simp at ht
      | some v => rfl
  have e : Prog.exec ((fun _ : Bool => overrideConfigP te none none seeConfig), s)
      (List.replicate 4 true ++ (List.replicate 4 false ++ (List.replicate 3 true ++ List.replicate 3 false))) =
      (fun i => .done (.ok (if i then some (te.fresh (started te none s).world ++ "/pyspectral.yaml") else s.psp)),
        { started te none (started te none s) with
          psp := some (te.fresh s.world ++ "/pyspectral.yaml")
          world := removeTree (te.fresh (started te none s).world) (removeTree (te.fresh s.world)
            (started te none (started te none s)).world) }) := by
    rw [exec_append, exec_replicate true 4, enter_turns te _ s (hfresh _)]
    rw [exec_append, exec_replicate false 4]
    rw [Function.update_of_ne (by decide : false ≠ true), enter_turns te _ _ (hfresh _)]
    rw [exec_append, exec_replicate true 3]
    rw [Function.update_of_ne (by decide : true ≠ false), Function.update_self, hexit _ _ _ (Or.inl (by simp [started]))]
    rw [exec_replicate false 3]
    rw [Function.update_of_ne (by decide : false ≠ true), Function.update_self, hexit _ _ _ (Or.inr (by simp [started]))]
    refine Prod.ext ?_ rfl
    funext i
    cases i <;> rfl
  rw [e]
  refine ⟨fun i => ⟨_, rfl⟩, rfl, ?_⟩
  have hfile : (removeTree (te.fresh (started te none s).world) (removeTree (te.fresh s.world)
            (started te none (started te none s)).world)).files (OsPath.file (te.fresh s.world ++ "/pyspectral.yaml")) = none := by
    rw [← configPathIn_eq, show OsPath.file (configPathIn (te.fresh s.world)) = _ from
      file_in (te.fresh s.world) "pyspectral.yaml" (hfresh _) (by decide)]
    simp [removeTree, within]
  unfold readConfig getConfigFull
  dsimp only
  rw [eff_bind_ok (eff_get _)]
  have : configPath { te.conf with psp := some (te.fresh s.world ++ "/pyspectral.yaml") } none
      (removeTree (te.fresh (started te none s).world) (removeTree (te.fresh s.world)
            (started te none (started te none s)).world)) = .error .ioError := by
    simp [configPath, getEnvOrBuiltinConfigPath, hfile]
  rw [this]
  rfl

/-- temporary directories with names of their own -/
noncomputable def exTempEnv : TestEnv XF :=
  { exTestEnv with fresh := fun w => if w.dirs "/tmp/psp1" then "/tmp/psp2" else "/tmp/psp1" }

example : ∃ schedule : List Bool, (readConfig exTempEnv (Prog.exec ((fun _ : Bool =>
    overrideConfigP exTempEnv none none seeConfig), exTestState) schedule).2).1 = .error .ioError := by
  obtain ⟨schedule, _, _, h⟩ := C156_race_temporary exTempEnv (fun w => by
    show PlainDir (if w.dirs "/tmp/psp1" then "/tmp/psp2" else "/tmp/psp1")
    split
    · exact ⟨"tmp/psp".toList, '2', by decide, by decide⟩
    · exact ⟨"tmp/psp".toList, '1', by decide, by decide⟩) exTestState
  exact ⟨schedule, h⟩

end Verif.Props
