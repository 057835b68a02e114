import Verif.Lemmas.Shared
import Verif.Lemmas.NirNew
import Verif.Model.Concurrent
import Verif.Props.Nir
/-
C153: constructing calculators at the same time.
-/
namespace Verif.Props
open Model Spec Lemmas PyNum XF
variable {α : Type} [PyNum α]

/-! ### The processes -/

/-- `Calculator(platform_name, instrument, band, ...)` as a program that shares its files with others -/
def makeP (ne : NirEnv α) (k : NirArgs α) : Prog World (Nir α) :=
  Nir.newP ne k.sensor k.platform_name k.instrument k.band k.detector k.wavespace k.solar_flux k.sunz_threshold
    k.masking_limit

/-- a program that does alone what a computation does -/
def Agrees {β : Type} (P : Prog World β) (m : Eff β) : Prop := ∀ w, P.run w = ((m w).1, (m w).2.1)

theorem agrees_bind {β γ : Type} {P : Prog World β} {m : Eff β} {f : β → Prog World γ} {g : β → Eff γ}
    (h : Agrees P m) (hf : ∀ a, Agrees (f a) (g a)) : Agrees (P.bind f) (m >>= g) := by
  intro w
  rw [run_bind, h w]
  rcases hm : m w with ⟨r, w', t⟩
  cases r with
  | ok a =>
    rw [eff_bind_ok hm]
    exact hf a w'
  | error e =>
    rw [eff_bind_error hm]

theorem agrees_lift {β : Type} (r : Py β) : Agrees (.done r) (Eff.lift r) := fun _ => rfl

theorem agrees_look {β : Type} {f : World → Prog World β} {g : World → Eff β} (h : ∀ w, Agrees (f w) (g w)) :
    Agrees (.look f) (Eff.get >>= g) := by
  intro w
  rw [eff_bind_ok (eff_get w)]
  exact h w w

theorem agrees_open (p : Path) : Agrees (openWriteP p) (FileOp.openWrite p) := by
  intro w
  unfold openWriteP FileOp.openWrite
  rw [eff_bind_ok (eff_get w)]
  show Prog.run (if w.dirs p.1 = true then _ else _) (if w.dirs p.1 = true then _ else _) = _
  by_cases h : w.dirs p.1 = true
  · rw [if_pos h, if_pos h, if_pos h]; rfl
  · rw [if_neg h, if_neg h, if_neg h]; rfl

theorem writeAt_end (c : Content) (b : Char) : writeAt c c.length b = c ++ [b] := by
  simp [writeAt]

theorem write_alone (p : Path) (data : Content) : ∀ (w : World) (c : Content), w.files p = some c →
    (writeP p c.length data).run w = ((FileOp.append p data w).1, (FileOp.append p data w).2.1) := by
  induction data with
  | nil => intro w c _; rfl
  | cons b bs ih =>
    intro w c hc
    show (writeP p (c.length + 1) bs).run (w.setFile p (some (writeAt ((w.files p).getD []) c.length b))) = _
    have e : w.setFile p (some (writeAt ((w.files p).getD []) c.length b)) =
        w.setFile p (some ((w.files p).getD [] ++ [b])) := by
      rw [hc]; simp only [Option.getD_some, writeAt_end]
    rw [e]
    have := ih (w.setFile p (some ((w.files p).getD [] ++ [b]))) (c ++ [b]) (by simp [setFile_files, hc])
    rw [List.length_append] at this
    have this' := this
    simp only [List.length_cons, List.length_nil, Nat.zero_add] at this'
    rw [this']
    have : FileOp.append p (b :: bs) w = ((FileOp.append p bs (w.setFile p (some ((w.files p).getD [] ++ [b])))).1,
        (FileOp.append p bs (w.setFile p (some ((w.files p).getD [] ++ [b])))).2.1,
        (w.setFile p (some ((w.files p).getD [] ++ [b]))) ::
          (FileOp.append p bs (w.setFile p (some ((w.files p).getD [] ++ [b])))).2.2) := rfl
    rw [this]

theorem readBytes_alone (p : Path) (w : World) (c : Content) (h : w.files p = some c) :
    ∀ (n k : Nat) (acc : Content), k + n = c.length → (readBytesP p k n acc).run w = (.ok (acc ++ c.drop k), w) := by
  intro n
  induction n with
  | zero => intro k acc hk; simp [readBytesP, Prog.run, List.drop_of_length_le (show c.length ≤ k by omega)]
  | succ n ih =>
    intro k acc hk
    have hlt : k < c.length := by omega
    show Prog.run (match ((w.files p).getD [])[k]? with | some b => _ | none => _) w = _
    rw [h, Option.getD_some, List.getElem?_eq_getElem hlt]
    simp only
    rw [ih (k + 1) (acc ++ [c[k]]) (by omega), List.drop_eq_getElem_cons hlt]
    simp

theorem read_alone (p : Path) (w : World) :
    (readP p).run w = match w.files p with
      | none => (.error .fileNotFound, w)
      | some c => (.ok c, w) := by
  show Prog.run (match w.files p with | none => .done (.error .fileNotFound) | some c => readBytesP p 0 c.length []) w = _
  cases h : w.files p with
  | none => rfl
  | some c => exact readBytes_alone _ w c h _ 0 [] (by omega)

theorem agrees_readLut (ne : NirEnv α) (f : String) : Agrees (readTb2radLutP ne f) (readTb2radLut ne f) := by
  intro w
  unfold readTb2radLutP readTb2radLut
  rw [run_bind, eff_bind_ok (eff_get w), read_alone]
  cases h : w.files (OsPath.file f) <;> rfl

theorem agrees_makeLut (ne : NirEnv α) (c : RadTb α) (f : String) :
    Agrees (makeTb2radLutFileP ne c f) (makeTb2radLutFile ne c f) := by
  unfold makeTb2radLutFileP makeTb2radLutFile
  refine agrees_bind (agrees_lift _) fun lut => ?_
  intro w
  rw [run_bind, agrees_open _ w]
  rcases hm : FileOp.openWrite (OsPath.file (savezPath f)) w with ⟨r, w', t⟩
  cases r with
  | error e => rw [eff_bind_error hm]
  | ok u =>
    rw [eff_bind_ok hm]
    have hw : w'.files (OsPath.file (savezPath f)) = some [] := by
      unfold FileOp.openWrite at hm
      rw [eff_bind_ok (eff_get w)] at hm
      split at hm
      · simp only [Eff.step, Prod.mk.injEq] at hm
        rw [← hm.2.1]; simp [setFile_files]
      · simp [Eff.raise] at hm
    exact write_alone _ _ w' [] hw

theorem agrees_setLut (ne : NirEnv α) (c : RadTb α) (f : String) : Agrees (setLutP ne c f) (setLut ne c f) := by
  unfold setLutP setLut
  refine agrees_look fun w => ?_
  split
  · exact agrees_readLut ne f
  · exact agrees_bind (agrees_makeLut ne c f) fun _ => agrees_readLut ne f

theorem agrees_makedirs (d : String) : Agrees (makedirsP d) (FileOp.makedirs d) := fun _ => rfl

theorem agrees_setLutfile (ne : NirEnv α) (p i b : String) : Agrees (setLutfileP ne p i b) (setLutfile ne p i b) := by
  have h : setLutfile ne p i b = (FileOp.makedirs ne.env.cfg.rsr_dir >>= fun _ =>
      FileOp.makedirs ne.env.cfg.rayleigh_dir >>= fun _ => Eff.get >>= fun w =>
        match lutfileFromConfig ne w (ne.tb2rad_dir.getD ne.tempdir) p i b with
        | some f => pure f
        | none => pure (OsPath.join (ne.tb2rad_dir.getD ne.tempdir) (autoLutname p i b ++ ".npz"))) := rfl
  rw [h]
  unfold setLutfileP
  refine agrees_bind (agrees_makedirs _) fun _ => agrees_bind (agrees_makedirs _) fun _ => agrees_look fun w => ?_
  dsimp only
  generalize lutfileFromConfig ne w _ p i b = o
  cases o <;> exact fun _ => rfl

/-- A process alone does what the constructor does. -/
theorem C153_alone (ne : NirEnv α) (k : NirArgs α) (w : World) :
    (makeP ne k).run w = ((k.make ne w).1, (k.make ne w).2.1) := by
  unfold makeP NirArgs.make Nir.newP Nir.new
  refine agrees_bind (agrees_lift _) (fun c => agrees_bind (agrees_lift _) fun nw => agrees_bind (agrees_lift _)
    fun flux => agrees_bind (agrees_setLutfile _ _ _ _) fun f => agrees_bind (agrees_setLut _ _ _) fun l => ?_) w
  exact fun _ => rfl

/-! ### The constructor obeys -/

/-- the rules for a file that holds `v0` at the beginning and is to hold `E` -/
def fileRules (p : Path) (v0 : Option Content) (E : Content) : Rules World := ⟨fun w => w.files p, v0, E, fun _ => True, False⟩

/-- the rules for a table file: at the beginning there is none, or a complete one -/
abbrev tableRules (p : Path) (E : Content) : Rules World := fileRules p none E

variable {β ι : Type}

theorem holds_mangled {p : Path} {E : Content} {w : World} (h : (tableRules p E).holds w) (c : Content)
    (hc : w.files p = some c) : Mangled E c := by
  rcases h.2 with h | ⟨c', h, hm⟩
  · exact absurd ((show w.files p = none from h).symm.trans hc) (by simp)
  · have := (show w.files p = some c' from h).symm.trans hc
    cases this
    exact hm

theorem obeys_readBytes {p : Path} {E : Content} {t : Bool} (n : Nat) : ∀ (acc : Content), Mangled E acc →
    Obeys (tableRules p E) (fun _ (r : Py Content) => ∃ c, r = .ok c ∧ Mangled E c) t none (readBytesP p acc.length n acc) := by
  induction n with
  | zero => intro acc h; exact .done ⟨acc, rfl, h⟩
  | succ n ih =>
    intro acc h
    unfold readBytesP
    refine obeys_look fun w hs => ?_
    cases hb : ((w.files p).getD [])[acc.length]? with
    | none => exact .done ⟨acc, rfl, h⟩
    | some b =>
      cases hw : w.files p with
      | none => rw [hw] at hb; simp at hb
      | some c =>
        rw [hw, Option.getD_some] at hb
        have hm := holds_mangled hs c hw
        have hl : acc.length < c.length := (List.getElem?_eq_some_iff.1 hb).1
        have := ih (acc ++ [b]) (mangled_append h (by have := hm.1; omega) (hm.2 _ _ hb))
        rw [List.length_append] at this
        exact this

theorem obeys_read {p : Path} {E : Content} {t : Bool} :
    Obeys (tableRules p E) (fun _ (r : Py Content) => ∀ c, r = .ok c → Mangled E c) t none (readP p) := by
  unfold readP
  refine obeys_look fun w _ => ?_
  cases hw : w.files p with
  | none => exact .done (fun c hc => by cases hc)
  | some c =>
    refine obeys_weaken (obeys_readBytes (p := p) (E := E) c.length [] (mangled_nil E)) ?_
    rintro _ r ⟨c, rfl, hm⟩ c' hc'
    cases hc'
    exact hm

theorem obeys_write {p : Path} {v0 : Option Content} {E : Content} (data : Content) : ∀ k, E = E.take k ++ data → k ≤ E.length →
    Obeys (fileRules p v0 E) (fun _ (_ : Py Unit) => True) true (some k) (writeP p k data) := by
  induction data with
  | nil =>
    intro k h hk
    have : k = E.length := by
      have := congrArg List.length h
      simp at this
      omega
    rw [this]
    exact .wrote (q := fileRules p v0 E) (.done trivial)
  | cons b bs ih =>
    intro k h hk
    have hkl : (E.take k).length = k := by simp [hk]
    have hb : E[k]? = some b := by
      rw [h, List.getElem?_append_right (by omega), hkl]; simp
    have hlt : k < E.length := (List.getElem?_eq_some_iff.1 hb).1
    refine .write (q := fileRules p v0 E) hb (fun w _ => ⟨trivial, by simp [fileRules, setFile_files]⟩)
      fun w _ => ih (k + 1) ?_ hlt
    rw [List.take_add_one, hb]
    simpa using h

theorem obeys_open {p : Path} {v0 : Option Content} {E : Content} {t : Bool} (f : Prog World β) {R : Bool → Py β → Prop}
    (hf : Obeys (fileRules p v0 E) R true (some 0) f) (hR : ∀ t e, R t (.error e)) :
    Obeys (fileRules p v0 E) R t none ((openWriteP p).bind fun _ => f) := by
  unfold openWriteP
  refine .step (fun w => if w.dirs p.1 then true else t) (fun w => if w.dirs p.1 then some 0 else none)
    (fun w _ => ⟨trivial, ?_⟩) fun w _ => ?_
  · by_cases h : w.dirs p.1 = true
    · simp [fileRules, h, setFile_files]
    · simp [fileRules, h]
  · by_cases h : w.dirs p.1 = true
    · simpa [h, Prog.bind] using hf
    · simpa [h, Prog.bind] using Obeys.done (hR _ _)

/-- a program that leaves the file alone -/
abbrev LeavesFile (p : Path) (P : Prog World β) : Prop := Leaves (fun _ => True) (fun w : World => w.files p) P

theorem leaves_read (p q : Path) : LeavesFile p (readP q) := by
  have hb : ∀ n k acc, LeavesFile p (readBytesP q k n acc) := by
    intro n
    induction n with
    | zero => intro k acc; trivial
    | succ n ih =>
      intro k acc w _
      refine ⟨trivial, rfl, ?_⟩
      dsimp only
      split
      · exact ih _ _
      · trivial
  intro w _
  refine ⟨trivial, rfl, ?_⟩
  dsimp only
  split
  · trivial
  · exact hb _ _ _

theorem leaves_write {p q : Path} (h : p ≠ q) (data : Content) : ∀ k, LeavesFile p (writeP q k data) := by
  induction data with
  | nil => intro k; trivial
  | cons b bs ih => intro k w _; exact ⟨trivial, by simp [setFile_files, h], ih _⟩

theorem leaves_open {p q : Path} (h : p ≠ q) : LeavesFile p (openWriteP q) := by
  intro w _
  by_cases hd : w.dirs q.1 = true
  · simp [hd, setFile_files, h, Leaves]
  · simp [hd, Leaves]

/-! ### C153 -/

/-- the construction with arguments `k` uses the table file `f`, whatever the files and directories, and
makes the table `l` for it -/
def UsesTable (ne : NirEnv α) (k : NirArgs α) (f : String) (l : Lut α) : Prop :=
  ∀ c nw flux, k.pre ne = .ok (c, nw, flux) →
    (∀ w, nirPath ne w k.platform_name k.instrument nw.1 = f) ∧ c.makeTb2radLut ne.nanCast = .ok l

/-- the construction with arguments `k` uses some other table file -/
def UsesOther (ne : NirEnv α) (k : NirArgs α) (f : String) : Prop :=
  ∀ c nw flux, k.pre ne = .ok (c, nw, flux) →
    ∃ f', f' ≠ "" ∧ (∀ w, nirPath ne w k.platform_name k.instrument nw.1 = f') ∧ OsPath.file f' ≠ OsPath.file f

theorem makeP_error (ne : NirEnv α) (k : NirArgs α) (e : PyErr) (h : k.pre ne = .error e) :
    makeP ne k = .done (.error e) := by
  unfold NirArgs.pre NirArgs.conv at h
  unfold makeP Nir.newP
  cases h1 : RadTb.new k.sensor k.platform_name k.instrument k.band k.detector k.wavespace with
  | error e' => rw [h1] at h; cases h; rfl
  | ok c =>
    rw [h1] at h
    simp only [bind, Except.bind] at h
    cases h2 : nirBand c k.band with
    | error e' => rw [h2] at h; cases h; simp only [Prog.bind, h2]
    | ok nw =>
      rw [h2] at h
      simp only at h
      cases h3 : nirFlux ne c nw.1 k.solar_flux with
      | error e' => rw [h3] at h; cases h; simp only [Prog.bind, h2, h3]
      | ok flux => rw [h3] at h; cases h

theorem makeP_ok (ne : NirEnv α) (k : NirArgs α) (c : RadTb α) (nw : String × α) (flux : α)
    (h : k.pre ne = .ok (c, nw, flux)) :
    makeP ne k = (setLutfileP ne k.platform_name k.instrument nw.1).bind fun f =>
      (setLutP ne c f).bind fun l => .done (.ok (k.object c nw flux f l)) := by
  unfold NirArgs.pre NirArgs.conv at h
  unfold makeP Nir.newP
  cases h1 : RadTb.new k.sensor k.platform_name k.instrument k.band k.detector k.wavespace with
  | error e' => rw [h1] at h; cases h
  | ok c' =>
    rw [h1] at h
    simp only [bind, Except.bind] at h
    cases h2 : nirBand c' k.band with
    | error e' => rw [h2] at h; cases h
    | ok nw' =>
      rw [h2] at h
      simp only at h
      cases h3 : nirFlux ne c' nw'.1 k.solar_flux with
      | error e' => rw [h3] at h; cases h
      | ok flux' =>
        rw [h3] at h
        cases h
        simp only [Prog.bind, h2, h3]
        rfl

/-- finding the name: two directories are made, then the name is known -/
theorem setLutfileP_eq (ne : NirEnv α) (p i b : String) :
    setLutfileP ne p i b = .step (fun _ => .step (fun _ => .look fun w => .done (.ok (nirPath ne w p i b)))
      (fun w => withDir ne.env.cfg.rayleigh_dir w)) (fun w => withDir ne.env.cfg.rsr_dir w) := by
  unfold setLutfileP makedirsP Prog.act
  simp only [Prog.bind]
  congr 1
  funext _
  congr 1
  funext _
  congr 1
  funext w
  unfold nirPath
  generalize lutfileFromConfig ne w (ne.tb2rad_dir.getD ne.tempdir) p i b = o
  cases o with
  | none => simp only [Option.getD_none]
  | some f => simp only [Option.getD_some]

theorem stays_lutfile {I : World → Prop} (hd : ∀ d w, I w → I (withDir d w)) (ne : NirEnv α) (p i b f : String)
    (hf : ∀ w, nirPath ne w p i b = f) : Stays I (fun r => r = .ok f) (setLutfileP ne p i b) := by
  rw [setLutfileP_eq]
  exact fun w hw => ⟨hd _ w hw, fun w hw => ⟨hd _ w hw, fun w hw => ⟨hw, by
    show (Except.ok (nirPath ne w p i b) : Py String) = .ok f
    rw [hf]⟩⟩⟩

theorem leaves_lutfile (ne : NirEnv α) (p i b : String) (q : Path) : LeavesFile q (setLutfileP ne p i b) := by
  rw [setLutfileP_eq]
  exact fun w _ => ⟨trivial, rfl, fun w _ => ⟨trivial, rfl, fun w _ => ⟨trivial, rfl, trivial⟩⟩⟩

theorem obeys_lutfile (ne : NirEnv α) (p i b f : String) (hf : ∀ w, nirPath ne w p i b = f) (q : Path) (E : Content) (t : Bool) :
    Obeys (tableRules q E) (fun _ r => r = .ok f) t none (setLutfileP ne p i b) := by
  rw [setLutfileP_eq]
  refine .step (fun _ => t) (fun _ => none) (fun _ _ => ⟨trivial, Or.inl ⟨rfl, rfl, rfl⟩⟩) fun _ _ =>
    .step (fun _ => t) (fun _ => none) (fun _ _ => ⟨trivial, Or.inl ⟨rfl, rfl, rfl⟩⟩) fun _ _ =>
      obeys_look fun w _ => .done ?_
  rw [hf]

theorem obeys_setLut (ne : NirEnv α) (c : RadTb α) (f : String) (l : Lut α) (hl : c.makeTb2radLut ne.nanCast = .ok l)
    (hz : savezPath f = f)
    (hdec : ∀ x, Mangled (ne.npzEncode l) x → ∀ l', ne.npzDecode x = .ok l' → l' = l) :
    ∀ t, Obeys (tableRules (OsPath.file f) (ne.npzEncode l)) (fun _ r => ∀ l', r = .ok l' → l' = l) t none (setLutP ne c f) := by
  have hread : ∀ t, Obeys (tableRules (OsPath.file f) (ne.npzEncode l)) (fun _ r => ∀ l', r = .ok l' → l' = l) t none
      (readTb2radLutP ne f) := by
    intro t
    unfold readTb2radLutP
    exact obeys_bind obeys_read (fun _ x hx => .done (hdec x (hx x rfl))) (fun _ e _ l' h => by cases h)
  intro t
  unfold setLutP
  refine obeys_look fun w _ => ?_
  split
  · exact hread t
  · refine obeys_bind (R' := fun _ _ => True) ?_ (fun t _ _ => hread t) (fun _ e _ l' h => by cases h)
    unfold makeTb2radLutFileP
    rw [hl, hz]
    exact obeys_open _ (obeys_write _ 0 (by simp) (by simp)) (fun _ _ => trivial)

theorem obeys_make (ne : NirEnv α) (k : NirArgs α) (f : String) (l : Lut α) (hne : f ≠ "")
    (hk : UsesTable ne k f l ∨ UsesOther ne k f)
    (hdec : ∀ x, Mangled (ne.npzEncode l) x → ∀ l', ne.npzDecode x = .ok l' → l' = l) :
    Obeys (tableRules (OsPath.file f) (ne.npzEncode l)) (fun _ r => UsesTable ne k f l → ∀ s, r = .ok s → s.lut = some l)
      false none
      (makeP ne k) := by
  have hz : ∀ f', f' ≠ "" → ∀ b, (∀ w, nirPath ne w k.platform_name k.instrument b = f') → savezPath f' = f' := by
    intro f' hf' b hb
    have := savezPath_nirPath ne ⟨fun _ => none, fun _ => false, []⟩ k.platform_name k.instrument b
    rw [hb] at this
    exact this hf'
  cases hp : k.pre ne with
  | error e =>
    rw [makeP_error ne k e hp]
    exact .done (fun _ s h => by cases h)
  | ok q =>
    obtain ⟨c, nw, flux⟩ := q
    rw [makeP_ok ne k c nw flux hp]
    by_cases hu : UsesTable ne k f l
    · obtain ⟨hf, hl⟩ := hu c nw flux hp
      refine obeys_bind (obeys_lutfile ne _ _ _ f hf _ _ _) ?_ (fun _ e h => by cases h)
      intro t f' hf'
      cases hf'
      refine obeys_bind (obeys_setLut ne c f l hl (hz f hne _ hf) hdec t) ?_ (fun _ e _ _ s h => by cases h)
      intro t l' hl'
      refine .done fun _ s hs => ?_
      cases hs
      show some l' = some l
      rw [hl' l' rfl]
    · obtain ⟨f', hf'0, hf', hff⟩ := (hk.resolve_left hu) c nw flux hp
      refine obeys_bind (obeys_lutfile ne _ _ _ f' hf' _ _ _) ?_ (fun _ e h => by cases h)
      intro t g hg
      cases hg
      refine obeys_leaves (fun r h => absurd h hu) _ (leaves_bind ?_ fun _ => trivial)
      have hr : LeavesFile (OsPath.file f) (readTb2radLutP ne f') := leaves_bind (leaves_read _ _) fun _ => trivial
      intro w _
      refine ⟨trivial, rfl, ?_⟩
      dsimp only
      split
      · exact hr
      · refine leaves_bind ?_ fun _ => hr
        unfold makeTb2radLutFileP
        rw [hz f' hf'0 _ hf']
        cases c.makeTb2radLut ne.nanCast with
        | error e => trivial
        | ok l' => exact leaves_bind (P := .done (.ok l')) trivial fun _ =>
            leaves_bind (leaves_open (Ne.symm hff)) fun _ => leaves_write (Ne.symm hff) _ _

/-- C153, the part that holds: any number of calculators made at the same time, in any order of their
steps, starting with no table or a complete one.  Of those that use the table file `f`, all that
succeed have the table of their own data.  When all have finished, the file is absent or complete, and
constructing again works.  (`hdec`: what can be read from a damaged file is the table or nothing.)
Missing: that all of them succeed, which is false. -/
theorem C153_concurrent_partial [DecidableEq ι] (ne : NirEnv α) (ks : ι → NirArgs α) (f : String) (l : Lut α) (hne : f ≠ "")
    (hk : ∀ i, UsesTable ne (ks i) f l ∨ UsesOther ne (ks i) f)
    (hround : ne.npzDecode (ne.npzEncode l) = .ok l)
    (hdec : ∀ x, Mangled (ne.npzEncode l) x → ∀ l', ne.npzDecode x = .ok l' → l' = l)
    (w : World) (hw : w.files (OsPath.file f) = none ∨ w.files (OsPath.file f) = some (ne.npzEncode l))
    (schedule : List ι) :
    (∀ i s, UsesTable ne (ks i) f l →
      ((Prog.exec (fun i => makeP ne (ks i), w) schedule).1 i).result? = some (.ok s) → s.lut = some l) ∧
    ((∀ i, ((Prog.exec (fun i => makeP ne (ks i), w) schedule).1 i).result? ≠ none) →
      ∀ w', w' = (Prog.exec (fun i => makeP ne (ks i), w) schedule).2 →
        (w'.files (OsPath.file f) = none ∨ w'.files (OsPath.file f) = some (ne.npzEncode l)) ∧
        ∀ k c nw flux, UsesTable ne k f l → k.pre ne = .ok (c, nw, flux) → w'.dirs f = false →
          ne.env.cfg.rsr_dir ≠ f → ne.env.cfg.rayleigh_dir ≠ f → w'.dirs (OsPath.dirname f) = true →
          ∃ s, (k.make ne w').1 = .ok s ∧ s.lut = some l) := by
  have hdone : ∀ (P : Prog World (Nir α)) r, P.result? = some r → P = .done r := by
    intro P r h
    cases P with
    | done r' => simp only [Prog.result?, Option.some.injEq] at h; rw [h]
    | step n u => cases h
  obtain ⟨-, t, h2, h3⟩ := (orderly_exec (fun i => makeP ne (ks i)) w trivial hw
    (fun i => obeys_make ne (ks i) f l hne (hk i) hdec) schedule).resolve_left (fun h => h.1)
  refine ⟨fun i s hu hs => ((h2 i _ (hdone _ _ hs)).resolve_left (fun h => h.1)) hu s rfl, fun hall w' hw' => ?_⟩
  have hfin : (Prog.exec (fun i => makeP ne (ks i), w) schedule).2.files (OsPath.file f) = none ∨
      (Prog.exec (fun i => makeP ne (ks i), w) schedule).2.files (OsPath.file f) = some (ne.npzEncode l) :=
    (h3 (fun i => by
    cases hr : ((Prog.exec (fun i => makeP ne (ks i), w) schedule).1 i).result? with
    | none => exact absurd hr (hall i)
    | some r => exact ⟨r, hdone _ _ hr⟩)).imp (fun h => h.1) id
  rw [← hw'] at hfin
  refine ⟨hfin, fun k c nw flux hu hp hnd hd1 hd2 hdir => ?_⟩
  obtain ⟨hf, hl⟩ := hu c nw flux hp
  obtain ⟨t, -, h⟩ := make_pre_ok ne k c nw flux hp w'
  rw [hf] at h
  rcases hfin with hn | hn
  · have hz := savezPath_nirPath ne w' k.platform_name k.instrument nw.1
    rw [hf] at hz
    obtain ⟨t', h4, -⟩ := setLut_new ne c f (configured ne.env w') l hn (by
        simp [configured, withDir, hnd, Ne.symm hd1, Ne.symm hd2]) hl (hz hne) (configured_dirs _ _ _ hdir)
    rw [h4, hround] at h
    rw [h]
    exact ⟨_, rfl, rfl⟩
  · rw [setLut_there ne c f (configured ne.env w') _ hn, hround] at h
    rw [h]
    exact ⟨_, rfl, rfl⟩

theorem stays_readBytes (p : Path) (E : Content) : ∀ n k acc, k + n = E.length → acc = E.take k →
    Stays (fun w : World => w.files p = some E) (fun r : Py Content => r = .ok E) (readBytesP p k n acc) := by
  intro n
  induction n with
  | zero =>
    intro k acc hk ha
    show Except.ok acc = Except.ok E
    rw [ha, List.take_of_length_le (by omega)]
  | succ n ih =>
    intro k acc hk ha
    intro w hw
    refine ⟨hw, ?_⟩
    have hlt : k < E.length := by omega
    dsimp only
    rw [hw, Option.getD_some, List.getElem?_eq_getElem hlt]
    exact ih (k + 1) _ (by omega) (by rw [ha, List.take_add_one, List.getElem?_eq_getElem hlt]; rfl)

/-- C153: with a complete table at the beginning, every construction has the result it has alone, in
any order of their steps. -/
theorem C153_complete_table [DecidableEq ι] (ne : NirEnv α) (ks : ι → NirArgs α) (f : String) (l : Lut α)
    (hk : ∀ i, UsesTable ne (ks i) f l) (hround : ne.npzDecode (ne.npzEncode l) = .ok l)
    (w : World) (hw : w.files (OsPath.file f) = some (ne.npzEncode l)) (schedule : List ι) (i : ι) (r : Py (Nir α))
    (hr : ((Prog.exec (fun i => makeP ne (ks i), w) schedule).1 i).result? = some r) :
    r = ((ks i).make ne w).1 := by
  have key : ∀ i, Stays (fun v : World => v.files (OsPath.file f) = some (ne.npzEncode l))
      (fun r => r = ((ks i).make ne w).1) (makeP ne (ks i)) := by
    intro i
    cases hp : (ks i).pre ne with
    | error e =>
      rw [makeP_error _ _ e hp, make_pre_error ne _ e hp]
      rfl
    | ok q =>
      obtain ⟨c, nw, flux⟩ := q
      obtain ⟨hf, hl⟩ := hk i c nw flux hp
      obtain ⟨t, -, h⟩ := make_pre_ok ne (ks i) c nw flux hp w
      rw [hf, setLut_there ne c f (configured ne.env w) _ hw, hround] at h
      rw [makeP_ok ne (ks i) c nw flux hp, h]
      refine stays_bind (stays_lutfile (fun d w h => h) ne _ _ _ f hf) ?_ (fun e h => by cases h)
      intro f' hf'
      cases hf'
      refine stays_bind (R' := fun r => r = .ok l) ?_ (fun a ha => by cases ha; rfl) (fun e h => by cases h)
      intro v hv
      refine ⟨hv, ?_⟩
      dsimp only
      rw [if_pos (by simp [OsPath.pathExists, hv])]
      refine stays_bind (R' := fun r => r = .ok (ne.npzEncode l)) ?_ (fun a ha => ?_) (fun e h => by cases h)
      · intro v hv
        refine ⟨hv, ?_⟩
        dsimp only
        rw [hv]
        exact stays_readBytes _ _ _ 0 [] (by omega) rfl
      · cases ha
        exact hround
  have := (exec_stays _ _ (fun i => makeP ne (ks i)) w hw key schedule).2 i
  cases hP : (Prog.exec (fun i => makeP ne (ks i), w) schedule).1 i with
  | done r' =>
    rw [hP] at this hr
    simp only [Prog.result?, Option.some.injEq] at hr
    subst hr
    exact this
  | step n u => rw [hP] at hr; cases hr

/-- C153 is false: when two processes make the same calculator at the same time and there is no table
yet, the second may find the file the first has just opened, and fail. -/
theorem C153_race (ne : NirEnv α) (k : NirArgs α) (c : RadTb α) (nw : String × α) (flux : α)
    (hp : k.pre ne = .ok (c, nw, flux)) (f : String) (hne : f ≠ "")
    (hf : ∀ w, nirPath ne w k.platform_name k.instrument nw.1 = f) (l : Lut α) (hl : c.makeTb2radLut ne.nanCast = .ok l)
    (e : PyErr) (he : ne.npzDecode [] = .error e) (w : World) (hnew : w.files (OsPath.file f) = none)
    (hnd : (configured ne.env w).dirs f = false) (hdir : w.dirs (OsPath.dirname f) = true) :
    ∃ schedule : List Bool,
      ((Prog.exec (fun _ => makeP ne k, w) schedule).1 true).result? = some (.error e) := by
  have hz := savezPath_nirPath ne w k.platform_name k.instrument nw.1
  rw [hf] at hz
  have hz := hz hne
  have hdir' : (configured ne.env w).dirs (OsPath.file f).1 = true := configured_dirs _ _ _ hdir
  have hex : OsPath.pathExists (configured ne.env w) f = false := by
    simp [OsPath.pathExists, hnew, hnd]
  refine ⟨List.replicate 5 false ++ List.replicate 5 true, ?_⟩
  have hprog : makeP ne k = .step (fun _ => .step (fun _ => .look fun w =>
      (setLutP ne c (nirPath ne w k.platform_name k.instrument nw.1)).bind
        fun l => .done (.ok (k.object c nw flux (nirPath ne w k.platform_name k.instrument nw.1) l)))
      (fun w => withDir ne.env.cfg.rayleigh_dir w)) (fun w => withDir ne.env.cfg.rsr_dir w) := by
    rw [makeP_ok ne k c nw flux hp, setLutfileP_eq]
    rfl
  have h1 : (turns 5 (makeP ne k) w).2 = (configured ne.env w).setFile (OsPath.file f) (some []) := by
    rw [hprog]
    show (turns 2 ((setLutP ne c (nirPath ne (configured ne.env w) k.platform_name k.instrument nw.1)).bind _)
      (configured ne.env w)).2 = _
    rw [hf]
    show (turns 1 (Prog.bind (if OsPath.pathExists (configured ne.env w) f = true then _ else _) _) (configured ne.env w)).2 = _
    rw [if_neg (by rw [hex]; exact Bool.false_ne_true)]
    unfold makeTb2radLutFileP
    rw [hl, hz]
    show (if (configured ne.env w).dirs (OsPath.file f).1 = true then (configured ne.env w).setFile _ _ else _) = _
    rw [if_pos hdir']
  have h2 : ∀ v : World, v.files (OsPath.file f) = some [] →
      (turns 5 (makeP ne k) v).1 = .done (.error e) := by
    intro v hv
    have hv' : (configured ne.env v).files (OsPath.file f) = some [] := hv
    rw [hprog]
    show (turns 2 ((setLutP ne c (nirPath ne (configured ne.env v) k.platform_name k.instrument nw.1)).bind _)
      (configured ne.env v)).1 = _
    rw [hf]
    show (turns 1 (Prog.bind (if OsPath.pathExists (configured ne.env v) f = true then _ else _) _) (configured ne.env v)).1 = _
    rw [if_pos (by simp [OsPath.pathExists, hv'])]
    show Prog.bind (Prog.bind (match (configured ne.env v).files (OsPath.file f) with
      | none => .done (.error .fileNotFound) | some c => readBytesP (OsPath.file f) 0 c.length []) _) _ = _
    rw [hv']
    show Prog.bind (Prog.done (ne.npzDecode [])) _ = _
    rw [he]
    rfl
  rw [exec_append, exec_replicate, exec_replicate]
  simp only [Function.update_self]
  rw [Function.update_of_ne (by decide), h1, h2 _ (by simp [setFile_files])]
  rfl

/-! ### An example -/

open Classical in
/-- an environment whose table files hold two bytes; anything else cannot be read -/
noncomputable def exSharedEnv (l : Lut XF) : NirEnv XF :=
  exNirEnv (fun _ => ['P', 'K']) (fun x => if x = ['P', 'K'] then .ok l else .error .valueError)

theorem exShared : ∃ c l, (exNirArgs 3.7 "det-1" "wavelength").pre (exSharedEnv l) = .ok (c, ("ch20", fin 3.7), fin 2) ∧
    c.makeTb2radLut (exSharedEnv l).nanCast = .ok l ∧
    UsesTable (exSharedEnv l) (exNirArgs 3.7 "det-1" "wavelength") "/lut/tb2rad_lut_p_xyz_ch20.npz" l := by
  obtain ⟨c, hc, hn, _, _, hr1, hr2, _⟩ := exNirConv 3.7
  obtain ⟨R, l, _, hR, hl, hE, _⟩ := C13_lut_within_one_step c _ _ (exNirLoaded _ c hc) exNirGood 0 true hr1 hr2
  have hp : (exNirArgs 3.7 "det-1" "wavelength").pre (exSharedEnv l) = .ok (c, ("ch20", fin 3.7), fin 2) :=
    exNirPre _ _ "det-1" c hc (exNirWavelength _ c hc) hn
  refine ⟨c, l, hp, hl, ?_⟩
  intro c' nw flux h
  rw [hp] at h
  cases h
  exact ⟨fun w => exNirPath _ _ w, hl⟩

/-- any number of processes make the same calculator, starting with an empty table directory -/
example (schedule : List ℕ) (i : ℕ) (s : Nir XF) : ∃ l,
    ((Prog.exec (fun _ => makeP (exSharedEnv l) (exNirArgs 3.7 "det-1" "wavelength"), exNirWorld) schedule).1 i).result? =
      some (.ok s) → s.lut = some l := by
  obtain ⟨c, l, hp, hl, hu⟩ := exShared
  refine ⟨l, fun h => (C153_concurrent_partial (exSharedEnv l) (fun _ => exNirArgs 3.7 "det-1" "wavelength")
    "/lut/tb2rad_lut_p_xyz_ch20.npz" l (by decide) (fun _ => Or.inl hu) (by simp [exSharedEnv, exNirEnv]) ?_ exNirWorld
    (Or.inl rfl) schedule).1 i s hu h⟩
  intro x _ l' hx
  simp only [exSharedEnv, exNirEnv] at hx
  split at hx
  · cases hx; rfl
  · cases hx

/-- two processes, the second one fails -/
example : ∃ l, ∃ schedule : List Bool,
    ((Prog.exec (fun _ => makeP (exSharedEnv l) (exNirArgs 3.7 "det-1" "wavelength"), exNirWorld) schedule).1
      true).result? = some (.error .valueError) := by
  obtain ⟨c, l, hp, hl, hu⟩ := exShared
  exact ⟨l, C153_race (exSharedEnv l) _ c _ _ hp "/lut/tb2rad_lut_p_xyz_ch20.npz" (by decide) (fun w => exNirPath _ _ w) l hl
    _ (by simp [exSharedEnv, exNirEnv]) exNirWorld rfl (exNirDirs _ _).1 (by
      have : OsPath.dirname "/lut/tb2rad_lut_p_xyz_ch20.npz" = "/lut" := by decide
      rw [this]; simp [exNirWorld])⟩

/-- a complete table at the beginning -/
example (schedule : List ℕ) (i : ℕ) (r : Py (Nir XF)) : ∃ l w,
    ((Prog.exec (fun _ => makeP (exSharedEnv l) (exNirArgs 3.7 "det-1" "wavelength"), w) schedule).1 i).result? = some r →
    r = ((exNirArgs 3.7 "det-1" "wavelength").make (exSharedEnv l) w).1 := by
  obtain ⟨c, l, hp, hl, hu⟩ := exShared
  exact ⟨l, exNirWorld.setFile (OsPath.file "/lut/tb2rad_lut_p_xyz_ch20.npz") (some ['P', 'K']),
    C153_complete_table (exSharedEnv l) (fun _ => exNirArgs 3.7 "det-1" "wavelength") "/lut/tb2rad_lut_p_xyz_ch20.npz" l
      (fun _ => hu) (by simp [exSharedEnv, exNirEnv]) _ (by simp [setFile_files, exSharedEnv, exNirEnv]) schedule i r⟩

end Verif.Props
