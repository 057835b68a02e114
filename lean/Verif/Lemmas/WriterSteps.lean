import Verif.Model.WriterSteps
import Verif.Lemmas.Writer
import Verif.Lemmas.ReaderOps
/-
Lemmas about the writer of response files, statement by statement.
-/
namespace Verif.Lemmas
open Model Spec PyNum
variable {α : Type} [PyNum α]

theorem set_set {κ β : Type} [DecidableEq κ] (d : Dict κ β) (k : κ) (v w : β) : (d.set k v).set k w = d.set k w := by
  induction d with
  | nil => simp [Dict.set]
  | cons p d ih =>
    obtain ⟨a, b⟩ := p
    by_cases h : a = k
    · simp [Dict.set, h]
    · simp [Dict.set, h, ih]

theorem onBand_set (f : H5File α) (b : String) (B : H5Band α) (g : H5Band α → H5Band α) :
    ({ f with bands := f.bands.set b B } : H5File α).onBand b g = { f with bands := f.bands.set b (g B) } := by
  simp [H5File.onBand, get?_set_self, set_set]

theorem changeBand_set (f : H5File α) (b : String) (B : H5Band α) (g : H5Band α → H5Band α) :
    changeBand b g ({ f with bands := f.bands.set b B } : H5File α) =
      (.ok (), { f with bands := f.bands.set b (g B) }) := by
  rw [changeBand, st_modify, onBand_set]

/-- A group without any wavelengths, for at least one detector. -/
def NoWavelength (B : H5Band α) : Prop :=
  B.datasets = [] ∧ (∀ d D, B.dets.get? d = some D → D.datasets.get? "wavelength" = none) ∧
  (B.attrs.get? "number_of_detectors" = none ∨ ∃ n : Nat, B.attrs.get? "number_of_detectors" = some (.int n) ∧ 0 < n)

/-- The statements `m`, run on a file with the group `B0` for `b`, make of it what `p` describes,
or stop with the exception of `p` and leave a group without wavelengths. -/
def Fills (m : PySt (H5File α) Unit) (b : String) (B0 : H5Band α) (p : Py (H5Band α)) : Prop :=
  ∀ f : H5File α,
    (∀ B, p = .ok B → m { f with bands := f.bands.set b B0 } = (.ok (), { f with bands := f.bands.set b B })) ∧
    (∀ e, p = .error e → ∃ B, NoWavelength B ∧
      m { f with bands := f.bands.set b B0 } = (.error e, { f with bands := f.bands.set b B }))

theorem noWavelength_empty : NoWavelength (H5Band.empty : H5Band α) :=
  ⟨rfl, (fun d D h => by cases h), Or.inl rfl⟩

theorem fills_lift {β : Type} {b : String} {B0 : H5Band α} (h0 : NoWavelength B0) (p : Py β)
    {k : β → PySt (H5File α) Unit} {k' : β → Py (H5Band α)}
    (h : ∀ a, p = .ok a → Fills (k a) b B0 (k' a)) : Fills (PySt.lift p >>= k) b B0 (p >>= k') := by
  intro f
  cases hp : p with
  | error e =>
    refine ⟨(fun B hB => by cases hB), fun e' he => ?_⟩
    cases he
    exact ⟨B0, h0, st_bind_error (st_lift_error rfl _)⟩
  | ok a =>
    rw [st_bind_ok (st_lift_ok rfl _)]
    exact h a hp f

theorem fills_change {b : String} {B0 : H5Band α} {g : H5Band α → H5Band α} {k : Unit → PySt (H5File α) Unit}
    {p : Py (H5Band α)} (h : Fills (k ()) b (g B0) p) : Fills (changeBand b g >>= k) b B0 p := by
  intro f
  rw [st_bind_ok (changeBand_set f b B0 g)]
  exact h f

theorem fills_last {b : String} {B0 : H5Band α} {g : H5Band α → H5Band α} {p : Py (H5Band α)}
    (h : p = .ok (g B0)) : Fills (changeBand b g) b B0 p := by
  intro f
  refine ⟨fun B hB => ?_, fun e he => by rw [h] at he; cases he⟩
  rw [h] at hB; cases hB
  exact changeBand_set f b B0 g

theorem single_fills (f32 : α → α) (b : String) (s : RawSensor α) (scale : α) :
    Fills (singleSteps f32 b s scale) b H5Band.empty (writeSingle f32 s scale) := by
  unfold singleSteps writeSingle
  refine fills_lift noWavelength_empty _ fun w _ => ?_
  refine fills_lift noWavelength_empty _ fun wvl _ => ?_
  refine fills_lift noWavelength_empty _ fun r _ => ?_
  refine fills_lift noWavelength_empty _ fun rsp _ => ?_
  refine fills_lift noWavelength_empty _ fun c _ => ?_
  exact fills_change (fills_change (fills_last rfl))

/-- `r` is what `q` describes, or the exception of `q` with the state `bad` -/
def Agrees {σ γ δ : Type} (r : Py γ × σ) (q : Py δ) (good : δ → γ × σ) (bad : σ) : Prop :=
  (∀ x, q = .ok x → r = (.ok (good x).1, (good x).2)) ∧ ∀ e, q = .error e → r = (.error e, bad)

theorem agrees_lift {σ β γ δ : Type} (p : Py β) {k : β → PySt σ γ} {k' : β → Py δ} {s : σ} {good : δ → γ × σ}
    (h : ∀ a, Agrees (k a s) (k' a) good s) : Agrees ((PySt.lift p >>= k) s) (p >>= k') good s := by
  cases p with
  | error e =>
    refine ⟨(fun x hx => by cases hx), fun e' he => ?_⟩
    cases he
    exact st_bind_error (st_lift_error rfl _)
  | ok a =>
    rw [st_bind_ok (st_lift_ok rfl _)]
    exact h a

theorem detector_agrees (f32 : α → α) (b : String) (s : RawSensor α) (wvl : List α) (d : String)
    (at_ : Attrs α) (groups : Dict String (H5Det α)) (f : H5File α) (hc : ¬ groups.contains d) :
    Agrees (detectorSteps f32 b s wvl d { f with bands := f.bands.set b ⟨at_, [], groups⟩ })
      (writeDetector f32 s wvl d)
      (fun x => (x.2, { f with bands := f.bands.set b ⟨at_, [], groups.set d x.1⟩ }))
      { f with bands := f.bands.set b ⟨at_, [], groups.set d ⟨[], []⟩⟩ } := by
  have hget : ({ f with bands := f.bands.set b ⟨at_, [], groups⟩ } : H5File α).bands.get? b
      = some ⟨at_, [], groups⟩ := get?_set_self _ _ _
  have hcreate : createDet b d ({ f with bands := f.bands.set b ⟨at_, [], groups⟩ } : H5File α)
      = (.ok (), { f with bands := f.bands.set b ⟨at_, [], groups.set d ⟨[], []⟩⟩ }) := by
    unfold createDet
    rw [st_bind_ok (st_get _), hget]
    simp only [Option.getD_some, hc]
    exact changeBand_set _ _ _ _
  unfold detectorSteps writeDetector
  rw [st_bind_ok hcreate]
  refine agrees_lift _ fun dd => ?_
  refine agrees_lift _ fun r => ?_
  refine agrees_lift _ fun w => ?_
  refine agrees_lift _ fun rsp => ?_
  refine agrees_lift _ fun c => ?_
  refine ⟨fun x hx => ?_, fun e he => by cases he⟩
  cases hx
  rw [st_bind_ok (changeBand_set _ _ _ _), st_bind_ok (changeBand_set _ _ _ _)]
  simp only [H5Band.onDet, get?_set_self, set_set, Option.getD_some]
  rfl

theorem writeDetector_noWavelength (f32 : α → α) (s : RawSensor α) (wvl : List α) (d : String) (g : H5Det α)
    (r : List α) (h : writeDetector f32 s wvl d = .ok (g, r)) : g.datasets.get? "wavelength" = none := by
  unfold writeDetector at h
  simp only [bind, Except.bind] at h
  split at h
  · cases h
  split at h
  · cases h
  split at h
  · cases h
  split at h
  · cases h
  split at h
  · cases h
  cases h
  rfl

/-- the loop over the detectors, on a file whose group `b` is `⟨[number], [], groups⟩` -/
theorem detectors_fill (f32 : α → α) (b : String) (s : RawSensor α) (wvl : List α) (n : Nat) (hn : 0 < n)
    (ds : List String) : ∀ (groups : Dict String (H5Det α)) (arr : List α) (f : H5File α),
    (∀ d D, groups.get? d = some D → D.datasets.get? "wavelength" = none) →
    (∀ out arr', writeDetectors f32 s wvl ds groups arr = .ok (out, arr') →
      detectorsSteps f32 b s wvl ds arr { f with bands := f.bands.set b ⟨[("number_of_detectors", .int n)], [], groups⟩ } =
        (.ok arr', { f with bands := f.bands.set b ⟨[("number_of_detectors", .int n)], [], out⟩ })) ∧
    (∀ e, writeDetectors f32 s wvl ds groups arr = .error e → ∃ B, NoWavelength B ∧
      detectorsSteps f32 b s wvl ds arr { f with bands := f.bands.set b ⟨[("number_of_detectors", .int n)], [], groups⟩ } =
        (.error e, { f with bands := f.bands.set b B })) := by
  induction ds with
  | nil =>
    intro groups arr f _
    refine ⟨fun out arr' h => ?_, fun e h => by cases h⟩
    cases h; rfl
  | cons d ds ih =>
    intro groups arr f hg
    unfold writeDetectors detectorsSteps
    have hget : ({ f with bands := f.bands.set b ⟨[("number_of_detectors", .int n)], [], groups⟩ } : H5File α).bands.get? b
        = some ⟨[("number_of_detectors", .int n)], [], groups⟩ := get?_set_self _ _ _
    have hnw : ∀ gs : Dict String (H5Det α), (∀ d D, gs.get? d = some D → D.datasets.get? "wavelength" = none) →
        NoWavelength (⟨[("number_of_detectors", .int n)], [], gs⟩ : H5Band α) :=
      fun gs h => ⟨rfl, h, Or.inr ⟨n, rfl, hn⟩⟩
    by_cases hc : groups.contains d
    · rw [if_pos hc]
      refine ⟨(fun out arr' h => by cases h), fun e h => ?_⟩
      cases h
      refine ⟨_, hnw groups hg, ?_⟩
      have : createDet b d ({ f with bands := f.bands.set b ⟨[("number_of_detectors", .int n)], [], groups⟩ } : H5File α)
          = (.error .valueError, { f with bands := f.bands.set b ⟨[("number_of_detectors", .int n)], [], groups⟩ }) := by
        unfold createDet
        rw [st_bind_ok (st_get _), hget]
        simp only [Option.getD_some, hc, if_true]
        rfl
      unfold detectorSteps
      rw [st_bind_error (st_bind_error this)]
    · rw [if_neg hc]
      have hg' : ∀ D : H5Det α, D.datasets.get? "wavelength" = none →
          ∀ d' D', (groups.set d D).get? d' = some D' → D'.datasets.get? "wavelength" = none := by
        intro D hD d' D' h
        by_cases hdd : d' = d
        · subst hdd; rw [get?_set_self] at h; cases h; exact hD
        · rw [get?_set_ne _ _ hdd] at h; exact hg _ _ h
      obtain ⟨a1, a2⟩ := detector_agrees f32 b s wvl d [("number_of_detectors", .int n)] groups f hc
      cases hw : writeDetector f32 s wvl d with
      | error e =>
        refine ⟨(fun out arr' h => by cases h), fun e' h => ?_⟩
        cases h
        exact ⟨_, hnw _ (hg' ⟨[], []⟩ rfl), st_bind_error (a2 e hw)⟩
      | ok x =>
        obtain ⟨g, r⟩ := x
        have hgw : g.datasets.get? "wavelength" = none := writeDetector_noWavelength f32 s wvl d g r hw
        obtain ⟨i1, i2⟩ := ih (groups.set d g) r f (hg' g hgw)
        refine ⟨fun out arr' h => ?_, fun e h => ?_⟩
        · exact (st_bind_ok (a1 _ hw)).trans (i1 out arr' h)
        · obtain ⟨B, hB, hr⟩ := i2 e h
          exact ⟨B, hB, (st_bind_ok (a1 _ hw)).trans hr⟩

theorem multi_fills (f32 : α → α) (b : String) (s : RawSensor α) (scale : α) (ds : List String) :
    Fills (multiSteps f32 b s scale ds) b H5Band.empty (writeMulti f32 s scale ds) := by
  unfold multiSteps writeMulti
  cases ds with
  | nil =>
    intro f
    exact ⟨fun B h => (by cases h), fun e h => (by cases h; exact ⟨_, noWavelength_empty, rfl⟩)⟩
  | cons first rest =>
    refine fills_lift noWavelength_empty _ fun d _ => ?_
    refine fills_lift noWavelength_empty _ fun w _ => ?_
    refine fills_lift noWavelength_empty _ fun wvl _ => ?_
    refine fills_change ?_
    intro f
    obtain ⟨h1, h2⟩ := detectors_fill f32 b s wvl (first :: rest).length (by simp) (first :: rest) [] [] f
      (fun d D h => by cases h)
    cases hw : writeDetectors f32 s wvl (first :: rest) [] [] with
    | error e =>
      obtain ⟨B, hB, hr⟩ := h2 e hw
      refine ⟨(fun B h => by cases h), fun e' h => ?_⟩
      cases h
      exact ⟨B, hB, st_bind_error hr⟩
    | ok p =>
      obtain ⟨out, arr⟩ := p
      refine ⟨fun B h => ?_, fun e' h => by cases h⟩
      cases h
      have hr := h1 out arr hw
      have := st_bind_ok (f := fun arr => changeBand b fun B =>
        { B with datasets := B.datasets.set "wavelength" (saveWavelengths f32 arr scale).2 }) hr
      refine this.trans ?_
      rw [changeBand_set]
      rfl

end Verif.Lemmas
