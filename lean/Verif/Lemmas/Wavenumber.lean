import Verif.Lemmas.Dict
import Verif.Model.Rsr
import Mathlib.Data.List.Forall2
import Mathlib.Tactic.ByContra
/-
Lemmas about the conversion to wavenumber space.
-/
namespace Verif.Lemmas
open Verif Model PyNum

variable {α : Type} [PyNum α]

/-- A successfully stored response is the reversed one (array or dictionary of arrays). -/
def revVal : DetVal α → Option (DetVal α)
  | .arr xs => some (.arr xs.reverse)
  | .dict d => some (.dict (d.mapVals List.reverse))
  | .num _ => none

/-- One pass of the loop over the keys of a detector. -/
theorem detLoop (det : DetRsr α) (w : List α) (rv rv' : DetVal α)
    (hw : det.get? "wavelength" = some (.arr w)) (hr : det.get? "response" = some rv)
    (hrv : revVal rv = some rv') (ks : List String) (out : DetRsr α) :
    ∃ out', ks.foldlM (fun out key => do
        let out ← wavelength2wavenumber det key out
        collectResponses det key out) out = .ok out' ∧
      out'.get? "wavenumber" = (if "wavelength" ∈ ks then
        some (.arr (w.map fun x => 1.0 / (1e-4 * x)).reverse) else out.get? "wavenumber") ∧
      out'.get? "response" = (if "response" ∈ ks then some rv' else out.get? "response") ∧
      ∀ k, k ≠ "wavenumber" → k ≠ "response" → out'.get? k = out.get? k := by
  have hw' : getArr det "wavelength" = .ok w := by
    simp [getArr, Dict.getItem, hw, bind, Except.bind]; rfl
  have hr' : det.getItem "response" = .ok rv := getItem_ok_iff.2 hr
  induction ks generalizing out with
  | nil => exact ⟨out, rfl, by simp, by simp, by simp⟩
  | cons key ks ih =>
    by_cases h1 : key = "wavelength"
    · subst h1
      obtain ⟨o, ho, a, b, c⟩ := ih (out.set "wavenumber" (.arr (w.map fun x => 1.0 / (1e-4 * x)).reverse))
      refine ⟨o, ?_, ?_, ?_, ?_⟩
      · rw [List.foldlM_cons, ← ho]
        simp only [wavelength2wavenumber, collectResponses, hw', if_true, bind, Except.bind, pure, Except.pure]
        rfl
      · rw [a]; split <;> simp [get?_set_self]
      · rw [b]
        by_cases h : "response" ∈ ks <;> simp [h, get?_set_ne]
      · intro k h2 h3; rw [c k h2 h3, get?_set_ne _ _ h2]
    · by_cases h2 : key = "response"
      · subst h2
        obtain ⟨o, ho, a, b, c⟩ := ih (out.set "response" rv')
        refine ⟨o, ?_, ?_, ?_, ?_⟩
        · rw [List.foldlM_cons, ← ho]
          cases rv with
          | arr xs =>
            simp only [revVal, Option.some.injEq] at hrv; subst hrv
            simp only [wavelength2wavenumber, collectResponses, hr', if_true, bind, Except.bind, pure, Except.pure]
            rfl
          | dict d =>
            simp only [revVal, Option.some.injEq] at hrv; subst hrv
            simp only [wavelength2wavenumber, collectResponses, hr', if_true, bind, Except.bind, pure, Except.pure]
            rfl
          | num x => cases hrv
        · rw [a]
          by_cases h : "wavelength" ∈ ks <;> simp [h, get?_set_ne]
        · rw [b]; split <;> simp [get?_set_self]
        · intro k h3 h4; rw [c k h3 h4, get?_set_ne _ _ h4]
      · obtain ⟨o, ho, a, b, c⟩ := ih out
        refine ⟨o, ?_, ?_, ?_, c⟩
        · rw [List.foldlM_cons, ← ho]
          simp only [wavelength2wavenumber, collectResponses, h1, h2, if_false, bind, Except.bind]
        · rw [a]; simp [Ne.symm h1]
        · rw [b]; simp [Ne.symm h2]

/-- What `convertDetector` produces for a detector in wavelength space. -/
theorem convertDetector_spec (det : DetRsr α) (w : List α) (rv rv' : DetVal α)
    (hno : det.get? "wavenumber" = none)
    (hw : det.get? "wavelength" = some (.arr w)) (hr : det.get? "response" = some rv)
    (hrv : revVal rv = some rv') :
    ∃ out', convertDetector det = .ok out' ∧
      out'.get? "wavenumber" = some (.arr (w.map fun x => 1.0 / (1e-4 * x)).reverse) ∧
      out'.get? "response" = some rv' ∧
      ∀ k, k ≠ "wavenumber" → k ≠ "response" → out'.get? k = none := by
  obtain ⟨o, ho, a, b, c⟩ := detLoop det w rv rv' hw hr hrv det.keys []
  refine ⟨o, ?_, ?_, ?_, ?_⟩
  · simp only [convertDetector, Dict.contains, hno]
    exact ho
  · rw [a, if_pos]
    by_contra hc; rw [get?_eq_none_iff.2 hc] at hw; cases hw
  · rw [b, if_pos]
    by_contra hc; rw [get?_eq_none_iff.2 hc] at hr; cases hr
  · intro k h1 h2; rw [c k h1 h2]; rfl

/-- Whatever the detector in wavelength space contains, only wavenumbers and responses
survive the conversion. -/
theorem detLoop_keys (det : DetRsr α) (ks : List String) (out out' : DetRsr α)
    (h : ks.foldlM (fun out key => do
        let out ← wavelength2wavenumber det key out
        collectResponses det key out) out = .ok out') (k : String)
    (h1 : k ≠ "wavenumber") (h2 : k ≠ "response") : out'.get? k = out.get? k := by
  induction ks generalizing out with
  | nil => cases h; rfl
  | cons key ks ih =>
    rw [List.foldlM_cons] at h
    cases hA : wavelength2wavenumber det key out with
    | error e => rw [hA] at h; cases h
    | ok o1 =>
      rw [hA] at h
      cases hB : collectResponses det key o1 with
      | error e => simp only [bind, Except.bind, hB] at h; cases h
      | ok o2 =>
        simp only [bind, Except.bind, hB] at h
        rw [ih o2 h]
        have e1 : o1.get? k = out.get? k := by
          unfold wavelength2wavenumber at hA
          split at hA
          · cases hg : getArr det key with
            | error e => rw [hg] at hA; cases hA
            | ok w => rw [hg] at hA; cases hA; exact get?_set_ne _ _ h1
          · cases hA; rfl
        have e2 : o2.get? k = o1.get? k := by
          unfold collectResponses at hB
          split at hB
          · rename_i hk
            subst hk
            cases hg : det.getItem "response" with
            | error e => rw [hg] at hB; cases hB
            | ok v =>
              rw [hg] at hB
              cases v <;> (cases hB; try exact get?_set_ne _ _ h2)
          · cases hB; rfl
        rw [e2, e1]

theorem convertDetector_drops (det out : DetRsr α) (hno : det.get? "wavenumber" = none)
    (h : convertDetector det = .ok out) (k : String) (h1 : k ≠ "wavenumber") (h2 : k ≠ "response") :
    out.get? k = none := by
  simp only [convertDetector, Dict.contains, hno] at h
  rw [detLoop_keys det det.keys [] out h k h1 h2]; rfl

/-- If the conversion succeeds, the result has the same keys in the same order and each value
is the converted value. -/
theorem mapM_pair_spec {κ β γ : Type} (f : β → Py γ) (d : List (κ × β)) (r : List (κ × γ))
    (h : d.mapM (fun p => do return (p.1, ← f p.2)) = (.ok r : Py _)) :
    r.map Prod.fst = d.map Prod.fst ∧
    List.Forall₂ (fun p q => p.1 = q.1 ∧ f p.2 = .ok q.2) d r := by
  induction d generalizing r with
  | nil => cases h; exact ⟨rfl, .nil⟩
  | cons p d ih =>
    rw [List.mapM_cons] at h
    cases hp : f p.2 with
    | error e => simp only [bind, Except.bind, hp] at h; cases h
    | ok y =>
      simp only [bind, Except.bind, hp, pure, Except.pure] at h
      generalize hM : (List.mapM (m := Except PyErr) _ d : Py (List (κ × γ))) = M at h
      cases M with
      | error e => cases h
      | ok ys =>
        cases h
        obtain ⟨a, b⟩ := ih ys (by rw [← hM]; rfl)
        exact ⟨by simp [a], .cons ⟨rfl, hp⟩ b⟩

theorem forall₂_get? {κ β γ : Type} [DecidableEq κ] {f : β → Py γ} {d : Dict κ β} {r : Dict κ γ}
    (h : List.Forall₂ (fun (p : κ × β) (q : κ × γ) => p.1 = q.1 ∧ f p.2 = .ok q.2) d r) (k : κ) :
    (∀ v, d.get? k = some v → ∃ y, f v = .ok y ∧ r.get? k = some y) ∧
    (d.get? k = none → r.get? k = none) := by
  induction h with
  | nil => exact ⟨fun v h => by simp [Dict.get?] at h, fun _ => rfl⟩
  | @cons p q d r hpq _ ih =>
    obtain ⟨pk, pv⟩ := p
    obtain ⟨qk, qv⟩ := q
    obtain ⟨rfl, hf⟩ := hpq
    by_cases hk : pk = k
    · subst hk
      refine ⟨fun v h => ?_, fun h => ?_⟩
      · simp [Dict.get?] at h; subst h
        exact ⟨qv, hf, by simp [Dict.get?]⟩
      · simp [Dict.get?] at h
    · simpa [Dict.get?, hk] using ih

theorem band2wavenumber_eq (b : BandRsr α) (hb : b.WF) :
    band2wavenumber b = b.mapM (fun p => do return (p.1, ← convertDetector p.2)) :=
  loop_set convertDetector b hb

theorem convert2wavenumber_eq (rsr : Rsr α) (h : rsr.WF) :
    convert2wavenumber rsr = (do
      let r ← rsr.mapM (fun p => do return (p.1, ← band2wavenumber p.2))
      return (r, ⟨"cm-1", 100.0⟩)) := by
  have := loop_set band2wavenumber rsr h
  unfold convert2wavenumber
  rw [this]

theorem mapM_pair_ok {κ β γ : Type} (f : β → Py γ) (d : List (κ × β))
    (h : ∀ p ∈ d, ∃ y, f p.2 = .ok y) :
    ∃ r, d.mapM (fun p => do return (p.1, ← f p.2)) = (.ok r : Py (List (κ × γ))) := by
  induction d with
  | nil => exact ⟨[], rfl⟩
  | cons p d ih =>
    obtain ⟨y, hy⟩ := h p (by simp)
    obtain ⟨r, hr⟩ := ih (fun q hq => h q (List.mem_cons_of_mem _ hq))
    refine ⟨(p.1, y) :: r, ?_⟩
    rw [List.mapM_cons, hr]
    simp [bind, Except.bind, hy, pure, Except.pure]

end Verif.Lemmas
