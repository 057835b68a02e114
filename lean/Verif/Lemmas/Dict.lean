import Verif.Base.Py
/-
Lemmas about dictionaries and monadic loops.
-/
namespace Verif.Lemmas
open Verif

section
variable {κ β γ : Type} [DecidableEq κ]

theorem get?_eq_some_mem {d : Dict κ β} {k : κ} {v : β} (h : d.get? k = some v) : (k, v) ∈ d := by
  induction d with
  | nil => simp [Dict.get?] at h
  | cons p d ih =>
    obtain ⟨k', v'⟩ := p
    by_cases hk : k' = k
    · subst hk; simp [Dict.get?] at h; subst h; simp
    · simp only [Dict.get?, hk, if_false] at h
      exact List.mem_cons_of_mem _ (ih h)

theorem get?_of_mem {d : Dict κ β} (hd : d.WF) {k : κ} {v : β} (h : (k, v) ∈ d) :
    d.get? k = some v := by
  induction d with
  | nil => simp at h
  | cons p d ih =>
    obtain ⟨k', v'⟩ := p
    have hd' : k' ∉ d.map Prod.fst ∧ Dict.WF d := by
      simpa [Dict.WF] using (List.nodup_cons.1 hd)
    rcases List.mem_cons.1 h with he | hm
    · cases he; simp [Dict.get?]
    · have : k' ≠ k := by
        rintro rfl
        exact hd'.1 (List.mem_map.2 ⟨(k', v), hm, rfl⟩)
      simp only [Dict.get?, this, if_false]
      exact ih hd'.2 hm

theorem get?_eq_none_iff {d : Dict κ β} {k : κ} : d.get? k = none ↔ k ∉ d.keys := by
  induction d with
  | nil => simp [Dict.get?, Dict.keys]
  | cons p d ih =>
    obtain ⟨k', v'⟩ := p
    by_cases hk : k' = k
    · subst hk; simp [Dict.get?, Dict.keys]
    · have hk' : ¬ k = k' := fun h => hk h.symm
      simp only [Dict.get?, hk, if_false, ih, Dict.keys, List.map_cons, List.mem_cons, hk', false_or]

theorem getItem_ok_iff {d : Dict κ β} {k : κ} {v : β} : d.getItem k = .ok v ↔ d.get? k = some v := by
  unfold Dict.getItem
  cases h : Dict.get? d k <;> simp

theorem getItem_err_iff {d : Dict κ β} {k : κ} {e : PyErr} :
    d.getItem k = .error e ↔ e = .keyError ∧ d.get? k = none := by
  unfold Dict.getItem
  cases h : Dict.get? d k <;> simp [eq_comm]

theorem set_new {d : Dict κ β} {k : κ} (v : β) (h : k ∉ d.keys) : d.set k v = d ++ [(k, v)] := by
  induction d with
  | nil => rfl
  | cons p d ih =>
    obtain ⟨k', v'⟩ := p
    have h' : k' ≠ k ∧ k ∉ Dict.keys d := by
      simp only [Dict.keys, List.map_cons, List.mem_cons, not_or] at h
      exact ⟨fun e => h.1 e.symm, h.2⟩
    simp only [Dict.set, h'.1, if_false, ih h'.2, List.cons_append]

theorem get?_set_self (d : Dict κ β) (k : κ) (v : β) : (d.set k v).get? k = some v := by
  induction d with
  | nil => simp [Dict.set, Dict.get?]
  | cons p d ih =>
    obtain ⟨k', v'⟩ := p
    by_cases hk : k' = k
    · simp [Dict.set, hk, Dict.get?]
    · simp [Dict.set, hk, Dict.get?, ih]

theorem get?_set_ne (d : Dict κ β) {k k' : κ} (v : β) (h : k' ≠ k) :
    (d.set k v).get? k' = d.get? k' := by
  induction d with
  | nil => simp [Dict.set, Dict.get?, Ne.symm h]
  | cons p d ih =>
    obtain ⟨k₀, v₀⟩ := p
    by_cases hk : k₀ = k
    · subst hk
      have : ¬ k₀ = k' := fun e => h e.symm
      simp [Dict.set, Dict.get?, this]
    · by_cases hk' : k₀ = k'
      · subst hk'; simp [Dict.set, hk, Dict.get?]
      · simp [Dict.set, hk, Dict.get?, hk', ih]

theorem get?_mapVals (f : β → γ) (d : Dict κ β) (k : κ) :
    (d.mapVals f).get? k = (d.get? k).map f := by
  induction d with
  | nil => rfl
  | cons p d ih =>
    obtain ⟨k', v'⟩ := p
    by_cases hk : k' = k
    · simp [Dict.mapVals, Dict.get?, hk]
    · simp only [Dict.mapVals, List.map_cons, Dict.get?, hk, if_false]; exact ih

omit [DecidableEq κ] in
theorem keys_mapVals (f : β → γ) (d : Dict κ β) : (d.mapVals f).keys = d.keys := by
  simp [Dict.mapVals, Dict.keys, Function.comp_def]

end

/-! ### loops -/

theorem mapM_ok {β γ : Type} (f : β → Py γ) (g : β → γ) (l : List β)
    (h : ∀ x ∈ l, f x = .ok (g x)) : l.mapM f = .ok (l.map g) := by
  induction l with
  | nil => rfl
  | cons x l ih =>
    rw [List.mapM_cons, h x (by simp), ih (fun y hy => h y (List.mem_cons_of_mem _ hy))]
    rfl

theorem mapM_length {β γ : Type} (f : β → Py γ) (l : List β) (r : List γ) (h : l.mapM f = .ok r) :
    r.length = l.length := by
  induction l generalizing r with
  | nil => simp [List.mapM_nil, pure, Except.pure] at h; subst h; rfl
  | cons x l ih =>
    rw [List.mapM_cons] at h
    cases hx : f x with
    | error e => rw [hx] at h; cases h
    | ok y =>
      rw [hx] at h
      cases hl : l.mapM f with
      | error e => rw [hl] at h; cases h
      | ok ys =>
        rw [hl] at h
        have : y :: ys = r := by
          simpa [bind, Except.bind, pure, Except.pure] using h
        rw [← this]; simp [ih ys hl]

theorem mapM_ok_mem {β γ : Type} (f : β → Py γ) (l : List β) (r : List γ) (h : l.mapM f = .ok r) :
    ∀ y ∈ r, ∃ x ∈ l, f x = .ok y := by
  induction l generalizing r with
  | nil => simp [List.mapM_nil, pure, Except.pure] at h; subst h; simp
  | cons x l ih =>
    rw [List.mapM_cons] at h
    cases hx : f x with
    | error e => rw [hx] at h; cases h
    | ok y =>
      rw [hx] at h
      cases hl : l.mapM f with
      | error e => rw [hl] at h; cases h
      | ok ys =>
        rw [hl] at h
        have : y :: ys = r := by
          simpa [bind, Except.bind, pure, Except.pure] using h
        rw [← this]
        intro z hz
        rcases List.mem_cons.1 hz with rfl | hz
        · exact ⟨x, by simp, hx⟩
        · obtain ⟨w, hw, hfw⟩ := ih ys hl z hz
          exact ⟨w, List.mem_cons_of_mem _ hw, hfw⟩

/-- The Python loop `for k in d.keys(): out[k] = f(d[k])` computes the dictionary with the
same keys, in the same order, and mapped values. -/
theorem loop_set_eq {β γ : Type} {κ : Type} [DecidableEq κ] (f : β → Py γ) (d : Dict κ β) (hd : d.WF)
    (out : Dict κ γ) (hout : ∀ k ∈ d.keys, k ∉ out.keys)
    (full : Dict κ β) (hfull : ∀ k v, (k, v) ∈ d → full.get? k = some v) :
    d.keys.foldlM (fun (out : Dict κ γ) k => do
        let v ← f (← full.getItem k)
        return out.set k v) out =
      (do let r ← d.mapM (fun p => do return (p.1, ← f p.2)); return out ++ r : Py (Dict κ γ)) := by
  induction d generalizing out with
  | nil => simp [Dict.keys, pure, Except.pure, bind, Except.bind]
  | cons p d ih =>
    obtain ⟨k, v⟩ := p
    have hk : full.getItem k = .ok v := getItem_ok_iff.2 (hfull k v (by simp))
    have hnd : k ∉ Dict.keys d ∧ Dict.WF d := by
      have := List.nodup_cons.1 (show (k :: d.map Prod.fst).Nodup from hd)
      exact this
    simp only [Dict.keys, List.map_cons, List.foldlM_cons, List.mapM_cons]
    rw [hk]
    cases hv : f v with
    | error e => simp [bind, Except.bind, hv]
    | ok y =>
      have h1 : out.set k y = out ++ [(k, y)] := set_new y (hout k (by simp [Dict.keys]))
      have h2 := ih hnd.2 (out.set k y) (by
        intro k' hk'
        rw [h1]
        simp only [Dict.keys, List.map_append, List.map_cons, List.map_nil, List.mem_append,
          List.mem_singleton, not_or]
        refine ⟨hout k' (by simp [Dict.keys] at hk' ⊢; exact Or.inr hk'), ?_⟩
        rintro rfl; exact hnd.1 hk')
        (fun k' v' hm => hfull k' v' (List.mem_cons_of_mem _ hm))
      simp only [Dict.keys] at h2
      simp only [bind, Except.bind, hv, pure, Except.pure] at h2 ⊢
      rw [h2]
      generalize (List.mapM (m := Except PyErr) _ d : Py (List (κ × γ))) = M
      cases M with
      | error e => rfl
      | ok r => simp [h1]

theorem loop_set {β γ : Type} {κ : Type} [DecidableEq κ] (f : β → Py γ) (d : Dict κ β) (hd : d.WF) :
    d.keys.foldlM (fun (out : Dict κ γ) k => do
        let v ← f (← d.getItem k)
        return out.set k v) [] =
      d.mapM (fun p => do return (p.1, ← f p.2)) := by
  have := loop_set_eq f d hd [] (by simp [Dict.keys]) d (fun k v h => get?_of_mem hd h)
  rw [this]
  cases List.mapM (fun p : κ × β => do return (p.1, ← f p.2)) d <;> rfl

end Verif.Lemmas
