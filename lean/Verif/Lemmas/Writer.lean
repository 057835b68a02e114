import Verif.Model.Writer
import Verif.Spec.RsrFile
import Verif.Lemmas.Reader
import Verif.Lemmas.Trap
/-
Lemmas about the writer of response files.
-/
namespace Verif.Lemmas
open Model Spec PyNum
variable {α : Type} [PyNum α]

theorem select_eq (w r : List α) (h : w.length = r.length) (p : α → Bool) :
    select (w.map p) r = ((w.zip r).filter fun q => p q.1).map Prod.snd := by
  induction w generalizing r with
  | nil => cases r <;> simp [select]
  | cons a w ih =>
    cases r with
    | nil => simp at h
    | cons b r =>
      have := ih r (by simpa using h)
      cases hp : p a <;> simp [select, hp, this, List.filter_cons]

theorem select_self (w r : List α) (h : w.length = r.length) (p : α → Bool) :
    select (w.map p) w = ((w.zip r).filter fun q => p q.1).map Prod.fst := by
  induction w generalizing r with
  | nil => cases r <;> simp [select]
  | cons a w ih =>
    cases r with
    | nil => simp at h
    | cons b r =>
      have := ih r (by simpa using h)
      cases hp : p a <;> simp [select, hp, this, List.filter_cons]

theorem zipWith_length_eq {β γ δ : Type} (f : β → γ → δ) (x : List β) (y : List γ) (h : x.length = y.length) :
    (List.zipWith f x y).length = x.length := by simp [h]

theorem centralWave_total (w r : List α) (h : w.length = r.length) : ∃ c, getCentralWave w r = .ok c := by
  have ht : ∀ y : List α, y.length = w.length → ∃ t, NP.trapezoid y w = .ok t := by
    intro y hy
    unfold NP.trapezoid
    rw [bcast2_eq_len _ _ _ (by simp [NP.diff, adj_length, hy])]
    exact ⟨_, rfl⟩
  have h1 : NP.bcast2 (· * ·) r w = .ok (List.zipWith (· * ·) r w) := bcast2_eq_len _ _ _ h.symm
  obtain ⟨a, ha⟩ := ht ((List.zipWith (· * ·) r w).map (· * 1.0)) (by simp [h])
  obtain ⟨b, hb⟩ := ht (r.map (· * 1.0)) (by simp [h])
  refine ⟨a / b, ?_⟩
  unfold getCentralWave
  rw [h1]
  simp only [bind, Except.bind]
  rw [bcast2_one_right]
  simp only
  rw [ha]
  simp only
  rw [bcast2_one_right]
  simp only
  rw [hb]
  rfl

theorem writeChannels_ok (f32 : α → α) (scale : α) (ds : Option (List String)) (L : List (String × RawSensor α)) :
    ∀ groups : Dict String (H5Band α), (L.map Prod.fst).Nodup → (∀ p ∈ L, p.1 ∉ groups.keys) →
    (∀ p ∈ L, ∃ B, writeBandGroup f32 p.2 scale ds = .ok B) →
    ∃ out, writeChannels f32 scale ds L groups = .ok out ∧
      (∀ p ∈ L, ∃ B, writeBandGroup f32 p.2 scale ds = .ok B ∧ out.get? p.1 = some B) ∧
      (∀ k, k ∉ L.map Prod.fst → out.get? k = groups.get? k) ∧ out.keys = groups.keys ++ L.map Prod.fst := by
  induction L with
  | nil => intro groups _ _ _; exact ⟨groups, rfl, by simp, by simp, by simp⟩
  | cons p L ih =>
    intro groups hnd hdis hw
    obtain ⟨b, s⟩ := p
    rw [List.map_cons, List.nodup_cons] at hnd
    obtain ⟨B, hB⟩ := hw (b, s) (by simp)
    have hb : b ∉ groups.keys := hdis (b, s) (by simp)
    obtain ⟨out, h1, h2, h3, h4⟩ := ih (groups.set b B) hnd.2 (by
      intro q hq
      rw [keys_set, if_neg hb]
      simp only [List.mem_append, List.mem_singleton, not_or]
      refine ⟨hdis q (by simp [hq]), ?_⟩
      intro he
      exact hnd.1 (List.mem_map.2 ⟨q, hq, he⟩)) (fun q hq => hw q (by simp [hq]))
    refine ⟨out, ?_, ?_, ?_, ?_⟩
    · unfold writeChannels
      rw [if_neg (by simp [Dict.contains, get?_eq_none_iff.2 hb]), show writeBandGroup f32 s scale ds = .ok B from hB]
      exact h1
    · intro q hq
      rcases List.mem_cons.1 hq with rfl | hq
      · refine ⟨B, hB, ?_⟩
        rw [h3 _ hnd.1, get?_set_self]
      · exact h2 q hq
    · intro k hk
      simp only [List.map_cons, List.mem_cons, not_or] at hk
      rw [h3 k hk.2, get?_set_ne _ _ hk.1]
    · rw [h4, keys_set, if_neg hb]; simp

theorem writeDetectors_ok (f32 : α → α) (s : RawSensor α) (wvl : List α) (ds : List String) :
    ∀ (groups : Dict String (H5Det α)) (arr : List α), ds.Nodup → (∀ d ∈ ds, d ∉ groups.keys) →
    (∀ d ∈ ds, ∃ g, writeDetector f32 s wvl d = .ok g) →
    ∃ out arr', writeDetectors f32 s wvl ds groups arr = .ok (out, arr') ∧
      (∀ d ∈ ds, ∃ g, writeDetector f32 s wvl d = .ok g ∧ out.get? d = some g.1) ∧
      (∀ d, d ∉ ds → out.get? d = groups.get? d) ∧
      (ds = [] → arr' = arr) ∧ (∀ d, ds.getLast? = some d → ∃ g, writeDetector f32 s wvl d = .ok g ∧ arr' = g.2) := by
  induction ds with
  | nil => intro groups arr _ _ _; exact ⟨groups, arr, rfl, by simp, by simp, by simp, by simp⟩
  | cons d ds ih =>
    intro groups arr hnd hdis hw
    rw [List.nodup_cons] at hnd
    obtain ⟨⟨g, resp⟩, hg⟩ := hw d (by simp)
    have hb : d ∉ groups.keys := hdis d (by simp)
    obtain ⟨out, arr', h1, h2, h3, h4, h5⟩ := ih (groups.set d g) resp hnd.2 (by
      intro q hq
      rw [keys_set, if_neg hb]
      simp only [List.mem_append, List.mem_singleton, not_or]
      refine ⟨hdis q (by simp [hq]), ?_⟩
      rintro rfl; exact hnd.1 hq) (fun q hq => hw q (by simp [hq]))
    refine ⟨out, arr', ?_, ?_, ?_, by simp, ?_⟩
    · unfold writeDetectors
      rw [if_neg (by simp [Dict.contains, get?_eq_none_iff.2 hb]), hg]
      exact h1
    · intro q hq
      rcases List.mem_cons.1 hq with rfl | hq
      · refine ⟨_, hg, ?_⟩
        rw [h3 _ hnd.1, get?_set_self]
      · exact h2 q hq
    · intro k hk
      simp only [List.mem_cons, not_or] at hk
      rw [h3 k hk.2, get?_set_ne _ _ hk.1]
    · intro k hk
      cases hds : ds with
      | nil =>
        rw [hds] at hk; simp at hk; subst hk
        exact ⟨_, hg, h4 hds⟩
      | cons a l =>
        rw [hds, List.getLast?_cons_cons, ← hds] at hk
        exact h5 k hk

end Verif.Lemmas
