import Verif.Spec.Versions
import Verif.Model.Download
import Mathlib.Data.List.Basic
import Mathlib.Data.List.TakeWhile
import Mathlib.Tactic.Common
/-
Lemmas about version files.
-/
namespace Verif.Lemmas
open Model Spec

theorem firstLineL_split (c : Content) : ∃ rest, c = Str.firstLineL c ++ rest ∧
    (∀ x ∈ Str.firstLineL c, x ≠ '\n' ∧ x ≠ '\r') ∧
    (rest = [] ∨ ∃ r, rest = '\n' :: r ∨ rest = '\r' :: r) := by
  induction c with
  | nil => exact ⟨[], rfl, by simp [Str.firstLineL], Or.inl rfl⟩
  | cons a c ih =>
    unfold Str.firstLineL
    by_cases h : a = '\n' ∨ a = '\r'
    · rw [if_pos h]
      refine ⟨a :: c, rfl, by simp, Or.inr ⟨c, ?_⟩⟩
      rcases h with rfl | rfl
      · exact Or.inl rfl
      · exact Or.inr rfl
    · rw [if_neg h]
      obtain ⟨rest, h1, h2, h3⟩ := ih
      refine ⟨rest, by rw [List.cons_append, ← h1], ?_, h3⟩
      intro x hx
      rcases List.mem_cons.1 hx with rfl | hx
      · exact not_or.1 h
      · exact h2 x hx

theorem firstLineL_append (l rest : Content) (hl : ∀ x ∈ l, x ≠ '\n' ∧ x ≠ '\r')
    (hr : rest = [] ∨ ∃ r, rest = '\n' :: r ∨ rest = '\r' :: r) : Str.firstLineL (l ++ rest) = l := by
  induction l with
  | nil =>
    rcases hr with rfl | ⟨r, rfl | rfl⟩
    · rfl
    · simp [Str.firstLineL]
    · simp [Str.firstLineL]
  | cons a l ih =>
    have h1 := hl a (by simp)
    have : ¬ (a = '\n' ∨ a = '\r') := not_or.2 h1
    rw [List.cons_append, Str.firstLineL, if_neg this, ih (fun x hx => hl x (by simp [hx]))]

theorem mem_takeWhile_imp' {p : Char → Bool} {l : List Char} {x : Char} (h : x ∈ l.takeWhile p) : p x = true :=
  List.mem_takeWhile_imp h

theorem stripL_split (l : Content) : ∃ a b, l = a ++ Str.stripL l ++ b ∧
    (∀ x ∈ a, Str.isSpace x = true) ∧ (∀ x ∈ b, Str.isSpace x = true) := by
  refine ⟨l.takeWhile Str.isSpace, ((l.dropWhile Str.isSpace).reverse.takeWhile Str.isSpace).reverse, ?_, ?_, ?_⟩
  · unfold Str.stripL
    rw [List.append_assoc, ← List.reverse_append, List.takeWhile_append_dropWhile, List.reverse_reverse,
      List.takeWhile_append_dropWhile]
  · intro x hx; exact List.mem_takeWhile_imp hx
  · intro x hx; exact List.mem_takeWhile_imp (List.mem_reverse.1 hx)

theorem dropWhile_blank (a l : Content) (ha : ∀ x ∈ a, Str.isSpace x = true) :
    (a ++ l).dropWhile Str.isSpace = l.dropWhile Str.isSpace := by
  induction a with
  | nil => rfl
  | cons x a ih =>
    rw [List.cons_append, List.dropWhile_cons, if_pos (ha x (by simp)), ih (fun y hy => ha y (by simp [hy]))]

theorem dropWhile_word (v : Content) (hv : ∀ x ∈ v, Str.isSpace x = false) (hne : v ≠ []) (l : Content) :
    (v ++ l).dropWhile Str.isSpace = v ++ l := by
  cases v with
  | nil => exact absurd rfl hne
  | cons x v => rw [List.cons_append, List.dropWhile_cons, if_neg (by simp [hv x (by simp)])]

theorem stripL_word (a v b : Content) (ha : ∀ x ∈ a, Str.isSpace x = true)
    (hb : ∀ x ∈ b, Str.isSpace x = true) (hv : ∀ x ∈ v, Str.isSpace x = false) (hne : v ≠ []) :
    Str.stripL (a ++ v ++ b) = v := by
  unfold Str.stripL
  rw [List.append_assoc, dropWhile_blank a _ ha, dropWhile_word v hv hne, List.reverse_append,
    dropWhile_blank _ _ (fun x hx => hb x (List.mem_reverse.1 hx))]
  have := dropWhile_word v.reverse (fun x hx => hv x (List.mem_reverse.1 hx)) (by simpa using hne) []
  rw [List.append_nil] at this
  rw [this, List.reverse_reverse]

/-- reading and stripping the first line finds a word exactly if the first line is that word -/
theorem readVersion_iff (c v : Content) (hv : ∀ x ∈ v, Str.isSpace x = false) (hne : v ≠ []) :
    Str.stripL (Str.firstLineL c) = v ↔ FirstLineIs c v := by
  constructor
  · intro h
    obtain ⟨rest, h1, h2, h3⟩ := firstLineL_split c
    obtain ⟨a, b, h4, h5, h6⟩ := stripL_split (Str.firstLineL c)
    rw [h] at h4
    refine ⟨a, b, rest, ?_, ?_, ?_, h3⟩
    · rw [← h4]; exact h1
    · intro x hx
      have := h2 x (by rw [h4]; simp [hx])
      exact ⟨h5 x hx, this.1, this.2⟩
    · intro x hx
      have := h2 x (by rw [h4]; simp [hx])
      exact ⟨h6 x hx, this.1, this.2⟩
  · rintro ⟨a, b, rest, rfl, ha, hb, hr⟩
    have hvn : ∀ x ∈ v, x ≠ '\n' ∧ x ≠ '\r' := by
      intro x hx
      have := hv x hx
      constructor
      · rintro rfl; exact absurd this (by decide)
      · rintro rfl; exact absurd this (by decide)
    rw [firstLineL_append _ _ _ hr]
    · exact stripL_word a v b (fun x hx => (ha x hx).1) (fun x hx => (hb x hx).1) hv hne
    · intro x hx
      simp only [List.mem_append] at hx
      rcases hx with (hx | hx) | hx
      · exact ⟨(ha x hx).2.1, (ha x hx).2.2⟩
      · exact hvn x hx
      · exact ⟨(hb x hx).2.1, (hb x hx).2.2⟩

/-- the version of a file, in terms of what the file says; a missing file counts as v0.0.0 -/
theorem versionIn_iff (w : World) (p : Path) (v : String) (hv : ∀ x ∈ v.toList, Str.isSpace x = false)
    (hne : v.toList ≠ []) (h0 : v.toList ≠ "v0.0.0".toList) :
    versionIn w p = v.toList ↔ FileSays w p v := by
  unfold versionIn FileSays
  cases h : w.files p with
  | none => simp only [reduceCtorEq, false_and, exists_false, iff_false]; exact fun e => h0 e.symm
  | some c => simp only [Option.some.injEq, exists_eq_left']; exact readVersion_iff c _ hv hne

end Verif.Lemmas
