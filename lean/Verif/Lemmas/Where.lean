import Verif.Base.NumPy
import Verif.Spec.Curves
import Mathlib.Data.List.Basic
import Mathlib.Tactic.Common
/-
Lemmas about `np.where` on a condition.
-/
namespace Verif.Lemmas
open Spec
variable {α : Type}

theorem mem_whereIdxFrom (p : α → Bool) (xs : List α) : ∀ (k i : Nat),
    i ∈ NP.whereIdxFrom p k xs ↔ ∃ j v, i = k + j ∧ xs[j]? = some v ∧ p v = true := by
  induction xs with
  | nil => intro k i; simp [NP.whereIdxFrom]
  | cons x xs ih =>
    intro k i
    have hstep : (∃ j v, i = k + j ∧ (x :: xs)[j]? = some v ∧ p v = true) ↔
        (i = k ∧ p x = true) ∨ ∃ j v, i = k + 1 + j ∧ xs[j]? = some v ∧ p v = true := by
      constructor
      · rintro ⟨j, v, hi, hj, hv⟩
        cases j with
        | zero => simp at hj; subst hj; exact Or.inl ⟨by omega, hv⟩
        | succ j => exact Or.inr ⟨j, v, by omega, by simpa using hj, hv⟩
      · rintro (⟨hi, hx⟩ | ⟨j, v, hi, hj, hv⟩)
        · exact ⟨0, x, by omega, by simp, hx⟩
        · exact ⟨j + 1, v, by omega, by simpa using hj, hv⟩
    rw [hstep]
    by_cases hp : p x = true
    · simp only [NP.whereIdxFrom, hp, if_true, List.mem_cons, ih, and_true]
    · simp only [NP.whereIdxFrom, hp, if_false, ih, and_false, false_or, Bool.false_eq_true]

theorem mem_whereIdx (p : α → Bool) (xs : List α) (i : Nat) :
    i ∈ NP.whereIdx p xs ↔ ∃ v, xs[i]? = some v ∧ p v = true := by
  unfold NP.whereIdx
  rw [mem_whereIdxFrom]
  constructor
  · rintro ⟨j, v, h1, h2, h3⟩
    have : i = j := by omega
    exact ⟨v, this ▸ h2, h3⟩
  · rintro ⟨v, h2, h3⟩; exact ⟨i, v, by omega, h2, h3⟩

theorem whereIdxFrom_sorted (p : α → Bool) (xs : List α) : ∀ k,
    (NP.whereIdxFrom p k xs).Pairwise (· < ·) := by
  induction xs with
  | nil => intro k; simp [NP.whereIdxFrom]
  | cons x xs ih =>
    intro k
    unfold NP.whereIdxFrom
    split
    · refine List.pairwise_cons.2 ⟨fun i hi => ?_, ih _⟩
      rw [mem_whereIdxFrom] at hi
      obtain ⟨j, _, h, _⟩ := hi
      omega
    · exact ih _

theorem whereIdx_sorted (p : α → Bool) (xs : List α) : (NP.whereIdx p xs).Pairwise (· < ·) :=
  whereIdxFrom_sorted p xs 0

theorem sorted_last {l : List Nat} (h : l.Pairwise (· < ·)) {b : Nat} (hb : l.getLast? = some b) :
    ∀ a ∈ l, a ≤ b := by
  intro a ha
  rw [List.getLast?_eq_some_iff] at hb
  obtain ⟨ys, rfl⟩ := hb
  rcases List.mem_append.1 ha with h1 | h1
  · exact Nat.le_of_lt ((List.pairwise_append.1 h).2.2 a h1 b (by simp))
  · simp at h1; omega

theorem whereIdx_head (p : α → Bool) (xs : List α) (i : Nat) :
    (NP.whereIdx p xs).head? = some i ↔ FirstAt (fun v => p v = true) xs i := by
  constructor
  · intro h
    refine ⟨(mem_whereIdx p xs i).1 (List.mem_of_mem_head? h), fun j v hj hv => ?_⟩
    have hm := (mem_whereIdx p xs j).2 ⟨v, hj, hv⟩
    have hs := whereIdx_sorted p xs
    cases hL : NP.whereIdx p xs with
    | nil => rw [hL] at h; simp at h
    | cons a l =>
      rw [hL] at h hm hs
      simp at h; subst h
      rcases List.mem_cons.1 hm with h1 | h1
      · omega
      · exact Nat.le_of_lt ((List.pairwise_cons.1 hs).1 j h1)
  · rintro ⟨hi, hmin⟩
    have hm := (mem_whereIdx p xs i).2 hi
    have hs := whereIdx_sorted p xs
    cases hL : NP.whereIdx p xs with
    | nil => rw [hL] at hm; simp at hm
    | cons a l =>
      have ha : a ∈ NP.whereIdx p xs := by rw [hL]; simp
      obtain ⟨v, h1, h2⟩ := (mem_whereIdx p xs a).1 ha
      have h3 := hmin a v h1 h2
      rw [hL] at hm hs
      rcases List.mem_cons.1 hm with h4 | h4
      · simp [h4]
      · have := (List.pairwise_cons.1 hs).1 i h4; omega

theorem whereIdx_last (p : α → Bool) (xs : List α) (i : Nat) :
    (NP.whereIdx p xs).getLast? = some i ↔ LastAt (fun v => p v = true) xs i := by
  constructor
  · intro h
    refine ⟨(mem_whereIdx p xs i).1 (List.mem_of_mem_getLast? h), fun j v hj hv => ?_⟩
    exact sorted_last (whereIdx_sorted p xs) h j ((mem_whereIdx p xs j).2 ⟨v, hj, hv⟩)
  · rintro ⟨hi, hmax⟩
    have hm := (mem_whereIdx p xs i).2 hi
    cases hL : (NP.whereIdx p xs).getLast? with
    | none => rw [List.getLast?_eq_none_iff] at hL; rw [hL] at hm; simp at hm
    | some b =>
      have hb := List.mem_of_mem_getLast? hL
      obtain ⟨v, h1, h2⟩ := (mem_whereIdx p xs b).1 hb
      have h3 := hmax b v h1 h2
      have h4 := sorted_last (whereIdx_sorted p xs) hL i hm
      have : i = b := by omega
      rw [this]

theorem whereIdx_length_lt_two (p : α → Bool) (xs : List α) :
    (NP.whereIdx p xs).length < 2 ↔
      ¬ ∃ (i j : Nat) (a b : α), i < j ∧ xs[i]? = some a ∧ xs[j]? = some b ∧ p a = true ∧ p b = true := by
  have hs := whereIdx_sorted p xs
  constructor
  · rintro h ⟨i, j, a, b, hij, hi, hj, ha, hb⟩
    have h1 := (mem_whereIdx p xs i).2 ⟨a, hi, ha⟩
    have h2 := (mem_whereIdx p xs j).2 ⟨b, hj, hb⟩
    match hL : NP.whereIdx p xs with
    | [] => rw [hL] at h1; simp at h1
    | [c] => rw [hL] at h1 h2; simp at h1 h2; omega
    | c :: d :: l => rw [hL] at h; simp at h; omega
  · intro h
    by_contra hc
    match hL : NP.whereIdx p xs with
    | [] => rw [hL] at hc; simp at hc
    | [c] => rw [hL] at hc; simp at hc
    | c :: d :: l =>
      rw [hL] at hs
      have hcd := (List.pairwise_cons.1 hs).1 d (by simp)
      obtain ⟨a, h1, h2⟩ := (mem_whereIdx p xs c).1 (by rw [hL]; simp)
      obtain ⟨b, h3, h4⟩ := (mem_whereIdx p xs d).1 (by rw [hL]; simp)
      exact h ⟨c, d, a, b, hcd, h1, h3, h2, h4⟩

theorem whereIdx_head_none (p : α → Bool) (xs : List α) :
    (NP.whereIdx p xs).head? = none ↔ ∀ v ∈ xs, p v = false := by
  rw [List.head?_eq_none_iff, List.eq_nil_iff_forall_not_mem]
  constructor
  · intro h v hv
    obtain ⟨i, hi⟩ := List.mem_iff_getElem?.1 hv
    by_contra hc
    exact h i ((mem_whereIdx p xs i).2 ⟨v, hi, by simpa using hc⟩)
  · intro h i hi
    obtain ⟨v, h1, h2⟩ := (mem_whereIdx p xs i).1 hi
    rw [h v (List.mem_of_getElem? h1)] at h2
    simp at h2

end Verif.Lemmas
