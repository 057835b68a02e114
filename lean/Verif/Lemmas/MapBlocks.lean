import Verif.Model.Blackbody
/-
Supporting lemmas: evaluation of blocks in any order.
-/
namespace Verif.Lemmas
open Model
variable {α : Type}

theorem mapBlocks_fold (f : List (Val α) → Py (Val α)) (args : List (Val α)) (idx : Nat)
    (g : List α → List α) (blocks : List (List α))
    (hf : ∀ b, f (args.set idx (.nd b)) = .ok (.nd (g b))) :
    ∀ (order : List Nat) (out : List (List α)), out.length = blocks.length →
    ∃ out', order.foldl (mapBlocksStep f args idx blocks) (.ok out) = .ok out' ∧
      out'.length = blocks.length ∧
      ∀ i, out'[i]? = if i ∈ order then (blocks[i]?).map g else out[i]? := by
  intro order
  induction order with
  | nil => intro out h; exact ⟨out, rfl, h, fun i => by simp⟩
  | cons i rest ih =>
    intro out h
    rw [List.foldl_cons]
    by_cases hi : i < blocks.length
    · have hb : blocks[i]? = some blocks[i] := List.getElem?_eq_getElem hi
      have hs : mapBlocksStep f args idx blocks (.ok out) i = .ok (out.set i (g blocks[i])) := by
        simp only [mapBlocksStep, hb, bind, Except.bind, hf, pure, Except.pure]
      rw [hs]
      obtain ⟨out', h1, h2, h3⟩ := ih (out.set i (g blocks[i])) (by simp [h])
      refine ⟨out', h1, h2, fun j => ?_⟩
      rw [h3 j]
      by_cases hj : j ∈ rest
      · simp [hj]
      · by_cases hji : j = i
        · subst hji; simp [hj, h, hi]
        · have : i ≠ j := fun e => hji e.symm
          simp [hj, hji, this]
    · have hb : blocks[i]? = none := List.getElem?_eq_none (Nat.le_of_not_lt hi)
      have hs : mapBlocksStep f args idx blocks (.ok out) i = .ok out := by
        simp only [mapBlocksStep, hb, bind, Except.bind, pure, Except.pure]
      rw [hs]
      obtain ⟨out', h1, h2, h3⟩ := ih out h
      refine ⟨out', h1, h2, fun j => ?_⟩
      rw [h3 j]
      by_cases hj : j ∈ rest
      · simp [hj]
      · by_cases hji : j = i
        · subst hji
          simp [hj, hb, List.getElem?_eq_none (Nat.le_of_not_lt (h ▸ hi))]
        · simp [hj, hji]

theorem mapBlocks_eq (f : List (Val α) → Py (Val α)) (args : List (Val α)) (idx : Nat)
    (g : List α → List α) (blocks : List (List α))
    (hf : ∀ b, f (args.set idx (.nd b)) = .ok (.nd (g b)))
    (order : List Nat) (ho : ∀ i < blocks.length, i ∈ order) :
    mapBlocks f args idx blocks order = .ok (blocks.map g) := by
  obtain ⟨out', h1, h2, h3⟩ := mapBlocks_fold f args idx g blocks hf order
    (blocks.map fun _ => []) (by simp)
  have : out' = blocks.map g := by
    apply List.ext_getElem?
    intro i
    rw [h3 i]
    by_cases hi : i < blocks.length
    · simp [ho i hi]
    · simp [List.getElem?_eq_none (Nat.le_of_not_lt hi)]
  rw [← this]
  exact h1

end Verif.Lemmas
