import Verif.Base.XF
import Verif.Lemmas.Dict
import Verif.Model.Utils
import Mathlib.Data.List.Perm.Basic
/-
Lemmas about `sort_data`.
-/
namespace Verif.Lemmas
open XF PyNum Model

/-- order used by `np.argsort`: NaN last -/
def NanLastLe (a b : XF) : Prop := b = XF.nan ∨ PyNum.le a b = true

theorem takeIdx_ok {β : Type} (xs : List β) (d : β) (idxs : List Nat) (h : ∀ i ∈ idxs, i < xs.length) :
    takeIdx xs idxs = .ok (idxs.map fun i => xs.getD i d) := by
  unfold takeIdx
  refine mapM_ok _ _ idxs fun i hi => ?_
  have := h i hi
  simp [List.getD, this]

theorem gt_sub_zero (a b : XF) : PyNum.gt (b - a) (0 : XF) = PyNum.lt a b := by
  cases a <;> cases b <;> first
    | (simp only [fin_sub, ofNat_zero, gt_fin, lt_fin, sub_pos]; done)
    | (simp only [ofNat_zero]; simp [PyNum.gt]; done)
    | (simp only [ofNat_zero]; rfl)

theorem lt_trans' {a b c : XF} (h1 : PyNum.lt a b = true) (h2 : PyNum.lt b c = true) :
    PyNum.lt a c = true := by
  cases a <;> cases b <;> cases c <;> first
    | (simp only [lt_fin, decide_eq_true_eq] at *; exact lt_trans h1 h2)
    | exact absurd h1 Bool.false_ne_true
    | exact absurd h2 Bool.false_ne_true
    | rfl

theorem eq_of_le_not_lt {a b : XF} (h1 : PyNum.le a b = true) (h2 : ¬ PyNum.lt a b = true) : a = b := by
  cases a <;> cases b <;> first
    | (simp only [lt_fin, le_fin, decide_eq_true_eq, not_lt] at *; rw [le_antisymm h1 h2])
    | exact absurd h1 Bool.false_ne_true
    | (exact absurd rfl h2)
    | rfl

/-- what remains of the sorted (x, y) pairs after a predecessor with position `prev` -/
noncomputable def dedupFrom (prev : XF) : List (XF × XF) → List (XF × XF)
  | [] => []
  | p :: ps => if PyNum.lt prev p.1 then p :: dedupFrom p.1 ps else dedupFrom p.1 ps

theorem maskSelect_dedup (f : XF × XF → XF) (p : XF × XF) (ps : List (XF × XF)) :
    maskSelect ((p :: ps).map f)
      (true :: NP.adj (fun b a => PyNum.gt (b - a) (0 : XF)) ((p :: ps).map Prod.fst)) =
      .ok ((p :: dedupFrom p.1 ps).map f) := by
  have hlen : ∀ (p : XF × XF) (ps : List (XF × XF)),
      (NP.adj (fun b a => PyNum.gt (b - a) (0 : XF)) ((p :: ps).map Prod.fst)).length = ps.length := by
    intro p ps
    induction ps generalizing p with
    | nil => rfl
    | cons q ps ih => simp only [List.map_cons, NP.adj, List.length_cons] at *; rw [ih q]
  unfold maskSelect
  rw [if_pos (by simp only [List.length_cons, List.length_map, hlen])]
  congr 1
  simp only [List.map_cons, List.zip_cons_cons, List.filterMap_cons, if_true]
  congr 1
  induction ps generalizing p with
  | nil => rfl
  | cons q ps ih =>
    simp only [List.map_cons, NP.adj, List.zip_cons_cons, List.filterMap_cons, gt_sub_zero, dedupFrom] at *
    rw [ih q]
    by_cases h : PyNum.lt p.1 q.1 = true
    · simp [h]
    · simp [h]

theorem dedupFrom_sorted (ps : List (XF × XF)) : ∀ (prev : XF),
    (prev :: ps.map Prod.fst).Pairwise NanLastLe →
    (prev :: (dedupFrom prev ps).map Prod.fst).Pairwise (fun a b => PyNum.lt a b = true) := by
  induction ps with
  | nil => intro prev _; simp [dedupFrom]
  | cons p ps ih =>
    intro prev h
    obtain ⟨h1, h2⟩ := List.pairwise_cons.1 h
    have hp := h1 p.1 (by simp)
    have IH := ih p.1 h2
    unfold dedupFrom
    split
    · rename_i hlt
      refine List.pairwise_cons.2 ⟨fun b hb => ?_, IH⟩
      rcases List.mem_cons.1 hb with rfl | hb
      · exact hlt
      · exact lt_trans' hlt ((List.pairwise_cons.1 IH).1 b hb)
    · rename_i hlt
      rcases hp with hn | hle
      · rw [hn] at IH ⊢
        refine List.pairwise_cons.2 ⟨fun b hb => ?_, (List.pairwise_cons.1 IH).2⟩
        exact absurd ((List.pairwise_cons.1 IH).1 b hb) (by simp)
      · rw [eq_of_le_not_lt hle hlt]; exact IH

theorem dedupFrom_sub (ps : List (XF × XF)) : ∀ (prev : XF) (q : XF × XF),
    q ∈ dedupFrom prev ps → q ∈ ps ∧ q.1 ≠ XF.nan := by
  induction ps with
  | nil => intro prev q h; simp [dedupFrom] at h
  | cons p ps ih =>
    intro prev q h
    unfold dedupFrom at h
    split at h
    · rename_i hlt
      rcases List.mem_cons.1 h with rfl | h
      · exact ⟨by simp, fun hn => by rw [hn] at hlt; simp at hlt⟩
      · exact ⟨by simp [(ih _ _ h).1], (ih _ _ h).2⟩
    · exact ⟨by simp [(ih _ _ h).1], (ih _ _ h).2⟩

theorem dedupFrom_complete (ps : List (XF × XF)) : ∀ (prev : XF),
    (prev :: ps.map Prod.fst).Pairwise NanLastLe → ∀ v, v ≠ XF.nan → v ∈ ps.map Prod.fst →
    v = prev ∨ v ∈ (dedupFrom prev ps).map Prod.fst := by
  induction ps with
  | nil => intro prev _ v _ h; simp at h
  | cons p ps ih =>
    intro prev h v hv hm
    obtain ⟨h1, h2⟩ := List.pairwise_cons.1 h
    have hp := h1 p.1 (by simp)
    have IH := ih p.1 h2 v hv
    unfold dedupFrom
    have hm' : v = p.1 ∨ v ∈ ps.map Prod.fst := by simpa using hm
    split
    · right
      rcases hm' with h3 | h3
      · simp [h3]
      · rcases IH h3 with h4 | h4
        · simp [h4]
        · exact List.mem_cons_of_mem _ h4
    · rename_i hlt
      rcases hp with hn | hle
      · rcases hm' with h3 | h3
        · exact absurd (h3.trans hn) hv
        · have := (List.pairwise_cons.1 h2).1 v h3
          rw [hn] at this
          rcases this with h5 | h5
          · exact absurd h5 hv
          · simp at h5
      · have he := eq_of_le_not_lt hle hlt
        rw [he]
        rcases hm' with h3 | h3
        · exact Or.inl h3
        · exact IH h3

end Verif.Lemmas
