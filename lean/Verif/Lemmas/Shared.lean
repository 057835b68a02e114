import Verif.Lemmas.Conc
import Verif.Model.Concurrent
/-
One file written by any number of programs at once: what is in it at every moment, and when all of
them have finished.
-/
namespace Verif.Lemmas
open Model Prog
variable {σ β ι : Type}

/-! ### Files written by several processes at once -/

/-- What is left of a content when parts of it are not (or not yet) there: it may be shorter, and
bytes may be zero. -/
def Mangled (E c : Content) : Prop :=
  c.length ≤ E.length ∧ ∀ (i : Nat) (b : Char), c[i]? = some b → b = '\x00' ∨ E[i]? = some b

theorem mangled_nil (E : Content) : Mangled E [] := ⟨by simp, by simp⟩

theorem mangled_self (E : Content) : Mangled E E := ⟨Nat.le_refl _, fun _ _ h => Or.inr h⟩

theorem getElem?_writeAt (c : Content) (k : Nat) (b : Char) (i : Nat) :
    (writeAt c k b)[i]? = if i = k then some b else if i < c.length then c[i]? else if i < k then some '\x00' else none := by
  unfold writeAt
  by_cases hk : k < c.length
  · rw [if_pos hk, List.getElem?_set]
    by_cases hi : i = k
    · subst hi; simp [hk]
    · rw [if_neg (Ne.symm hi), if_neg hi]
      by_cases hl : i < c.length
      · rw [if_pos hl]
      · rw [if_neg hl, if_neg (by omega)]
        exact List.getElem?_eq_none (by omega)
  · rw [if_neg hk, List.append_assoc, List.getElem?_append]
    by_cases hl : i < c.length
    · rw [if_pos hl, if_neg (by omega), if_pos hl]
    · rw [if_neg hl, List.getElem?_append, List.length_replicate]
      by_cases hi : i = k
      · subst hi; simp
      · rw [if_neg hi, if_neg hl]
        by_cases hik : i < k
        · rw [if_pos (by omega), if_pos hik, List.getElem?_replicate, if_pos (by omega)]
        · rw [if_neg (by omega), if_neg hik]
          apply List.getElem?_eq_none
          simp; omega

theorem length_writeAt (c : Content) (k : Nat) (b : Char) : (writeAt c k b).length = max c.length (k + 1) := by
  unfold writeAt
  split
  · rw [List.length_set]; omega
  · simp; omega

theorem mangled_writeAt {E c : Content} (h : Mangled E c) {k : Nat} {b : Char} (hb : E[k]? = some b) :
    Mangled E (writeAt c k b) := by
  have hk : k < E.length := (List.getElem?_eq_some_iff.1 hb).1
  refine ⟨by rw [length_writeAt]; have := h.1; omega, fun i x hx => ?_⟩
  rw [getElem?_writeAt] at hx
  split_ifs at hx with h1 h2 h3
  · cases hx; subst h1; exact Or.inr hb
  · exact h.2 i x hx
  · cases hx; exact Or.inl rfl

theorem mangled_append {E c : Content} (h : Mangled E c) {b : Char} (hl : c.length < E.length)
    (hb : b = '\x00' ∨ E[c.length]? = some b) : Mangled E (c ++ [b]) := by
  refine ⟨by simp; omega, fun i x hx => ?_⟩
  rw [List.getElem?_append] at hx
  split_ifs at hx with h1
  · exact h.2 i x hx
  · have hi : i = c.length := by
      by_contra hne
      rw [List.getElem?_eq_none (by simp; omega)] at hx
      cases hx
    subst hi
    simp at hx
    subst hx
    exact hb

/-- What a file `v` holds: still what it held before (`v0`), or nothing else than (parts of) `E`. -/
def Sound (v : σ → Option Content) (v0 : Option Content) (E : Content) (s : σ) : Prop :=
  v s = v0 ∨ ∃ c, v s = some c ∧ Mangled E c

/-- no way to end but with an exception -/
def Fails : Prog σ β → Prop
  | .done r => ∃ e, r = .error e
  | .step n _ => ∀ s, Fails (n s)

theorem fails_bind {γ : Type} {P : Prog σ β} {f : β → Prog σ γ} (h : ∀ a, Fails (f a)) : Fails (P.bind f) := by
  induction P with
  | done r =>
    cases r with
    | ok a => exact h a
    | error e => exact ⟨e, rfl⟩
  | step n u ih => exact fun s => ih s

/-- what is the same for all steps: the file, its old and new content, what the steps keep, and whether
a program may be doomed to fail -/
structure Rules (σ : Type) where
  v : σ → Option Content
  v0 : Option Content
  E : Content
  I : σ → Prop
  doom : Prop

/-- what a program may rely on -/
def Rules.holds (q : Rules σ) (s : σ) : Prop := q.I s ∧ Sound q.v q.v0 q.E s

/-- A program that handles the file properly: it leaves it alone, or opens it for writing and then writes
all of `E`.  `t` says that it has opened the file before, `some k` that it is writing and has written
`k` bytes. -/
inductive Obeys (q : Rules σ) (R : Bool → Py β → Prop) : Bool → Option Nat → Prog σ β → Prop
  | done {t : Bool} {r : Py β} (h : R t r) : Obeys q R t none (.done r)
  | step {t : Bool} {n : σ → Prog σ β} {u : σ → σ} (t' : σ → Bool) (m : σ → Option Nat)
      (hu : ∀ s, q.holds s → q.I (u s) ∧ ((q.v (u s) = q.v s ∧ t' s = t ∧ m s = none) ∨
        (q.v (u s) = some [] ∧ t' s = true ∧ m s = some 0)))
      (hn : ∀ s, q.holds s → Obeys q R (t' s) (m s) (n s)) : Obeys q R t none (.step n u)
  | write {n : σ → Prog σ β} {u : σ → σ} {k : Nat} {b : Char} (hb : q.E[k]? = some b)
      (hu : ∀ s, q.holds s → q.I (u s) ∧ q.v (u s) = some (writeAt ((q.v s).getD []) k b))
      (hn : ∀ s, q.holds s → Obeys q R true (some (k + 1)) (n s)) : Obeys q R true (some k) (.step n u)
  | wrote {P : Prog σ β} (h : Obeys q R true none P) : Obeys q R true (some q.E.length) P
  | fails {t : Bool} {m : Option Nat} {P : Prog σ β} (hd : q.doom) (h : Fails P) : Obeys q R t m P

theorem obeys_bind {γ : Type} {q : Rules σ} {R' : Bool → Py β → Prop} {R : Bool → Py γ → Prop} {t : Bool}
    {m : Option Nat} {P : Prog σ β} {f : β → Prog σ γ} (h : Obeys q R' t m P)
    (hok : ∀ t a, R' t (.ok a) → Obeys q R t none (f a)) (herr : ∀ t e, R' t (.error e) → R t (.error e)) :
    Obeys q R t m (P.bind f) := by
  induction h with
  | @done t r h =>
    cases r with
    | ok a => exact hok t a h
    | error e => exact .done (herr t e h)
  | step t' m hu _ ih => exact .step t' m hu ih
  | write hb hu _ ih => exact .write hb hu ih
  | wrote _ ih => exact .wrote ih
  | @fails t m P hd h =>
    refine .fails hd ?_
    induction P with
    | done r => obtain ⟨e, rfl⟩ := h; exact ⟨e, rfl⟩
    | step n u ih => exact fun s => ih s (h s)

theorem obeys_weaken {q : Rules σ} {R' R : Bool → Py β → Prop} {t : Bool} {m : Option Nat} {P : Prog σ β}
    (h : Obeys q R' t m P) (hR : ∀ t r, R' t r → R t r) : Obeys q R t m P := by
  induction h with
  | done h => exact .done (hR _ _ h)
  | step t' m hu _ ih => exact .step t' m hu ih
  | write hb hu _ ih => exact .write hb hu ih
  | wrote _ ih => exact .wrote ih
  | fails hd h => exact .fails hd h

/-- once opened, always opened -/
theorem obeys_true {q : Rules σ} {R : Bool → Py β → Prop} {t : Bool} {m : Option Nat} {P : Prog σ β}
    (h : Obeys q R t m P) (ht : t = true) : Obeys q (fun t r => t = true ∧ R t r) t m P := by
  induction h with
  | done h => exact .done ⟨ht, h⟩
  | step t' m hu _ ih =>
    refine .step t' m hu fun s hs => ih s hs ?_
    rcases (hu s hs).2 with ⟨_, h, _⟩ | ⟨_, h, _⟩
    · rw [h, ht]
    · exact h
  | write hb hu _ ih => exact .write hb hu fun s hs => ih s hs rfl
  | wrote _ ih => exact .wrote (ih rfl)
  | fails hd h => exact .fails hd h

/-- The state of the processes and the file: nobody has opened it and it is as before, or it is complete,
or some process that has opened it has written everything up to its offset. -/
def Progress (q : Rules σ) (t : ι → Bool) (m : ι → Option Nat) (s : σ) : Prop :=
  (q.v s = q.v0 ∧ ∀ i, t i = false ∧ m i = none) ∨ ∃ c, q.v s = some c ∧ Mangled q.E c ∧
    (c = q.E ∨ ∃ i k, m i = some k ∧ k ≤ c.length ∧ ∀ j < k, c[j]? = q.E[j]?)

theorem whole {E c : Content} (h : Mangled E c) (hk : E.length ≤ c.length) (hj : ∀ j < E.length, c[j]? = E[j]?) : c = E := by
  apply List.ext_getElem?
  intro j
  by_cases hl : j < E.length
  · exact hj j hl
  · rw [List.getElem?_eq_none (by have := h.1; omega), List.getElem?_eq_none (by omega)]

theorem progress_sound {q : Rules σ} {t : ι → Bool} {m : ι → Option Nat} {s : σ} (h : Progress q t m s) :
    Sound q.v q.v0 q.E s := by
  rcases h with ⟨h, _⟩ | ⟨c, hc, hm, _⟩
  · exact Or.inl h
  · exact Or.inr ⟨c, hc, hm⟩

theorem progress_wrote [DecidableEq ι] {q : Rules σ} {t : ι → Bool} {m : ι → Option Nat} {s : σ}
    (h : Progress q t m s) (i : ι) (hi : m i = some q.E.length) : Progress q t (Function.update m i none) s := by
  rcases h with ⟨_, h2⟩ | ⟨c, hc, hm, h⟩
  · rw [(h2 i).2] at hi; cases hi
  · refine Or.inr ⟨c, hc, hm, ?_⟩
    rcases h with h | ⟨j, k, hj, hk, hcj⟩
    · exact Or.inl h
    · by_cases hji : j = i
      · subst hji
        rw [hi] at hj
        cases hj
        exact Or.inl (whole hm hk hcj)
      · exact Or.inr ⟨j, k, by rw [Function.update_of_ne hji]; exact hj, hk, hcj⟩

/-- every process obeys and the file makes progress, or some process is doomed -/
def Orderly (q : Rules σ) (R : ι → Bool → Py β → Prop) (c : (ι → Prog σ β) × σ) : Prop :=
  (q.doom ∧ ∃ i, Fails (c.1 i)) ∨ (q.I c.2 ∧ ∃ (t : ι → Bool) (m : ι → Option Nat),
    (∀ i, Obeys q (R i) (t i) (m i) (c.1 i)) ∧ Progress q t m c.2)

theorem fails_move [DecidableEq ι] (c : (ι → Prog σ β) × σ) (i j : ι) (h : Fails (c.1 j)) : Fails ((move i c).1 j) := by
  obtain ⟨P, s⟩ := c
  cases hi : P i with
  | done r =>
    have : move i (P, s) = (P, s) := by simp [move, hi]
    rw [this]; exact h
  | step n u =>
    have hmv : move i (P, s) = (Function.update P i (n s), u s) := by simp [move, hi]
    rw [hmv]
    by_cases hj : j = i
    · subst hj
      dsimp only at h ⊢
      rw [hi] at h
      rw [Function.update_self]
      exact h s
    · dsimp only at h ⊢
      rwa [Function.update_of_ne hj]

/-- a step of a process that is not writing -/
theorem orderly_quiet [DecidableEq ι] {q : Rules σ} {R : ι → Bool → Py β → Prop} {P : ι → Prog σ β} {s : σ}
    (hI : q.I s) (t : ι → Bool) (m : ι → Option Nat) (ho : ∀ j, Obeys q (R j) (t j) (m j) (P j)) (hp : Progress q t m s)
    (i : ι) (hi : Obeys q (R i) (t i) none (P i)) (hm : m i = none) : Orderly q R (move i (P, s)) := by
  cases h : P i with
  | done r =>
    have : move i (P, s) = (P, s) := by simp [move, h]
    rw [this]
    exact Or.inr ⟨hI, t, m, ho, hp⟩
  | step n u =>
    have hmv : move i (P, s) = (Function.update P i (n s), u s) := by simp [move, h]
    have hi' := hi
    rw [h] at hi
    generalize ht : t i = ti at hi
    cases hi with
    | fails hd hf =>
      refine Or.inl ⟨hd, i, fails_move (P, s) i i ?_⟩
      dsimp only
      rw [h]
      exact hf
    | step t' mm hu hn =>
    rw [hmv]
    have hs := progress_sound hp
    have hob : ∀ j, Obeys q (R j) (Function.update t i (t' s) j) (Function.update m i (mm s) j)
        (Function.update P i (n s) j) := by
      intro j
      by_cases hj : j = i
      · subst hj; simpa using hn s ⟨hI, hs⟩
      · simpa [Function.update_of_ne hj] using ho j
    obtain ⟨hI', hu⟩ := hu s ⟨hI, hs⟩
    refine Or.inr ⟨hI', _, _, hob, ?_⟩
    rcases hu with ⟨hf, htt, hmm⟩ | ⟨hf, htt, hmm⟩
    · have h1 : Function.update m i (mm s) = m := by rw [hmm, ← hm, Function.update_eq_self]
      have h2 : Function.update t i (t' s) = t := by rw [htt, ← ht, Function.update_eq_self]
      rw [h1, h2]
      unfold Progress at hp ⊢
      dsimp only
      rw [hf]
      exact hp
    · exact Or.inr ⟨[], hf, mangled_nil _, Or.inr ⟨i, 0, by simp [hmm], by simp, by simp⟩⟩

theorem orderly_move [DecidableEq ι] {q : Rules σ} {R : ι → Bool → Py β → Prop} (c : (ι → Prog σ β) × σ)
    (i : ι) (h : Orderly q R c) : Orderly q R (move i c) := by
  obtain ⟨P, s⟩ := c
  rcases h with ⟨hd, j, hj⟩ | ⟨hI, t, m, ho, hp⟩
  · exact Or.inl ⟨hd, j, fails_move _ i j hj⟩
  dsimp only at hI ho hp
  have hi := ho i
  rcases hmi : m i with _ | k
  · rw [hmi] at hi
    exact orderly_quiet hI t m ho hp i hi hmi
  · rw [hmi] at hi
    generalize hQ : P i = Q at hi
    generalize hti : t i = ti at hi
    cases hi with
    | fails hd hf =>
      refine Or.inl ⟨hd, i, fails_move (P, s) i i ?_⟩
      dsimp only
      rw [hQ]
      exact hf
    | wrote hq =>
      refine orderly_quiet hI t (Function.update m i none) ?_ (progress_wrote hp i hmi) i (hti ▸ hQ ▸ hq) (by simp)
      intro j
      by_cases hj : j = i
      · subst hj; simpa [hQ, hti] using hq
      · simpa [Function.update_of_ne hj] using ho j
    | @write n u k b hb hu hn =>
      have hmv : move i (P, s) = (Function.update P i (n s), u s) := by simp [move, hQ]
      rw [hmv]
      have hs := progress_sound hp
      obtain ⟨hI', hf⟩ := hu s ⟨hI, hs⟩
      refine Or.inr ⟨hI', t, Function.update m i (some (k + 1)), ?_, ?_⟩
      · intro j
        by_cases hj : j = i
        · subst hj; simpa [hti] using hn s ⟨hI, hs⟩
        · simpa [Function.update_of_ne hj] using ho j
      · rcases hp with ⟨_, h2⟩ | ⟨c, hc, hm', hp⟩
        · rw [(h2 i).2] at hmi; cases hmi
        · rw [hc, Option.getD_some] at hf
          refine Or.inr ⟨_, hf, mangled_writeAt hm' hb, ?_⟩
          have hkE : k < q.E.length := (List.getElem?_eq_some_iff.1 hb).1
          rcases hp with rfl | ⟨j, kj, hj, hkj, hcj⟩
          · left
            apply List.ext_getElem?
            intro x
            rw [getElem?_writeAt]
            split_ifs with h1 h2 h3
            · subst h1; exact hb.symm
            · rfl
            · omega
            · exact (List.getElem?_eq_none (by omega)).symm
          · right
            by_cases hji : j = i
            · subst hji
              rw [hmi] at hj
              cases hj
              refine ⟨j, k + 1, by simp, by rw [length_writeAt]; omega, fun x hx => ?_⟩
              rw [getElem?_writeAt]
              split_ifs with h1 h2 h3
              · subst h1; exact hb.symm
              · exact hcj x (by omega)
              · omega
              · omega
            · refine ⟨j, kj, by rw [Function.update_of_ne hji]; exact hj, by rw [length_writeAt]; omega, fun x hx => ?_⟩
              rw [getElem?_writeAt]
              split_ifs with h1 h2 h3
              · subst h1; exact hb.symm
              · exact hcj x hx
              · omega
              · omega

/-- Under every schedule, unless some process is doomed: results are as promised, and when all processes
have finished the file is as before and was never opened, or it is complete. -/
theorem orderly_exec [DecidableEq ι] {q : Rules σ} {R : ι → Bool → Py β → Prop} (P : ι → Prog σ β) (s : σ)
    (hI : q.I s) (hs : q.v s = q.v0 ∨ q.v s = some q.E) (hP : ∀ i, Obeys q (R i) false none (P i))
    (schedule : List ι) :
    (q.doom ∧ ∃ i, Fails ((exec (P, s) schedule).1 i)) ∨
    (q.I (exec (P, s) schedule).2 ∧ ∃ t : ι → Bool,
      (∀ i r, (exec (P, s) schedule).1 i = .done r → (q.doom ∧ ∃ e, r = .error e) ∨ R i (t i) r) ∧
      ((∀ i, ∃ r, (exec (P, s) schedule).1 i = .done r) →
        (q.v (exec (P, s) schedule).2 = q.v0 ∧ ∀ i, t i = false) ∨ q.v (exec (P, s) schedule).2 = some q.E)) := by
  have h0 : Orderly q R (P, s) := by
    refine Or.inr ⟨hI, fun _ => false, fun _ => none, hP, ?_⟩
    rcases hs with hs | hs
    · exact Or.inl ⟨hs, fun _ => ⟨rfl, rfl⟩⟩
    · exact Or.inr ⟨q.E, hs, mangled_self _, Or.inl rfl⟩
  rcases exec_invariant (Orderly q R) orderly_move schedule _ h0 with h | ⟨hI', t, m, ho, hp⟩
  · exact Or.inl h
  by_cases hF : q.doom ∧ ∃ i, Fails ((exec (P, s) schedule).1 i)
  · exact Or.inl hF
  refine Or.inr ⟨hI', t, fun i r hr => ?_, fun hd => ?_⟩
  · have := ho i
    rw [hr] at this
    generalize m i = o at this
    generalize t i = ti at this
    cases this with
    | done h => exact Or.inr h
    | wrote h =>
      cases h with
      | done h => exact Or.inr h
      | fails hd h => exact Or.inl ⟨hd, h⟩
    | fails hd h => exact Or.inl ⟨hd, h⟩
  · rcases hp with ⟨h1, h2⟩ | ⟨c, hc, hm, hp⟩
    · exact Or.inl ⟨h1, fun i => (h2 i).1⟩
    · rcases hp with rfl | ⟨i, k, hk, hkc, hcj⟩
      · exact Or.inr hc
      · obtain ⟨r, hr⟩ := hd i
        have := ho i
        rw [hr, hk] at this
        generalize t i = ti at this
        cases this with
        | wrote _ =>
          rw [hc, whole hm hkc hcj]
          exact Or.inr rfl
        | fails hd' h =>
          refine absurd ⟨hd', i, ?_⟩ hF
          rw [hr]
          exact h

theorem obeys_look {q : Rules σ} {R : Bool → Py β → Prop} {t : Bool} {f : σ → Prog σ β}
    (h : ∀ s, q.holds s → Obeys q R t none (f s)) : Obeys q R t none (.look f) :=
  .step (fun _ => t) (fun _ => none) (fun _ hs => ⟨hs.1, Or.inl ⟨rfl, rfl, rfl⟩⟩) h

theorem obeys_act {q : Rules σ} {R : Bool → Py Unit → Prop} {t : Bool} {u : σ → σ} (hR : R t (.ok ()))
    (hI : ∀ s, q.I s → q.I (u s)) (h : ∀ s, q.v (u s) = q.v s) : Obeys q R t none (.act u) :=
  .step (fun _ => t) (fun _ => none) (fun s hs => ⟨hI s hs.1, Or.inl ⟨h s, rfl, rfl⟩⟩) fun _ _ => .done hR

/-- a program all of whose steps keep `I` and leave the file alone -/
def Leaves (I : σ → Prop) (v : σ → Option Content) : Prog σ β → Prop
  | .done _ => True
  | .step n u => ∀ s, I s → I (u s) ∧ v (u s) = v s ∧ Leaves I v (n s)

theorem obeys_leaves {q : Rules σ} {R : Bool → Py β → Prop} {t : Bool} (hR : ∀ r, R t r) (P : Prog σ β)
    (h : Leaves q.I q.v P) : Obeys q R t none P := by
  induction P with
  | done r => exact .done (hR r)
  | step n u ih =>
    exact .step (fun _ => t) (fun _ => none) (fun s hs => ⟨(h s hs.1).1, Or.inl ⟨(h s hs.1).2.1, rfl, rfl⟩⟩)
      fun s hs => ih s (h s hs.1).2.2

theorem leaves_bind {γ : Type} {I : σ → Prop} {v : σ → Option Content} {P : Prog σ β} {f : β → Prog σ γ}
    (h : Leaves I v P) (hf : ∀ a, Leaves I v (f a)) : Leaves I v (P.bind f) := by
  induction P with
  | done r =>
    cases r with
    | ok a => exact hf a
    | error e => trivial
  | step n u ih => exact fun s hs => ⟨(h s hs).1, (h s hs).2.1, ih s (h s hs).2.2⟩

end Verif.Lemmas
