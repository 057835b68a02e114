import Verif.Base.Conc
import Mathlib.Data.List.Basic
/-
Facts about programs of atomic steps: running alone, running in turns, and invariants that hold under
every schedule.
-/
namespace Verif.Lemmas
open Prog
variable {σ α β ι : Type}

theorem run_bind (P : Prog σ α) (f : α → Prog σ β) (s : σ) :
    (P.bind f).run s = match P.run s with
      | (.ok a, s') => (f a).run s'
      | (.error e, s') => (.error e, s') := by
  induction P generalizing s with
  | done r => cases r <;> rfl
  | step n u ih =>
    show ((n s).bind f).run (u s) = _
    rw [ih s (u s)]
    rfl

/-- the next `n` turns of one program alone -/
def turns : Nat → Prog σ α → σ → Prog σ α × σ
  | 0, P, s => (P, s)
  | _ + 1, .done r, s => (.done r, s)
  | n + 1, .step f u, s => turns n (f s) (u s)

/-- In turns of one process only that process changes. -/
theorem exec_replicate [DecidableEq ι] (i : ι) (n : Nat) (P : ι → Prog σ α) (s : σ) :
    exec (P, s) (List.replicate n i) = (Function.update P i (turns n (P i) s).1, (turns n (P i) s).2) := by
  induction n generalizing P s with
  | zero => simp [exec, turns]
  | succ n ih =>
    rw [List.replicate_succ]
    show exec (move i (P, s)) (List.replicate n i) = _
    cases h : P i with
    | done r =>
      have : move i (P, s) = (P, s) := by simp [move, h]
      rw [this, ih P s, h]
      cases n <;> rfl
    | step f u =>
      have : move i (P, s) = (Function.update P i (f s), u s) := by simp [move, h]
      rw [this, ih, Function.update_idem, Function.update_self]
      rfl

theorem exec_append [DecidableEq ι] (c : (ι → Prog σ α) × σ) (a b : List ι) : exec c (a ++ b) = exec (exec c a) b :=
  List.foldl_append

/-- What every step keeps holds under every schedule. -/
theorem exec_invariant [DecidableEq ι] (Inv : (ι → Prog σ α) × σ → Prop) (hm : ∀ c i, Inv c → Inv (move i c))
    (schedule : List ι) : ∀ c, Inv c → Inv (exec c schedule) := by
  induction schedule with
  | nil => intro c h; exact h
  | cons i l ih => intro c h; exact ih _ (hm c i h)

/-- `Stays I R P`: as long as the others keep `I`, the program keeps `I`, and its result meets `R`. -/
def Stays (I : σ → Prop) (R : Py α → Prop) : Prog σ α → Prop
  | .done r => R r
  | .step n u => ∀ s, I s → I (u s) ∧ Stays I R (n s)

theorem exec_stays [DecidableEq ι] (I : σ → Prop) (R : ι → Py α → Prop) (P : ι → Prog σ α) (s : σ) (hs : I s)
    (hP : ∀ i, Stays I (R i) (P i)) (schedule : List ι) :
    I (exec (P, s) schedule).2 ∧ ∀ i, Stays I (R i) ((exec (P, s) schedule).1 i) := by
  refine exec_invariant (fun c => I c.2 ∧ ∀ i, Stays I (R i) (c.1 i)) ?_ schedule (P, s) ⟨hs, hP⟩
  rintro ⟨Q, t⟩ i ⟨h1, h2⟩
  cases h : Q i with
  | done r =>
    have : move i (Q, t) = (Q, t) := by simp [move, h]
    rw [this]
    exact ⟨h1, h2⟩
  | step n u =>
    have : move i (Q, t) = (Function.update Q i (n t), u t) := by simp [move, h]
    rw [this]
    have hi := h2 i
    dsimp only at hi
    rw [h] at hi
    obtain ⟨a, b⟩ := hi t h1
    refine ⟨a, fun j => ?_⟩
    by_cases hj : j = i
    · subst hj
      simpa using b
    · simpa [Function.update_of_ne hj] using h2 j

theorem stays_bind {I : σ → Prop} {R' : Py α → Prop} {R : Py β → Prop} {P : Prog σ α} {f : α → Prog σ β}
    (h : Stays I R' P) (hok : ∀ a, R' (.ok a) → Stays I R (f a)) (herr : ∀ e, R' (.error e) → R (.error e)) :
    Stays I R (P.bind f) := by
  induction P with
  | done r =>
    cases r with
    | ok a => exact hok a h
    | error e => exact herr e h
  | step n u ih => exact fun s hs => ⟨(h s hs).1, ih s (h s hs).2⟩

theorem turns_run (P : Prog σ α) (s : σ) : ∃ n, turns n P s = (.done (P.run s).1, (P.run s).2) := by
  induction P generalizing s with
  | done r => exact ⟨0, rfl⟩
  | step f u ih =>
    obtain ⟨n, h⟩ := ih s (u s)
    exact ⟨n + 1, h⟩

theorem turns_bind (P : Prog σ α) (f : α → Prog σ β) (s s' : σ) (a : α) (h : P.run s = (.ok a, s')) :
    ∃ n, turns n (P.bind f) s = (f a, s') := by
  induction P generalizing s with
  | done r =>
    cases h
    exact ⟨0, rfl⟩
  | step g u ih =>
    obtain ⟨n, h⟩ := ih s (u s) h
    exact ⟨n + 1, h⟩

/-- there is a schedule that leads from one state to another -/
def Reaches [DecidableEq ι] (c d : (ι → Prog σ α) × σ) : Prop := ∃ schedule, exec c schedule = d

theorem reaches_trans [DecidableEq ι] {c d e : (ι → Prog σ α) × σ} (h1 : Reaches c d) (h2 : Reaches d e) : Reaches c e := by
  obtain ⟨a, rfl⟩ := h1
  obtain ⟨b, rfl⟩ := h2
  exact ⟨a ++ b, exec_append _ _ _⟩

/-- process `i` does the first part of its program -/
theorem reaches_bind [DecidableEq ι] (i : ι) (P : ι → Prog σ α) (s s' : σ) (Q : Prog σ β) (f : β → Prog σ α) (b : β)
    (hP : P i = Q.bind f) (hQ : Q.run s = (.ok b, s')) : Reaches (P, s) (Function.update P i (f b), s') := by
  obtain ⟨n, h⟩ := turns_bind Q f s s' b hQ
  refine ⟨List.replicate n i, ?_⟩
  rw [exec_replicate, hP, h]

/-- process `i` does the rest of its program -/
theorem reaches_run [DecidableEq ι] (i : ι) (P : ι → Prog σ α) (s s' : σ) (r : Py α) (h : (P i).run s = (r, s')) :
    Reaches (P, s) (Function.update P i (.done r), s') := by
  obtain ⟨n, hn⟩ := turns_run (P i) s
  refine ⟨List.replicate n i, ?_⟩
  rw [exec_replicate, hn, h]

/-- process `i` makes one step -/
theorem reaches_step [DecidableEq ι] (i : ι) (P : ι → Prog σ α) (s : σ) (n : σ → Prog σ α) (u : σ → σ)
    (h : P i = .step n u) : Reaches (P, s) (Function.update P i (n s), u s) :=
  ⟨[i], by simp [exec, move, h]⟩

/-- who has finished stays so -/
theorem exec_done [DecidableEq ι] (i : ι) (r : Py α) (schedule : List ι) : ∀ c : (ι → Prog σ α) × σ,
    c.1 i = .done r → (exec c schedule).1 i = .done r := by
  refine exec_invariant (fun c => c.1 i = .done r) ?_ schedule
  rintro ⟨P, s⟩ j h
  dsimp only at h
  cases hj : P j with
  | done r' =>
    have : move j (P, s) = (P, s) := by simp [move, hj]
    rw [this]; exact h
  | step n u =>
    have : move j (P, s) = (Function.update P j (n s), u s) := by simp [move, hj]
    rw [this]
    have hne : i ≠ j := by rintro rfl; rw [h] at hj; cases hj
    simpa [Function.update_of_ne hne] using h

/-- Some schedule brings all of a list of programs to their end. -/
theorem exec_finish [DecidableEq ι] (l : List ι) : ∀ c : (ι → Prog σ α) × σ,
    ∃ schedule, ∀ i ∈ l, ∃ r, (exec c schedule).1 i = .done r := by
  induction l with
  | nil => exact fun c => ⟨[], by simp⟩
  | cons i l ih =>
    rintro ⟨P, s⟩
    obtain ⟨n, hn⟩ := turns_run (P i) s
    obtain ⟨sched, h⟩ := ih (exec (P, s) (List.replicate n i))
    refine ⟨List.replicate n i ++ sched, fun j hj => ?_⟩
    rw [exec_append]
    rcases List.mem_cons.1 hj with rfl | hj
    · refine ⟨((P j).run s).1, exec_done j _ _ _ ?_⟩
      rw [exec_replicate, hn]
      simp
    · exact h j hj

end Verif.Lemmas
