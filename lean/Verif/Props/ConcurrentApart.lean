import Verif.Props.ConcurrentTesting
/-
C156: several threads that override the configuration, one at a time (for example with a lock of their own).
-/
namespace Verif.Props
open Verif Verif.Model Verif.Lemmas
variable {α : Type} [PyNum α] {β ι : Type}

/-- A schedule in pieces, each given with the thread that has its block in it: besides that thread only others (those in `B`)
have turns, and at the end of the piece it has finished. -/
def OneAtATime [DecidableEq ι] (B : ι → Prop) : (ι → Prog (TestState α) β) × TestState α → List (ι × List ι) → Prop
  | _, [] => True
  | c, (o, l) :: rest => ¬ B o ∧ (∀ j ∈ l, j = o ∨ B j) ∧ (∃ r, ((Prog.exec c l).1 o).result? = some r) ∧
      OneAtATime B (Prog.exec c l) rest

omit [PyNum α] in
theorem one_piece [DecidableEq ι] (B : ι → Prop) (o : ι) (ho : ¬ B o) (F : Py β → Option String → Prop) (l : List ι) :
    ∀ c : (ι → Prog (TestState α) β) × TestState α, (∀ j ∈ l, j = o ∨ B j) → Own F c.2.psp (c.1 o) →
      (∀ j, B j → KeepsVariable (c.1 j)) →
      Own F (Prog.exec c l).2.psp ((Prog.exec c l).1 o) ∧ (∀ j, B j → KeepsVariable ((Prog.exec c l).1 j)) ∧
      ∀ j, ¬ B j → j ≠ o → (Prog.exec c l).1 j = c.1 j := by
  induction l with
  | nil => exact fun c _ h1 h2 => ⟨h1, h2, fun _ _ _ => rfl⟩
  | cons k l ih =>
    rintro ⟨Q, t⟩ hl h1 h2
    dsimp only at h1 h2
    rw [show Prog.exec (Q, t) (k :: l) = Prog.exec (Prog.move k (Q, t)) l from rfl]
    have hk := hl k (List.mem_cons_self ..)
    have hl' : ∀ j ∈ l, j = o ∨ B j := fun j hj => hl j (List.mem_cons_of_mem _ hj)
    cases h : Q k with
    | done r =>
      have : Prog.move k (Q, t) = (Q, t) := by simp [Prog.move, h]
      rw [this]
      exact ih (Q, t) hl' h1 h2
    | step n u =>
      have hm : Prog.move k (Q, t) = (Function.update Q k (n t), u t) := by simp [Prog.move, h]
      have key : Own F (u t).psp (Function.update Q k (n t) o) ∧ ∀ j, B j → KeepsVariable (Function.update Q k (n t) j) := by
        by_cases hko : k = o
        · subst hko
          rw [h] at h1
          refine ⟨by simpa using h1 t rfl, fun j hj => ?_⟩
          have : j ≠ k := by rintro rfl; exact ho hj
          rw [Function.update_of_ne this]
          exact h2 j hj
        · have hkk := h2 k (hk.resolve_left hko)
          rw [h] at hkk
          refine ⟨?_, fun j hj => ?_⟩
          · rw [Function.update_of_ne (Ne.symm hko), (hkk t).1]
            exact h1
          · by_cases hjk : j = k
            · subst hjk; simpa using (hkk t).2
            · rw [Function.update_of_ne hjk]; exact h2 j hj
      have := ih (Function.update Q k (n t), u t) hl' key.1 key.2
      rw [hm]
      refine ⟨this.1, this.2.1, fun j hj hjo => ?_⟩
      rw [this.2.2 j hj hjo]
      refine Function.update_of_ne (fun e => ?_) _ _
      subst e
      exact hk.elim hjo hj

omit [PyNum α] in
theorem one_at_a_time [DecidableEq ι] (B : ι → Prop) (v : Option String) (G : ι → Py β → Prop) (pieces : List (ι × List ι)) :
    ∀ c : (ι → Prog (TestState α) β) × TestState α, c.2.psp = v → (∀ j, B j → KeepsVariable (c.1 j)) →
      (∀ j, ¬ B j → Own (fun r v' => v' = v ∧ G j r) v (c.1 j)) → OneAtATime B c pieces →
      (Prog.exec c (pieces.flatMap Prod.snd)).2.psp = v ∧
      ∀ j r, j ∈ pieces.map Prod.fst → ((Prog.exec c (pieces.flatMap Prod.snd)).1 j).result? = some r → G j r := by
  suffices H : ∀ c : (ι → Prog (TestState α) β) × TestState α, c.2.psp = v → (∀ j, B j → KeepsVariable (c.1 j)) →
      (∀ j, ¬ B j → Own (fun r v' => v' = v ∧ G j r) v (c.1 j)) → OneAtATime B c pieces →
      (Prog.exec c (pieces.flatMap Prod.snd)).2.psp = v ∧
      (∀ j, ¬ B j → Own (fun r v' => v' = v ∧ G j r) v ((Prog.exec c (pieces.flatMap Prod.snd)).1 j)) ∧
      ∀ p ∈ pieces, ¬ B p.1 by
    intro c h1 h2 h3 h4
    obtain ⟨a, b, d⟩ := H c h1 h2 h3 h4
    refine ⟨a, fun j r hj hr => ?_⟩
    obtain ⟨p, hp, rfl⟩ := List.mem_map.1 hj
    have := b _ (d p hp)
    cases hd : (Prog.exec c (pieces.flatMap Prod.snd)).1 p.1 with
    | done r' => rw [hd] at this hr; cases hr; exact this.2
    | step n u => rw [hd] at hr; cases hr
  induction pieces with
  | nil => exact fun c h1 _ h3 _ => ⟨h1, h3, fun p hp => absurd hp (by simp)⟩
  | cons p rest ih =>
    obtain ⟨o, l⟩ := p
    intro c h1 h2 h3 h4
    obtain ⟨ho, hl, ⟨r, hr⟩, h5⟩ := h4
    obtain ⟨k1, k2, k3⟩ := one_piece B o ho (fun r v' => v' = v ∧ G o r) l c hl (by rw [h1]; exact h3 o ho) h2
    have hend : (Prog.exec c l).2.psp = v ∧ Own (fun r v' => v' = v ∧ G o r) v ((Prog.exec c l).1 o) := by
      cases hd : (Prog.exec c l).1 o with
      | done r' => rw [hd] at k1; exact ⟨k1.1, rfl, k1.2⟩
      | step n u => rw [hd] at hr; cases hr
    have := ih (Prog.exec c l) hend.1 k2 (fun j hj => by
      by_cases hjo : j = o
      · subst hjo; exact hend.2
      · rw [k3 j hj hjo]; exact h3 j hj) h5
    rw [List.flatMap_cons, exec_append]
    refine ⟨this.1, this.2.1, fun p hp => ?_⟩
    rcases List.mem_cons.1 hp with rfl | hp
    · exact ho
    · exact this.2.2 p hp

omit [PyNum α] in
/-- C156, for several threads with blocks (with files of their own or temporary ones, any bodies) that take care to have
them one at a time, and any number of threads in `B` that do not change PSP_CONFIG_FILE: under every such schedule the variable
is at the end what it was at the start. -/
theorem C156_one_at_a_time_restored [DecidableEq ι] (te : TestEnv α) (options : ι → Option (List (String × Conf)))
    (path : ι → Option String) (body : ι → String → Prog (TestState α) β) (B : ι → Prop) (P : ι → Prog (TestState α) β)
    (hP : ∀ j, ¬ B j → P j = overrideConfigP te (options j) (path j) (body j)) (hB : ∀ j, B j → KeepsVariable (P j))
    (s : TestState α) (pieces : List (ι × List ι)) (h : OneAtATime B (P, s) pieces) :
    (Prog.exec (P, s) (pieces.flatMap Prod.snd)).2.psp = s.psp := by
  refine (one_at_a_time B s.psp (fun _ _ => True) pieces (P, s) rfl hB (fun j hj => ?_) h).1
  dsimp only
  rw [hP j hj]
  exact own_override te (options j) (path j) (body j) s.psp (fun _ _ => True) (fun _ => True) (fun _ _ _ => ⟨fun _ => trivial,
    fun _ _ => trivial, fun _ _ => trivial⟩) (fun p _ => own_any _ _) (fun _ _ => trivial)

omit [PyNum α] in
/-- C156, likewise: each of these threads has its own configuration in its block. -/
theorem C156_one_at_a_time_in_force [DecidableEq ι] (te : TestEnv α) (options : ι → Option (List (String × Conf)))
    (path : ι → String) (body : ι → String → Prog (TestState α) β) (B : ι → Prop) (P : ι → Prog (TestState α) β)
    (hP : ∀ j, ¬ B j → P j = overrideConfigP te (options j) (some (path j)) (body j)) (hB : ∀ j, B j → KeepsVariable (P j))
    (R : ι → Py β → Prop) (hb : ∀ j, Own (fun r v => v = some (path j) ∧ R j r) (some (path j)) (body j (path j)))
    (s : TestState α) (pieces : List (ι × List ι)) (h : OneAtATime B (P, s) pieces) (j : ι) (r : Py β)
    (hj : j ∈ pieces.map Prod.fst)
    (hr : ((Prog.exec (P, s) (pieces.flatMap Prod.snd)).1 j).result? = some r) : R j r := by
  refine (one_at_a_time B s.psp R pieces (P, s) rfl hB (fun j hj => ?_) h).2 j r hj hr
  dsimp only
  rw [hP j hj]
  refine own_override te (options j) (some (path j)) (body j) s.psp (fun r v => v = some (path j) ∧ R j r) (R j)
    (fun r v hv => ?_) (fun q hq => ?_) (fun h => by cases h)
  · exact ⟨fun _ => hv.2, fun h => (by rw [h] at hv; cases hv.1), fun h => (by rw [h] at hv; cases hv.1)⟩
  · rcases hq with h | h
    · cases h
    · cases h; exact hb j

/-- two threads with blocks and one that does other work: the first block, with some of the other work in between, then the second -/
example (te : TestEnv α) (s : TestState α) :
    ∃ pieces : List (Fin 3 × List (Fin 3)),
      OneAtATime (· = 2) ((fun i : Fin 3 => if i = 2 then otherWork else
        overrideConfigP te none (some (if i = 0 then "/etc/p.yaml" else "/etc/q.yaml")) seeConfig), s) pieces ∧
      pieces.map Prod.fst = [0, 1] := by
  obtain ⟨w, v, l, f⟩ := s
  refine ⟨[(0, [0, 2, 0, 0, 2, 0]), (1, [1, 1, 1, 1])], ?_, rfl⟩
  cases v <;> exact ⟨by decide, by decide, ⟨_, rfl⟩, by decide, by decide, ⟨_, rfl⟩, trivial⟩

end Verif.Props
