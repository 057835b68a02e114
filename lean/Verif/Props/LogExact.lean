import Verif.Props.LogOutput
import Mathlib.Data.List.Induction
/-
Properties C36 and C103, completed: exactly which histories leave the console handler attached.
-/
namespace Verif.Props
open Model Spec

/-- a call that switches logging on -/
def SwitchesOn (c : LogCall) : Prop := (∃ l, c = .on l) ∨ c = .debug

/-- In the history logging was switched on, and never off after that. -/
def OnAndNeverOffAgain (cs : List LogCall) : Prop :=
  (∃ c ∈ cs, SwitchesOn c) ∧ ∀ pre post, cs = pre ++ .off :: post → ∀ c ∈ pre, ¬ SwitchesOn c

theorem runLog_snoc (cs : List LogCall) (c : LogCall) (s : LogState) : runLog (cs ++ [c]) s = c.run (runLog cs s) := by
  simp [runLog]

/-- no `logging_off` after a switching on -/
def NoOffAfterOn (cs : List LogCall) : Prop := ∀ pre post, cs = pre ++ .off :: post → ∀ c ∈ pre, ¬ SwitchesOn c

theorem noOff_snoc (cs : List LogCall) (c : LogCall) :
    NoOffAfterOn (cs ++ [c]) ↔ NoOffAfterOn cs ∧ (c = .off → ∀ c' ∈ cs, ¬ SwitchesOn c') := by
  constructor
  · intro h
    refine ⟨fun pre post e => h pre (post ++ [c]) (by rw [e]; simp), ?_⟩
    rintro rfl
    exact h cs [] rfl
  · rintro ⟨h1, h2⟩ pre post e
    rcases List.eq_nil_or_concat post with rfl | ⟨post', d, rfl⟩
    · have := List.append_inj' e rfl
      obtain ⟨rfl, h⟩ := this
      exact h2 (List.cons.inj h).1
    · rw [List.concat_eq_append] at e
      have e' : cs ++ [c] = (pre ++ .off :: post') ++ [d] := by rw [e]; simp
      obtain ⟨rfl, _⟩ := List.append_inj' e' rfl
      exact h1 pre post' rfl

theorem not_switchesOn_off : ¬ SwitchesOn .off := by
  rintro (⟨l, h⟩ | h) <;> cases h

/-- the flag and the console handler after any history -/
theorem log_exact (s : LogState) (hs : Fresh s) (cs : List LogCall) :
    ((runLog cs s).isLoggingOn = true ↔ ∃ c ∈ cs, SwitchesOn c) ∧
    (0 < consoleHandlers (runLog cs s) ↔ (∃ c ∈ cs, SwitchesOn c) ∧ NoOffAfterOn cs) := by
  induction cs using List.reverseRecOn with
  | nil =>
    have : consoleHandlers s = 0 := by
      unfold consoleHandlers
      rw [List.length_eq_zero_iff, List.filter_eq_nil_iff]
      intro a ha; simpa using hs.2 a ha
    show (s.isLoggingOn = true ↔ _) ∧ (0 < consoleHandlers s ↔ _)
    rw [this, hs.1]
    simp
  | append_singleton cs c ih =>
    rw [runLog_snoc, noOff_snoc]
    generalize runLog cs s = t at ih
    obtain ⟨ih1, ih2⟩ := ih
    have hon : ∀ l, (loggingOn l t).isLoggingOn = true ∧ (0 < consoleHandlers (loggingOn l t) ↔ NoOffAfterOn cs) := by
      intro l
      cases hf : t.isLoggingOn with
      | true =>
        refine ⟨by unfold loggingOn; simp [hf], ?_⟩
        have : consoleHandlers (loggingOn l t) = consoleHandlers t := by
          unfold consoleHandlers loggingOn
          simp only [consoleHandlers_map, hf, if_true]
        rw [this, ih2]
        exact ⟨fun h => h.2, fun h => ⟨ih1.1 hf, h⟩⟩
      | false =>
        refine ⟨by unfold loggingOn; simp [hf], ?_⟩
        have hno : ¬ ∃ c ∈ cs, SwitchesOn c := by rw [← ih1, hf]; simp
        have h1 : 0 < consoleHandlers (loggingOn l t) := by
          unfold consoleHandlers loggingOn
          simp only [consoleHandlers_map, hf, Bool.false_eq_true, if_false]
          simp [List.filter_append]
        refine ⟨fun _ pre post e c' hc' hsw => hno ⟨c', by rw [e]; simp [hc'], hsw⟩, fun _ => h1⟩
    have hexists : (∃ c' ∈ cs ++ [c], SwitchesOn c') ↔ (∃ c' ∈ cs, SwitchesOn c') ∨ SwitchesOn c := by
      simp [or_and_right, exists_or]
    rw [hexists]
    have hsame : c ≠ .off → (¬ SwitchesOn c) → (c.run t).isLoggingOn = t.isLoggingOn →
        consoleHandlers (c.run t) = consoleHandlers t →
        ((c.run t).isLoggingOn = true ↔ (∃ c' ∈ cs, SwitchesOn c') ∨ SwitchesOn c) ∧
        (0 < consoleHandlers (c.run t) ↔ ((∃ c' ∈ cs, SwitchesOn c') ∨ SwitchesOn c) ∧
          NoOffAfterOn cs ∧ (c = .off → ∀ c' ∈ cs, ¬ SwitchesOn c')) := by
      intro h1 h2 h3 h4
      rw [h3, h4, ih1, ih2]
      simp [h1, h2]
    cases c with
    | on l =>
      obtain ⟨h1, h2⟩ := hon l
      have hsw : SwitchesOn (.on l) := Or.inl ⟨l, rfl⟩
      refine ⟨⟨fun _ => Or.inr hsw, fun _ => h1⟩, ?_⟩
      show 0 < consoleHandlers (loggingOn l t) ↔ _
      rw [h2]
      exact ⟨fun h => ⟨Or.inr hsw, h, fun e => (by cases e)⟩, fun h => h.2.1⟩
    | debug =>
      obtain ⟨h1, h2⟩ := hon DEBUG
      have hsw : SwitchesOn .debug := Or.inr rfl
      refine ⟨⟨fun _ => Or.inr hsw, fun _ => h1⟩, ?_⟩
      show 0 < consoleHandlers (loggingOn DEBUG t) ↔ _
      rw [h2]
      exact ⟨fun h => ⟨Or.inr hsw, h, fun e => (by cases e)⟩, fun h => h.2.1⟩
    | off =>
      constructor
      · show t.isLoggingOn = true ↔ _
        rw [ih1]
        exact ⟨Or.inl, fun h => h.resolve_right not_switchesOn_off⟩
      · have h0 : consoleHandlers (LogCall.off.run t) = 0 := by
          simp [LogCall.run, loggingOff, consoleHandlers]
        rw [h0]
        refine ⟨fun h => absurd h (by simp), ?_⟩
        rintro ⟨h1, -, h2⟩
        obtain ⟨c', hc', hsw⟩ := h1.resolve_right not_switchesOn_off
        exact absurd hsw (h2 rfl c' hc')
    | get n =>
      refine hsame (by simp) (by rintro (⟨l, h⟩ | h) <;> cases h) ?_ ?_
      · simp only [LogCall.run, getLogger]
        split <;> split <;> rfl
      · simp only [LogCall.run, getLogger]
        split
        · split
          · rename_i h; simp [consoleHandlers, h]
          · rfl
        · split <;> rfl
    | appAddHandler l =>
      refine hsame (by simp) (by rintro (⟨l, h⟩ | h) <;> cases h) rfl ?_
      simp [LogCall.run, consoleHandlers, List.filter_append]
    | appRemoveOwnHandlers =>
      refine hsame (by simp) (by rintro (⟨l, h⟩ | h) <;> cases h) rfl ?_
      unfold consoleHandlers LogCall.run
      simp only [List.filter_filter]
      congr 1
      apply List.filter_congr
      intro x _
      cases x.kind <;> simp
    | appSetLevel l =>
      exact hsame (by simp) (by rintro (⟨l, h⟩ | h) <;> cases h) rfl rfl

/-- C36, exactly: after any history of calls the console handler is attached if and only if
logging was switched on and never off after that; there is never more than one.  So
`logging_on` works if and only if logging has never been switched off again. -/
theorem C36_exactly (s : LogState) (hs : Fresh s) (cs : List LogCall) :
    (OnAndNeverOffAgain cs → consoleHandlers (runLog cs s) = 1) ∧
    (¬ OnAndNeverOffAgain cs → consoleHandlers (runLog cs s) = 0) := by
  have h1 := C35_at_most_one_console s hs cs
  have h2 := (log_exact s hs cs).2
  constructor
  · intro h
    have := h2.2 h
    omega
  · intro h
    have : ¬ 0 < consoleHandlers (runLog cs s) := fun hp => h (h2.1 hp)
    omega

example : OnAndNeverOffAgain [.off, .get "x", .debug, .appSetLevel 5, .on 10] ∧
    ¬ OnAndNeverOffAgain [.on 10, .off, .on 10, .debug] := by
  constructor
  · refine ⟨⟨.debug, by simp, Or.inr rfl⟩, ?_⟩
    intro pre post e c hc
    match pre, e with
    | [], _ => simp at hc
    | [_], e => simp at e
    | [_, _], e => simp at e
    | [_, _, _], e => simp at e
    | [_, _, _, _], e => simp at e
    | _ :: _ :: _ :: _ :: _ :: _, e => simp at e
  · intro h
    exact h.2 [.on 10] [.on 10, .debug] rfl _ (by simp) (Or.inl ⟨10, rfl⟩)

/-- C103, exactly: after any history that ends with `logging_on(level)`, a record on any logger is
printed on the console exactly once if its level is at least the one requested and logging was
never switched off after it was switched on; in all other cases not at all. -/
theorem C103_exactly (chain : String → List String) (s : LogState) (hs : Fresh s)
    (hnamed : ∀ n, ∀ h ∈ s.named n, h.kind ≠ .console) (cs : List LogCall) (l : Int) (name : String) (level : Int) :
    (OnAndNeverOffAgain (cs ++ [.on l]) → l ≤ level →
      consoleLines (outputs chain (runLog (cs ++ [.on l]) s) name level) = 1) ∧
    ((¬ OnAndNeverOffAgain (cs ++ [.on l]) ∨ level < l) →
      consoleLines (outputs chain (runLog (cs ++ [.on l]) s) name level) = 0) := by
  have hex := C36_exactly s hs (cs ++ [.on l])
  have hlev := C35_levels_after_on s cs l
  have hnm := named_history (cs ++ [.on l]) s
  generalize runLog (cs ++ [.on l]) s = t at *
  have count : l ≤ level → handlersMet chain t name ≠ [] →
      consoleLines (outputs chain t name level) = consoleHandlers t := by
    intro hl hmet
    unfold outputs
    rw [hlev.1, if_neg (by omega), if_neg hmet, consoleLines_handlers]
    unfold handlersMet
    rw [List.filter_filter, List.filter_append, List.length_append]
    have h1 : ((chain name).flatMap t.named).filter (fun h => decide (h.kind = .console) && decide (h.level ≤ level)) = [] := by
      rw [List.filter_eq_nil_iff]
      intro h hh
      obtain ⟨n, _, hn⟩ := List.mem_flatMap.1 hh
      rcases hnm n h hn with h1 | h1
      · simp [hnamed n h h1]
      · simp [h1]
    have h2 : t.rootHandlers.filter (fun h => decide (h.kind = .console) && decide (h.level ≤ level)) =
        t.rootHandlers.filter fun h => h.kind = .console := by
      apply List.filter_congr
      intro h hh
      simp [hlev.2 h hh, hl]
    rw [h1, h2]
    simp [consoleHandlers]
  constructor
  · intro hon hl
    have hone := hex.1 hon
    have hroot : t.rootHandlers ≠ [] := by
      intro he
      unfold consoleHandlers at hone
      rw [he] at hone
      simp at hone
    rw [count hl (by
      unfold handlersMet
      intro he
      exact hroot (List.append_eq_nil_iff.1 he).2), hone]
  · rintro (hoff | hl)
    · by_cases hl : l ≤ level
      · by_cases hmet : handlersMet chain t name = []
        · unfold outputs
          rw [hlev.1, if_neg (by omega), if_pos hmet]
          split <;> rfl
        · rw [count hl hmet, hex.2 hoff]
      · unfold outputs
        rw [hlev.1, if_pos (by omega)]; rfl
    · unfold outputs
      rw [hlev.1, if_pos hl]; rfl

example : consoleLines (outputs exampleChain (runLog ([.on 10, .off] ++ [.on 20]) {}) "pyspectral.utils" 50) = 0 :=
  (C103_exactly exampleChain {} ⟨rfl, by simp⟩ (by simp) [.on 10, .off] 20 _ 50).2
    (Or.inl fun h => h.2 [.on 10] [.on 20] rfl _ (by simp) (Or.inl ⟨10, rfl⟩))

end Verif.Props
