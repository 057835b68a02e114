import Verif.Model.Logging
import Mathlib.Data.List.Basic
import Mathlib.Tactic.Common
/-
Properties C35 and C36: switching logging on and off.
-/
namespace Verif.Props
open Model

/-- Number of console handlers on the root logger. -/
def consoleHandlers (s : LogState) : Nat := (s.rootHandlers.filter fun h => h.kind = .console).length

/-- A logging state before the library was used: the application may have any handlers. -/
def Fresh (s : LogState) : Prop := s.isLoggingOn = false ∧ ∀ h ∈ s.rootHandlers, h.kind ≠ .console

theorem consoleHandlers_map (l : List Handler) (level : Int) :
    ((l.map fun h => { h with level := level }).filter fun h => h.kind = .console).length =
      (l.filter fun h => h.kind = .console).length := by
  rw [List.filter_map, List.length_map]
  rfl

theorem run_invariant (c : LogCall) (s : LogState)
    (h : consoleHandlers s ≤ 1 ∧ (s.isLoggingOn = false → consoleHandlers s = 0)) :
    consoleHandlers (c.run s) ≤ 1 ∧ ((c.run s).isLoggingOn = false → consoleHandlers (c.run s) = 0) := by
  have hon : ∀ l, consoleHandlers (loggingOn l s) ≤ 1 ∧
      ((loggingOn l s).isLoggingOn = false → consoleHandlers (loggingOn l s) = 0) := by
    intro l
    unfold consoleHandlers loggingOn
    simp only [consoleHandlers_map]
    cases hs : s.isLoggingOn with
    | true => simp only [hs, if_true]; exact ⟨h.1, by simp⟩
    | false =>
      have := h.2 hs
      unfold consoleHandlers at this
      simp [hs, List.filter_append, this]
  cases c with
  | on l => exact hon l
  | debug => exact hon DEBUG
  | off => simp [LogCall.run, loggingOff, consoleHandlers]
  | get n =>
    simp only [LogCall.run, getLogger]
    split
    · split
      · simp [consoleHandlers]
      · exact h
    · split
      · exact h
      · exact h
  | appAddHandler l => simpa [LogCall.run, consoleHandlers, List.filter_append] using h
  | appRemoveOwnHandlers =>
    have hf : consoleHandlers (LogCall.appRemoveOwnHandlers.run s) = consoleHandlers s := by
      unfold consoleHandlers LogCall.run
      simp only [List.filter_filter]
      congr 1
      apply List.filter_congr
      intro x _
      cases x.kind <;> simp
    rw [hf]; exact h
  | appSetLevel l => exact h

/-- C35: over any history of calls at most one console handler is attached to the root logger. -/
theorem C35_at_most_one_console (s : LogState) (hs : Fresh s) (cs : List LogCall) :
    consoleHandlers (runLog cs s) ≤ 1 := by
  have h0 : consoleHandlers s ≤ 1 ∧ (s.isLoggingOn = false → consoleHandlers s = 0) := by
    have : consoleHandlers s = 0 := by
      unfold consoleHandlers
      rw [List.length_eq_zero_iff, List.filter_eq_nil_iff]
      intro a ha; simpa using hs.2 a ha
    simp [this]
  have key : ∀ (cs : List LogCall) (s : LogState),
      (consoleHandlers s ≤ 1 ∧ (s.isLoggingOn = false → consoleHandlers s = 0)) →
      consoleHandlers (runLog cs s) ≤ 1 := by
    intro cs
    induction cs with
    | nil => intro s h; exact h.1
    | cons c cs ih => intro s h; exact ih _ (run_invariant c s h)
  exact key cs s h0

/-- C35: after `logging_on(level)`, at any point of any history, the root logger and all its
handlers have the requested level. -/
theorem C35_levels_after_on (s : LogState) (cs : List LogCall) (level : Int) :
    (runLog (cs ++ [.on level]) s).rootLevel = level ∧
    ∀ h ∈ (runLog (cs ++ [.on level]) s).rootHandlers, h.level = level := by
  have : runLog (cs ++ [.on level]) s = loggingOn level (runLog cs s) := by
    simp [runLog, LogCall.run]
  rw [this]
  refine ⟨rfl, fun h hh => ?_⟩
  unfold loggingOn at hh
  simp only [List.mem_map] at hh
  obtain ⟨x, _, rfl⟩ := hh
  rfl

/-- C35: `logging_on` never removes a handler. -/
theorem C35_on_keeps_handlers (s : LogState) (level : Int) :
    (s.rootHandlers.map Handler.kind) <+: ((loggingOn level s).rootHandlers.map Handler.kind) := by
  unfold loggingOn
  simp only [List.map_map, Function.comp_def]
  split <;> simp

example : consoleHandlers (runLog [.on 30, .debug, .get "", .on 20] { rootHandlers := [⟨.foreign, 0⟩] }) = 1 := by
  decide

/-- C36 is false: after on, off, on the root logger has no console handler, because
`logging_off` leaves the flag set. -/
theorem C36_on_off_on_stays_silent (l₁ l₂ : Int) :
    consoleHandlers (runLog [.on l₁, .off, .on l₂] {}) = 0 := by
  simp [runLog, LogCall.run, loggingOn, loggingOff, consoleHandlers]

theorem console_kept (c : LogCall) (hc : c ≠ .off) (s : LogState) (h : 0 < consoleHandlers s) :
    0 < consoleHandlers (c.run s) := by
  have hon : ∀ l, 0 < consoleHandlers (loggingOn l s) := by
    intro l
    unfold consoleHandlers at h
    unfold consoleHandlers loggingOn
    simp only [consoleHandlers_map]
    split
    · exact h
    · simp [List.filter_append]
  cases c with
  | on l => exact hon l
  | debug => exact hon _
  | off => exact absurd rfl hc
  | get n =>
    simp only [LogCall.run, getLogger]
    split
    · split
      · rename_i he; simp [consoleHandlers, he] at h
      · exact h
    · split <;> exact h
  | appAddHandler l =>
    simp only [consoleHandlers, LogCall.run, List.filter_append, List.length_append] at *
    omega
  | appRemoveOwnHandlers =>
    have hf : consoleHandlers (LogCall.appRemoveOwnHandlers.run s) = consoleHandlers s := by
      unfold consoleHandlers LogCall.run
      simp only [List.filter_filter]
      congr 1
      apply List.filter_congr
      intro x _
      cases x.kind <;> simp
    rw [hf]; exact h
  | appSetLevel l => exact h

theorem runLog_append (a b : List LogCall) (s : LogState) : runLog (a ++ b) s = runLog b (runLog a s) := by
  simp [runLog]

/-- C36, part that holds: if `logging_off` was never called after logging was first switched
on, a console handler is attached after `logging_on`.  Missing: histories with `logging_off`
in between. -/
theorem C36_on_partial (s : LogState) (hs : Fresh s) (before after : List LogCall)
    (hbefore : ∀ c ∈ before, ∀ l, c ≠ .on l ∧ c ≠ .debug) (hafter : ∀ c ∈ after, c ≠ .off)
    (l₁ l₂ : Int) :
    consoleHandlers (runLog (before ++ [.on l₁] ++ after ++ [.on l₂]) s) = 1 := by
  have hle := C35_at_most_one_console s hs (before ++ [.on l₁] ++ after ++ [.on l₂])
  have hflag : ∀ (cs : List LogCall) (s : LogState), s.isLoggingOn = false →
      (∀ c ∈ cs, ∀ l, c ≠ .on l ∧ c ≠ .debug) → (runLog cs s).isLoggingOn = false := by
    intro cs
    induction cs with
    | nil => intro s h _; exact h
    | cons c cs ih =>
      intro s h hc
      refine ih _ ?_ (fun c' hc' => hc c' (by simp [hc']))
      have h1 := hc c (by simp)
      cases c with
      | on l => exact absurd rfl (h1 l).1
      | debug => exact absurd rfl (h1 0).2
      | off => exact h
      | get n => simp only [LogCall.run, getLogger]; split <;> split <;> exact h
      | appAddHandler l => exact h
      | appRemoveOwnHandlers => exact h
      | appSetLevel l => exact h
  have hkeep : ∀ (cs : List LogCall) (s : LogState), 0 < consoleHandlers s → (∀ c ∈ cs, c ≠ .off) →
      0 < consoleHandlers (runLog cs s) := by
    intro cs
    induction cs with
    | nil => intro s h _; exact h
    | cons c cs ih =>
      intro s h hc
      exact ih _ (console_kept c (hc c (by simp)) s h) (fun c' hc' => hc c' (by simp [hc']))
  have h1 : 0 < consoleHandlers (runLog (before ++ [.on l₁]) s) := by
    rw [runLog_append]
    have hf := hflag before s hs.1 hbefore
    generalize runLog before s = t at *
    show 0 < consoleHandlers (loggingOn l₁ t)
    unfold consoleHandlers loggingOn
    simp only [consoleHandlers_map]
    simp [hf, List.filter_append]
  have h2 : 0 < consoleHandlers (runLog (before ++ [.on l₁] ++ (after ++ [.on l₂])) s) := by
    rw [runLog_append]
    refine hkeep _ _ h1 ?_
    intro c hc
    rcases List.mem_append.1 hc with h | h
    · exact hafter c h
    · simp at h; subst h; simp
  rw [← List.append_assoc] at h2
  omega

example : consoleHandlers (runLog ([.off, .get "x"] ++ [.on 30] ++ [.debug, .get ""] ++ [.on 20]) {}) = 1 :=
  C36_on_partial {} ⟨rfl, by simp⟩ _ _ (by intro c hc l; simp at hc; rcases hc with rfl | rfl <;> simp)
    (by intro c hc; simp at hc; rcases hc with rfl | rfl <;> simp) 30 20

end Verif.Props
