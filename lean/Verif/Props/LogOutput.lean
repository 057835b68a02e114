import Verif.Props.Logging
import Verif.Spec.Logging
/-
Properties C101 to C103: what is printed after `get_logger`, `logging_off` and `logging_on`.
-/
namespace Verif.Props
open Model Verif.Spec

/-- `get_logger` on the root logger or a named one: the handlers of that logger. -/
def handlersOf (s : LogState) (name : String) : List Handler :=
  if name = "" ∨ name = "root" then s.rootHandlers else s.named name

/-- Both names denote the root logger, or they are the same name. -/
def SameLogger (a b : String) : Prop := a = b ∨ ((a = "" ∨ a = "root") ∧ (b = "" ∨ b = "root"))

/-- C35: after `debug_on()` the root logger and all its handlers have the level DEBUG (10). -/
theorem C35_levels_after_debug (s : LogState) (cs : List LogCall) :
    (runLog (cs ++ [.debug]) s).rootLevel = 10 ∧
    ∀ h ∈ (runLog (cs ++ [.debug]) s).rootHandlers, h.level = 10 := by
  have h := C35_levels_after_on s cs 10
  rw [runLog_append] at h ⊢
  exact h

example : (runLog ([.on 30] ++ [.debug]) { rootHandlers := [⟨.foreign, 0⟩] }).rootHandlers.map Handler.level = [10, 10] := by
  decide

/-- C101: `get_logger(name)` leaves a logger that has handlers as it is, and gives one without
handlers a single NullHandler; the level, the flag and all other loggers stay as they are. -/
theorem C101_get_logger (s : LogState) (name : String) :
    (handlersOf s name ≠ [] → handlersOf (runLog [.get name] s) name = handlersOf s name) ∧
    (handlersOf s name = [] → (handlersOf (runLog [.get name] s) name).map Handler.kind = [.null]) ∧
    (∀ other, ¬ SameLogger name other → handlersOf (runLog [.get name] s) other = handlersOf s other) ∧
    (runLog [.get name] s).rootLevel = s.rootLevel ∧
    (runLog [.get name] s).isLoggingOn = s.isLoggingOn := by
  have hrun : runLog [.get name] s = getLogger name s := rfl
  rw [hrun]
  by_cases hroot : name = "" ∨ name = "root"
  · by_cases he : s.rootHandlers = []
    · have hg : getLogger name s = { s with rootHandlers := [⟨.null, NOTSET⟩] } := by
        simp [getLogger, hroot, he]
      rw [hg]
      refine ⟨fun h => absurd (by simp [handlersOf, hroot, he]) h, fun _ => by simp [handlersOf, hroot], ?_, rfl, rfl⟩
      intro other hno
      have : ¬ (other = "" ∨ other = "root") := fun h => hno (.inr ⟨hroot, h⟩)
      simp [handlersOf, this]
    · have hg : getLogger name s = s := by simp [getLogger, hroot, he]
      rw [hg]
      exact ⟨fun _ => rfl, fun h => absurd (by simpa [handlersOf, hroot] using h) he, fun _ _ => rfl, rfl, rfl⟩
  · by_cases he : s.named name = []
    · have hg : getLogger name s =
          { s with named := fun n => if n = name then [⟨.null, NOTSET⟩] else s.named n } := by
        simp [getLogger, hroot, he]
      rw [hg]
      refine ⟨fun h => absurd (by simp [handlersOf, hroot, he]) h, fun _ => by simp [handlersOf, hroot], ?_, rfl, rfl⟩
      intro other hne
      have hon : other ≠ name := fun e => hne (.inl e.symm)
      simp [handlersOf, hon]
    · have hg : getLogger name s = s := by simp [getLogger, hroot, he]
      rw [hg]
      exact ⟨fun _ => rfl, fun h => absurd (by simpa [handlersOf, hroot] using h) he, fun _ _ => rfl, rfl, rfl⟩

example : (handlersOf (runLog [.get "pyspectral.utils"] { rootHandlers := [⟨.console, 10⟩] }) "pyspectral.utils").map
    Handler.kind = [.null] :=
  (C101_get_logger _ _).2.1 (by decide)

theorem named_run (c : LogCall) (s : LogState) (n : String) (h : Handler) (hh : h ∈ (c.run s).named n) :
    h ∈ s.named n ∨ h.kind = .null := by
  cases c with
  | on l =>
    have : (LogCall.run (.on l) s).named = s.named := by
      simp only [LogCall.run, loggingOn]; split <;> rfl
    rw [this] at hh; exact .inl hh
  | debug =>
    have : (LogCall.run .debug s).named = s.named := by
      simp only [LogCall.run, debugOn, loggingOn]; split <;> rfl
    rw [this] at hh; exact .inl hh
  | get m =>
    simp only [LogCall.run, getLogger] at hh
    split at hh
    · split at hh <;> exact .inl hh
    · split at hh
      · simp only at hh
        split at hh
        · simp at hh; right; rw [hh]
        · exact .inl hh
      · exact .inl hh
  | _ => exact .inl hh

/-- No call adds anything but NullHandlers to a named logger. -/
theorem named_history (cs : List LogCall) : ∀ (s : LogState) (n : String) (h : Handler),
    h ∈ (runLog cs s).named n → h ∈ s.named n ∨ h.kind = .null := by
  induction cs with
  | nil => intro s n h hh; exact .inl hh
  | cons c cs ih =>
    intro s n h hh
    rcases ih (c.run s) n h hh with h1 | h1
    · exact named_run c s n h h1
    · exact .inr h1

theorem root_gets (cs : List LogCall) (hget : ∀ c ∈ cs, ∃ n, c = .get n) : ∀ (s : LogState),
    (∀ h ∈ s.rootHandlers, h.kind = .null) → ∀ h ∈ (runLog cs s).rootHandlers, h.kind = .null := by
  induction cs with
  | nil => intro s hs; exact hs
  | cons c cs ih =>
    intro s hs
    refine ih (fun c' hc' => hget c' (by simp [hc'])) (c.run s) ?_
    obtain ⟨n, rfl⟩ := hget c (by simp)
    intro h hh
    simp only [LogCall.run, getLogger] at hh
    split at hh
    · split at hh
      · simp at hh; rw [hh]
      · exact hs h hh
    · split at hh <;> exact hs h hh

theorem outputs_null (chain : String → List String) (s : LogState) (name : String) (level : Int)
    (hsome : handlersMet chain s name ≠ []) (hnull : ∀ h ∈ handlersMet chain s name, h.kind = .null) :
    outputs chain s name level = [] := by
  unfold outputs
  split
  · rfl
  · rw [List.flatMap_eq_nil_iff]
    intro h hh
    have := hnull h (List.mem_filter.1 hh).1
    unfold outputOf
    rw [this]

theorem get_nonempty (c : LogCall) (hget : ∃ n, c = .get n) (s : LogState) (n : String)
    (h : handlersOf s n ≠ []) : handlersOf (c.run s) n ≠ [] := by
  obtain ⟨m, rfl⟩ := hget
  have hC := C101_get_logger s m
  have hrun : LogCall.run (.get m) s = runLog [.get m] s := rfl
  rw [hrun]
  by_cases hsame : SameLogger m n
  · have e : ∀ t : LogState, handlersOf t n = handlersOf t m := by
      intro t
      rcases hsame with rfl | ⟨h1, h2⟩
      · rfl
      · simp [handlersOf, h1, h2]
    rw [e] at h ⊢
    rw [hC.1 h]
    exact h
  · rw [hC.2.2.1 n hsame]
    exact h

theorem gets_nonempty (cs : List LogCall) (hget : ∀ c ∈ cs, ∃ n, c = .get n) (n : String) : ∀ (s : LogState),
    handlersOf s n ≠ [] → handlersOf (runLog cs s) n ≠ [] := by
  induction cs with
  | nil => intro s h; exact h
  | cons c cs ih =>
    intro s h
    exact ih (fun c' hc' => hget c' (by simp [hc'])) (c.run s) (get_nonempty c (hget c (by simp)) s n h)

theorem met_of_handlersOf {chain : String → List String} {s : LogState} {name : String}
    (hchain : name ∈ chain name) (h : handlersOf s name ≠ []) : handlersMet chain s name ≠ [] := by
  unfold handlersOf at h
  unfold handlersMet
  intro he
  rw [List.append_eq_nil_iff] at he
  split at h
  · exact h he.2
  · exact h (List.flatMap_eq_nil_iff.1 he.1 name hchain)

/-- C101: a program that only asks for loggers stays silent: once `get_logger(name)` has been
called, no record on that logger, of any level, makes any output (not even through the handler
of last resort), when nobody else had attached a handler that prints. -/
theorem C101_silent (chain : String → List String) (s : LogState) (name : String) (before after : List LogCall)
    (hchain : name ∈ chain name)
    (hroot : ∀ h ∈ s.rootHandlers, h.kind = .null) (hnamed : ∀ n, ∀ h ∈ s.named n, h.kind = .null)
    (hb : ∀ c ∈ before, ∃ n, c = .get n) (ha : ∀ c ∈ after, ∃ n, c = .get n) (level : Int) :
    outputs chain (runLog (before ++ [.get name] ++ after) s) name level = [] := by
  have hall : ∀ c ∈ before ++ [.get name] ++ after, ∃ n, c = LogCall.get n := by
    intro c hc
    simp only [List.mem_append, List.mem_singleton] at hc
    rcases hc with (h | h) | h
    · exact hb c h
    · exact ⟨name, h⟩
    · exact ha c h
  refine outputs_null chain _ name level ?_ ?_
  · refine met_of_handlersOf hchain ?_
    rw [runLog_append, runLog_append]
    refine gets_nonempty after ha name _ ?_
    generalize runLog before s = t
    have hC := C101_get_logger t name
    by_cases ht : handlersOf t name = []
    · intro he
      have := hC.2.1 ht
      rw [he] at this
      simp at this
    · rw [hC.1 ht]; exact ht
  · intro h hh
    unfold handlersMet at hh
    rcases List.mem_append.1 hh with hh | hh
    · obtain ⟨n, _, hn⟩ := List.mem_flatMap.1 hh
      rcases named_history _ s n h hn with h1 | h1
      · exact hnamed n h h1
      · exact h1
    · exact root_gets _ hall s hroot h hh

/-- the named ancestors of the loggers of pyspectral -/
def exampleChain (name : String) : List String := if name = "pyspectral.utils" then ["pyspectral.utils", "pyspectral"] else [name]

example : outputs exampleChain (runLog [] {}) "pyspectral.utils" 40 = [.lastResort] := by decide
example : outputs exampleChain (runLog ([] ++ [.get "pyspectral.utils"] ++ [.get ""]) {}) "pyspectral.utils" 40 = [] :=
  C101_silent exampleChain {} _ [] [.get ""] (by decide) (by simp) (by simp) (by simp)
    (by intro c hc; simp at hc; exact ⟨"", hc⟩) 40

/-- C102: after `logging_off()`, at any point of any history, no record on any logger makes
output, whatever was attached to the root logger before, as long as nobody attached a printing
handler to the logger itself; asking for loggers does not change that. -/
theorem C102_off_silences (chain : String → List String) (s : LogState) (cs after : List LogCall)
    (hnamed : ∀ n, ∀ h ∈ s.named n, h.kind = .null) (ha : ∀ c ∈ after, ∃ n, c = .get n)
    (name : String) (level : Int) :
    outputs chain (runLog (cs ++ [.off] ++ after) s) name level = [] := by
  have hoff : ∀ h ∈ (runLog (cs ++ [.off]) s).rootHandlers, h.kind = .null := by
    rw [runLog_append]
    intro h hh
    have : h ∈ ([⟨.null, NOTSET⟩] : List Handler) := hh
    simp at this; rw [this]
  have hne : handlersOf (runLog (cs ++ [.off]) s) "" ≠ [] := by
    rw [runLog_append]
    show handlersOf (loggingOff _) "" ≠ []
    simp [handlersOf, loggingOff]
  refine outputs_null chain _ name level ?_ ?_
  · have h2 := gets_nonempty after ha "" _ hne
    rw [← runLog_append] at h2
    intro he
    unfold handlersMet at he
    rw [List.append_eq_nil_iff] at he
    exact h2 (by simpa [handlersOf] using he.2)
  · intro h hh
    unfold handlersMet at hh
    rcases List.mem_append.1 hh with hh | hh
    · obtain ⟨n, _, hn⟩ := List.mem_flatMap.1 hh
      rcases named_history _ s n h hn with h1 | h1
      · exact hnamed n h h1
      · exact h1
    · rw [runLog_append] at hh
      exact root_gets after ha _ hoff h hh

example : outputs exampleChain (runLog ([.on 10] ++ [.off] ++ [.get "a"]) { rootHandlers := [⟨.foreign, 0⟩] }) "a" 50 = [] :=
  C102_off_silences exampleChain _ [.on 10] [.get "a"] (by simp) (by intro c hc; simp at hc; exact ⟨"a", hc⟩) "a" 50
example : outputs exampleChain (runLog [.on 10] { rootHandlers := [⟨.foreign, 0⟩] }) "a" 50 = [.foreign, .console] := by
  decide

/-- How often a record is printed on the console. -/
def consoleLines (os : List Output) : Nat := os.count .console

theorem consoleLines_handlers (l : List Handler) :
    consoleLines (l.flatMap outputOf) = (l.filter fun h => h.kind = .console).length := by
  induction l with
  | nil => rfl
  | cons h l ih =>
    unfold consoleLines at ih ⊢
    rw [List.flatMap_cons, List.count_append, ih, List.filter_cons]
    rcases h with ⟨k, lv⟩
    cases k <;> simp [outputOf] <;> omega

/-- C103 is false in general: switched on, off and on again, nothing is printed. -/
theorem C103_nothing_after_on_off_on (chain : String → List String) (l₁ l₂ : Int) (name : String) (level : Int) :
    outputs chain (runLog [.on l₁, .off, .on l₂] {}) name level = [] := by
  refine outputs_null chain _ name level ?_ ?_
  · simp [handlersMet, runLog, LogCall.run, loggingOn, loggingOff]
  · simp [handlersMet, runLog, LogCall.run, loggingOn, loggingOff]

/-- C103, part that holds: after logging was switched on and not off since, a record on any
logger is printed on the console exactly once if its level is at least the level last requested,
and not at all otherwise.  Missing: histories with `logging_off` in between. -/
theorem C103_console_once_partial (chain : String → List String) (s : LogState) (hs : Fresh s)
    (hnamed : ∀ n, ∀ h ∈ s.named n, h.kind ≠ .console) (before after : List LogCall)
    (hbefore : ∀ c ∈ before, ∀ l, c ≠ .on l ∧ c ≠ .debug) (hafter : ∀ c ∈ after, c ≠ .off)
    (l₁ l₂ : Int) (name : String) (level : Int) :
    consoleLines (outputs chain (runLog (before ++ [.on l₁] ++ after ++ [.on l₂]) s) name level) =
      if l₂ ≤ level then 1 else 0 := by
  have hone := C36_on_partial s hs before after hbefore hafter l₁ l₂
  have hlev := C35_levels_after_on s (before ++ [.on l₁] ++ after) l₂
  have hnm := named_history (before ++ [.on l₁] ++ after ++ [.on l₂]) s
  generalize runLog (before ++ [.on l₁] ++ after ++ [.on l₂]) s = t at *
  unfold outputs
  rw [hlev.1]
  by_cases hl : l₂ ≤ level
  · rw [if_neg (by omega), if_pos hl]
    have hroot : t.rootHandlers ≠ [] := by
      intro he
      unfold consoleHandlers at hone
      rw [he] at hone
      simp at hone
    have hmet : handlersMet chain t name ≠ [] := by
      unfold handlersMet
      intro he
      exact hroot (List.append_eq_nil_iff.1 he).2
    rw [if_neg hmet, consoleLines_handlers]
    unfold handlersMet
    rw [List.filter_filter, List.filter_append, List.length_append]
    have h1 : ((chain name).flatMap t.named).filter (fun h => decide (h.kind = .console) && decide (h.level ≤ level)) = [] := by
      rw [List.filter_eq_nil_iff]
      intro h hh
      obtain ⟨n, _, hn⟩ := List.mem_flatMap.1 hh
      rcases hnm n h hn with h1 | h1
      · simp [hnamed n h h1]
      · simp [h1]
    have h2 : t.rootHandlers.filter (fun h => decide (h.kind = .console) && decide (h.level ≤ level)) =
        t.rootHandlers.filter fun h => h.kind = .console := by
      apply List.filter_congr
      intro h hh
      simp [hlev.2 h hh, hl]
    rw [h1, h2]
    simpa [consoleHandlers] using hone
  · rw [if_pos (by omega), if_neg hl]
    rfl

example : consoleLines (outputs exampleChain
    (runLog ([.get "a"] ++ [.on 30] ++ [.get "pyspectral.utils"] ++ [.on 20]) {}) "pyspectral.utils" 25) = 1 :=
  C103_console_once_partial exampleChain {} ⟨rfl, by simp⟩ (by simp) [.get "a"] [.get "pyspectral.utils"]
    (by simp) (by simp) 30 20 _ 25

end Verif.Props
