import Verif.Base.Conc
import Verif.Model.Logging
/-
Model of the logging switches (pyspectral/utils.py:480-496 and 511-516) as programs of atomic steps, for use by
several threads of one process.  `Logger.addHandler`, `Logger.setLevel`, `Handler.setLevel` and the reading and
setting of the module flag are one step each.
-/
namespace Verif.Model

/-- models pyspectral/utils.py:495-496 (`for h in log.handlers: h.setLevel(level)`): Python's loop over a list
looks at the list as it is at each turn, so it also meets handlers added meanwhile.  `room` is how many turns the
loop can have; the theorems only use it when the list never gets longer than that. -/
def levelsP (level : Int) : (room k : Nat) → Prog LogState Unit
  | 0, _ => .done (.ok ())
  | room + 1, k => .step
      (fun s => if k < s.rootHandlers.length then levelsP level room (k + 1) else .done (.ok ()))
      (fun s => { s with rootHandlers := s.rootHandlers.modify k fun h => { h with level := level } })

/-- models pyspectral/utils.py:493-496 -/
def rootLevelsP (room : Nat) (level : Int) : Prog LogState Unit :=
  (Prog.act fun s => { s with rootLevel := level }).bind fun _ => levelsP level room 0

/-- models pyspectral/utils.py:491 with what follows -/
def flagOnP (room : Nat) (level : Int) : Prog LogState Unit :=
  (Prog.act fun s => { s with isLoggingOn := true }).bind fun _ => rootLevelsP room level

/-- models pyspectral/utils.py:485-490 with what follows: the new handler, already at its level, is attached -/
def addConsoleP (room : Nat) (level : Int) : Prog LogState Unit :=
  (Prog.act fun s => { s with rootHandlers := s.rootHandlers ++ [⟨.console, level⟩] }).bind fun _ => flagOnP room level

/-- models pyspectral/utils.py:480-496 (`logging_on`) -/
def loggingOnP (room : Nat) (level : Int := WARNING) : Prog LogState Unit :=
  .look fun s => if s.isLoggingOn then rootLevelsP room level else addConsoleP room level

/-- models pyspectral/utils.py:511-516 (`get_logger`) for a named logger -/
def getLoggerP (name : String) : Prog LogState Unit :=
  .look fun s => if s.named name = [] then
      .act fun s => { s with named := fun n => if n = name then s.named n ++ [⟨.null, NOTSET⟩] else s.named n }
    else .done (.ok ())

end Verif.Model
