import Verif.Base.Py
/-
Model of the logging switches (pyspectral/utils.py:472-516) as a state machine over the
interpreter's root logger and named loggers.
-/
namespace Verif.Model

/-- A handler attached to a logger: the console handler of `logging_on`, a NullHandler, or a
handler attached by the application. -/
inductive HandlerKind where
  | console | null | foreign
  deriving DecidableEq, Repr

/-- A handler with its level. -/
structure Handler where
  kind : HandlerKind
  level : Int
  deriving DecidableEq, Repr

/-- The logging state: the module flag `_is_logging_on` (pyspectral/utils.py:477), the root
logger, and the handlers of the named loggers. -/
structure LogState where
  isLoggingOn : Bool := false
  rootLevel : Int := 30
  rootHandlers : List Handler := []
  named : String → List Handler := fun _ => []

/-- logging.WARNING, logging.DEBUG, logging.NOTSET -/
def WARNING : Int := 30
def DEBUG : Int := 10
def NOTSET : Int := 0

/-- models pyspectral/utils.py:480-496 (`logging_on`) -/
def loggingOn (level : Int := WARNING) (s : LogState) : LogState :=
  let s := if s.isLoggingOn then s
    else { s with rootHandlers := s.rootHandlers ++ [⟨.console, level⟩], isLoggingOn := true }
  { s with
    rootLevel := level
    rootHandlers := s.rootHandlers.map fun h => { h with level := level } }

/-- models pyspectral/utils.py:472-474 (`debug_on`) -/
def debugOn (s : LogState) : LogState := loggingOn DEBUG s

/-- models pyspectral/utils.py:506-508 (`logging_off`) -/
def loggingOff (s : LogState) : LogState := { s with rootHandlers := [⟨.null, NOTSET⟩] }

/-- models pyspectral/utils.py:511-516 (`get_logger`); the names "" and "root" denote the root
logger -/
def getLogger (name : String) (s : LogState) : LogState :=
  if name = "" ∨ name = "root" then
    if s.rootHandlers = [] then { s with rootHandlers := [⟨.null, NOTSET⟩] } else s
  else if s.named name = [] then
    { s with named := fun n => if n = name then [⟨.null, NOTSET⟩] else s.named n }
  else s

/-- What may happen to the logging state: calls of the library, and the application attaching
or removing its own handlers or changing the root level. -/
inductive LogCall where
  | on (level : Int)
  | debug
  | off
  | get (name : String)
  | appAddHandler (level : Int)
  | appRemoveOwnHandlers
  | appSetLevel (level : Int)

/-- One call. -/
def LogCall.run : LogCall → LogState → LogState
  | .on l, s => loggingOn l s
  | .debug, s => debugOn s
  | .off, s => loggingOff s
  | .get n, s => getLogger n s
  | .appAddHandler l, s => { s with rootHandlers := s.rootHandlers ++ [⟨.foreign, l⟩] }
  | .appRemoveOwnHandlers, s => { s with rootHandlers := s.rootHandlers.filter (·.kind ≠ .foreign) }
  | .appSetLevel l, s => { s with rootLevel := l }

/-- A history of calls. -/
def runLog (cs : List LogCall) (s : LogState) : LogState := cs.foldl (fun s c => c.run s) s

end Verif.Model
