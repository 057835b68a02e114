import Verif.Model.Logging
/-
What Python's logging does with a record (documentation of `logging.Logger` and of
`logging.lastResort`), for loggers without a level of their own: the record is dropped when
its level is below the level of the root logger; otherwise it is given to every handler of the
logger and of its ancestors whose level is not above that of the record; when there is no
handler at all, the handler of last resort prints it from WARNING on.
-/
namespace Verif.Spec
open Verif.Model

/-- Where a record becomes visible. -/
inductive Output where
  | console | foreign | lastResort
  deriving DecidableEq, Repr

/-- Output of one handler; a NullHandler makes none. -/
def outputOf (h : Handler) : List Output :=
  match h.kind with
  | .console => [.console]
  | .foreign => [.foreign]
  | .null => []

/-- The handlers met by a record on the logger `name`; `chain name` lists the logger and its
named ancestors. -/
def handlersMet (chain : String → List String) (s : LogState) (name : String) : List Handler :=
  (chain name).flatMap s.named ++ s.rootHandlers

/-- The output made by a record of the given level on the logger `name`. -/
def outputs (chain : String → List String) (s : LogState) (name : String) (level : Int) : List Output :=
  if level < s.rootLevel then []
  else if handlersMet chain s name = [] then (if 30 ≤ level then [.lastResort] else [])
  else ((handlersMet chain s name).filter fun h => h.level ≤ level).flatMap outputOf

end Verif.Spec
