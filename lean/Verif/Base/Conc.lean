import Verif.Base.World
import Mathlib.Logic.Function.Basic
/-
Programs as sequences of atomic steps on a shared state, and any number of them running at the same
time under any schedule.
-/
namespace Verif

/-- A program: finished with a value or an exception, or one atomic step that looks at the state,
changes it, and goes on depending on what it saw. -/
inductive Prog (σ α : Type) where
  | done (r : Py α)
  | step (next : σ → Prog σ α) (upd : σ → σ)

namespace Prog
variable {σ α β ι : Type}

/-- sequencing; an exception stops -/
def bind : Prog σ α → (α → Prog σ β) → Prog σ β
  | done (.ok a), f => f a
  | done (.error e), _ => done (.error e)
  | step n u, f => step (fun s => bind (n s) f) u

/-- `try: ... finally: ...`: what follows runs whatever way the program ends, and knows how it ended -/
def onEnd : Prog σ α → (Py α → Prog σ β) → Prog σ β
  | done r, f => f r
  | step n u, f => step (fun s => onEnd (n s) f) u

/-- a step that only changes the state -/
def act (u : σ → σ) : Prog σ Unit := step (fun _ => done (.ok ())) u

/-- a step that only looks at the state -/
def look (f : σ → Prog σ α) : Prog σ α := step f id

/-- the program alone: its result and the state it leaves -/
def run : Prog σ α → σ → Py α × σ
  | done r, s => (r, s)
  | step n u, s => run (n s) (u s)

/-- the result of a program that has finished -/
def result? : Prog σ α → Option (Py α)
  | done r => some r
  | step _ _ => none

/-- process `i` makes its next step (nothing happens if it has finished) -/
def move [DecidableEq ι] (i : ι) (c : (ι → Prog σ α) × σ) : (ι → Prog σ α) × σ :=
  match c.1 i with
  | done _ => c
  | step n u => (Function.update c.1 i (n c.2), u c.2)

/-- the processes run under a schedule: the list of who makes the next step -/
def exec [DecidableEq ι] (c : (ι → Prog σ α) × σ) (schedule : List ι) : (ι → Prog σ α) × σ :=
  schedule.foldl (fun c i => move i c) c

end Prog
end Verif
