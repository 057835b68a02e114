import Verif.Base.Py
/-
Methods that change an object: a computation on the object's state that returns or raises and
leaves the (possibly partly changed) state behind.
-/
namespace Verif

/-- A method on a state `σ`: returns or raises, and leaves a state. -/
def PySt (σ α : Type) : Type := σ → Py α × σ

namespace PySt
variable {σ α β : Type}

/-- Return a value, state unchanged. -/
protected def pure (a : α) : PySt σ α := fun s => (.ok a, s)

/-- Sequencing; an exception stops and keeps the state reached. -/
protected def bind (m : PySt σ α) (f : α → PySt σ β) : PySt σ β := fun s =>
  match m s with
  | (.ok a, s') => f a s'
  | (.error e, s') => (.error e, s')

instance : Monad (PySt σ) where
  pure := PySt.pure
  bind := PySt.bind

/-- Read the state. -/
def get : PySt σ σ := fun s => (.ok s, s)
/-- Change the state. -/
def modify (f : σ → σ) : PySt σ Unit := fun s => (.ok (), f s)
/-- Raise. -/
def raise (e : PyErr) : PySt σ α := fun s => (.error e, s)
/-- A computation that does not touch the state. -/
def lift (p : Py α) : PySt σ α := fun s => (p, s)

/-- Run for every element in order. -/
def forEach (f : α → PySt σ Unit) : List α → PySt σ Unit
  | [] => PySt.pure ()
  | a :: as => PySt.bind (f a) fun _ => forEach f as

end PySt
end Verif
