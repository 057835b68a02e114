import Verif.Base.Py
/-
Files, directories and the network, and computations on them that keep every intermediate
state (for crash points).
-/
namespace Verif

/-- A file: directory and name inside it (names are not normalised: different pairs are
different files). -/
abbrev Path := String × String

/-- File content (the bytes, as characters). -/
abbrev Content := List Char

/-- The state outside the process: files, existing directories, and the log of all URLs
requested so far. -/
structure World where
  files : Path → Option Content
  dirs : String → Bool
  requests : List String

namespace World

/-- Set or remove one file. -/
def setFile (w : World) (p : Path) (c : Option Content) : World :=
  { w with files := fun q => if q = p then c else w.files q }

end World

/-- A computation on the world: its result, the final world, and every world state passed
through after the initial one, in order. -/
def Eff (α : Type) : Type := World → Py α × World × List World

namespace Eff
variable {α β : Type}

/-- Return a value. -/
protected def pure (a : α) : Eff α := fun w => (.ok a, w, [])

/-- Sequencing; an exception stops. -/
protected def bind (m : Eff α) (f : α → Eff β) : Eff β := fun w =>
  match m w with
  | (.ok a, w', t) => match f a w' with
    | (r, w'', t') => (r, w'', t ++ t')
  | (.error e, w', t) => (.error e, w', t)

instance : Monad Eff where
  pure := Eff.pure
  bind := Eff.bind

/-- Raise. -/
def raise (e : PyErr) : Eff α := fun w => (.error e, w, [])

/-- One atomic effect. -/
def step (f : World → World) : Eff Unit := fun w => (.ok (), f w, [f w])

/-- Read the state. -/
def get : Eff World := fun w => (.ok w, w, [])

/-- A pure computation that may raise. -/
def lift (p : Py α) : Eff α := fun w => (p, w, [])

/-- Run for every element in order. -/
def forEach (f : α → Eff Unit) : List α → Eff Unit
  | [] => Eff.pure ()
  | a :: as => Eff.bind (f a) fun _ => forEach f as

/-- Result of a run. -/
def result (m : Eff α) (w : World) : Py α := (m w).1
/-- World after a run. -/
def final (m : Eff α) (w : World) : World := (m w).2.1
/-- The worlds in which an interruption may leave the system (including "not started"). -/
def crashStates (m : Eff α) (w : World) : List World := w :: (m w).2.2

end Eff

/-! ### File operations -/

namespace FileOp

/-- `os.makedirs(d, exist_ok=True)` -/
def makedirs (d : String) : Eff Unit :=
  Eff.step fun w => { w with dirs := fun x => if x = d then true else w.dirs x }

/-- `open(p, "wb")`: truncates or creates; FileNotFoundError if the directory is missing -/
def openWrite (p : Path) : Eff Unit := do
  let w ← Eff.get
  if w.dirs p.1 then Eff.step fun w => w.setFile p (some []) else Eff.raise .fileNotFound

/-- Append one byte to an open file. -/
def appendByte (p : Path) (c : Char) : Eff Unit :=
  Eff.step fun w => w.setFile p (some ((w.files p).getD [] ++ [c]))

/-- `handle.write(data)`: byte by byte, so that an interruption may leave any prefix. -/
def append (p : Path) (data : Content) : Eff Unit := Eff.forEach (appendByte p) data

/-- `os.remove(p)` -/
def remove (p : Path) : Eff Unit := Eff.step fun w => w.setFile p none

end FileOp
end Verif
