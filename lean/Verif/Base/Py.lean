/-
Python-level primitives used by the model: exceptions as values, dictionaries
as insertion-ordered association lists, strings as lists of characters.
-/
namespace Verif

/-- Exception classes raised by the modelled code (the class is observable, the
message is not modelled). -/
inductive PyErr where
  | keyError
  | attributeError
  | valueError
  | typeError
  | indexError
  | ioError
  | fileNotFound
  | notImplemented
  | runtimeError
  | overflowError
  | zeroDivision
  | httpError
  | nameError
  deriving DecidableEq, Repr

/-- A Python computation that returns or raises. -/
abbrev Py (α : Type) := Except PyErr α

namespace Py
/-- Did the computation return normally? -/
def isOk {α : Type} : Py α → Bool
  | .ok _ => true
  | .error _ => false
end Py

/-- A Python `dict` with keys `κ`: association list in insertion order.  At most
one entry per key (`Dict.WF`). -/
abbrev Dict (κ β : Type) := List (κ × β)

namespace Dict
variable {κ β γ : Type} [DecidableEq κ]

/-- Keys of the dictionary are pairwise distinct. -/
def WF (d : Dict κ β) : Prop := (d.map Prod.fst).Nodup

/-- `d.keys()` in insertion order. -/
def keys (d : Dict κ β) : List κ := d.map Prod.fst

/-- `d.get(k)` (Python `None` is `none`). -/
def get? (d : Dict κ β) (k : κ) : Option β :=
  match d with
  | [] => none
  | (k', v) :: rest => if k' = k then some v else get? rest k

/-- `d[k]`: KeyError when missing. -/
def getItem (d : Dict κ β) (k : κ) : Py β :=
  match get? d k with
  | some v => .ok v
  | none => .error .keyError

/-- `k in d`. -/
def contains (d : Dict κ β) (k : κ) : Bool := (get? d k).isSome

/-- `d[k] = v`: replaces in place when present, appends otherwise. -/
def set (d : Dict κ β) (k : κ) (v : β) : Dict κ β :=
  match d with
  | [] => [(k, v)]
  | (k', v') :: rest => if k' = k then (k, v) :: rest else (k', v') :: set rest k v

/-- `del d[k]` / `d.pop(k)` on a present key; unchanged if missing. -/
def erase (d : Dict κ β) (k : κ) : Dict κ β :=
  match d with
  | [] => []
  | (k', v') :: rest => if k' = k then rest else (k', v') :: erase rest k

/-- Apply a function to every value, keeping keys and order. -/
def mapVals (f : β → γ) (d : Dict κ β) : Dict κ γ := d.map fun p => (p.1, f p.2)

end Dict

namespace Str

/-- ASCII lower-casing of one character (`str.lower` restricted to ASCII). -/
def lowerChar (c : Char) : Char :=
  if 'A'.toNat ≤ c.toNat ∧ c.toNat ≤ 'Z'.toNat then Char.ofNat (c.toNat + 32) else c

/-- `s.lower()`. -/
def lower (s : String) : String := String.ofList (s.toList.map lowerChar)

/-- ASCII upper-casing of one character (`str.upper` restricted to ASCII). -/
def upperChar (c : Char) : Char :=
  if 'a'.toNat ≤ c.toNat ∧ c.toNat ≤ 'z'.toNat then Char.ofNat (c.toNat - 32) else c

/-- `s.upper()`. -/
def upper (s : String) : String := String.ofList (s.toList.map upperChar)

/-- `s.replace(c, '')` for a single character `c`. -/
def removeChar (c : Char) (s : String) : String := String.ofList (s.toList.filter (· ≠ c))

/-- `s.replace(a, b)` for single characters. -/
def replaceChar (a b : Char) (s : String) : String :=
  String.ofList (s.toList.map fun x => if x = a then b else x)

/-- `s.split(c)` on a character list: always at least one piece. -/
def splitL (c : Char) : List Char → List (List Char)
  | [] => [[]]
  | x :: xs =>
    if x = c then [] :: splitL c xs
    else match splitL c xs with
      | [] => [[x]]
      | p :: ps => (x :: p) :: ps

/-- `s.split(c)`. -/
def split (c : Char) (s : String) : List String := (splitL c s.toList).map String.ofList

/-- `s.startswith(p)`. -/
def startsWith (s p : String) : Bool := p.toList.isPrefixOf s.toList

/-- `s.endswith(p)`. -/
def endsWith (s p : String) : Bool := p.toList.isSuffixOf s.toList

/-- Python whitespace (`str.isspace`) as stripped by `str.strip`. -/
def isSpace (c : Char) : Bool :=
  (9 ≤ c.toNat && c.toNat ≤ 13) || (28 ≤ c.toNat && c.toNat ≤ 32) || c.toNat = 0x85 || c.toNat = 0xa0 ||
  c.toNat = 0x1680 || (0x2000 ≤ c.toNat && c.toNat ≤ 0x200a) || c.toNat = 0x2028 || c.toNat = 0x2029 ||
  c.toNat = 0x202f || c.toNat = 0x205f || c.toNat = 0x3000

/-- `s.strip()` on a character list. -/
def stripL (cs : List Char) : List Char :=
  ((cs.dropWhile isSpace).reverse.dropWhile isSpace).reverse

/-- `s.strip()`. -/
def strip (s : String) : String := String.ofList (stripL s.toList)

/-- First line of a text file as returned by `readline()` (universal newlines), without the
newline. -/
def firstLineL : List Char → List Char
  | [] => []
  | c :: cs => if c = '\n' ∨ c = '\r' then [] else c :: firstLineL cs

end Str
end Verif
