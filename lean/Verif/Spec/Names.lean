import Verif.Model.Utils
/-
Independent specification of name forms.
-/
namespace Verif.Spec
open Model

/-- Canonical form of an instrument name: lower case, without slashes and dashes. -/
def canonical (s : String) : String :=
  String.ofList ((s.toList.map Char.toLower).filter fun c => c != '/' && c != '-')

/-- A name is canonical: no ASCII upper-case letter, no slash, no dash. -/
def IsCanonical (s : String) : Prop :=
  ∀ c ∈ s.toList, c ≠ '/' ∧ c ≠ '-' ∧ ¬ ('A'.toNat ≤ c.toNat ∧ c.toNat ≤ 'Z'.toNat)

/-- The name without slashes. -/
def withoutSlashes (s : String) : String := String.ofList (s.toList.filter fun c => c != '/')

/-- The text carried by a value: a string, valid bytes, or a one-element array (of string,
bytes or object dtype) holding one of those. -/
inductive TextOf : PyVal → String → Prop
  | str (s : String) : TextOf (.str s) s
  | bytes (s : String) : TextOf (.bytes (some s)) s
  | arrStr (dt : DType) (h : dt ≠ .other) (s : String) : TextOf (.array dt [.str s]) s
  | arrBytes (dt : DType) (h : dt ≠ .other) (s : String) : TextOf (.array dt [.bytes (some s)]) s

end Verif.Spec
