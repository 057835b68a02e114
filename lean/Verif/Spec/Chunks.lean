import Mathlib.Data.List.Perm.Basic
/-
Independent specification of chunked arrays.
-/
namespace Verif.Spec

/-- A way of cutting an array of `n` pixels into blocks: every pixel is in exactly one. -/
structure Chunking (n : Nat) (blocks : List (List Nat)) : Prop where
  nonempty : blocks ≠ []
  all : blocks.flatten.Perm (List.range n)

/-- An order of evaluation of `m` blocks: every block once. -/
def EachOnce (m : Nat) (order : List Nat) : Prop := order.Perm (List.range m)

end Verif.Spec
