import Verif.Base.World
/-
Specification vocabulary for version files and downloads.
-/
namespace Verif.Spec

/-- A blank that does not end the line. -/
def InlineBlank (c : Char) : Prop := Str.isSpace c = true ∧ c ≠ '\n' ∧ c ≠ '\r'

/-- The first line of a text is the given word, possibly surrounded by blanks. -/
def FirstLineIs (text word : Content) : Prop :=
  ∃ before after rest : Content, text = before ++ word ++ after ++ rest ∧
    (∀ c ∈ before, InlineBlank c) ∧ (∀ c ∈ after, InlineBlank c) ∧
    (rest = [] ∨ ∃ r, rest = '\n' :: r ∨ rest = '\r' :: r)

/-- A file exists and its first line is the given word. -/
def FileSays (w : World) (p : Path) (word : String) : Prop :=
  ∃ c, w.files p = some c ∧ FirstLineIs c word.toList

/-- Every name occurring in an archive has, in the directory, the content of its last
occurrence. -/
def Installed (members : List (String × Content)) (dir : String) (w : World) : Prop :=
  ∀ before name content after, members = before ++ (name, content) :: after →
    (∀ m ∈ after, m.1 ≠ name) → w.files (dir, name) = some content

/-- The same for all names except one. -/
def InstalledExcept (skip : String) (members : List (String × Content)) (dir : String) (w : World) : Prop :=
  ∀ before name content after, members = before ++ (name, content) :: after →
    (∀ m ∈ after, m.1 ≠ name) → name ≠ skip → w.files (dir, name) = some content

end Verif.Spec
