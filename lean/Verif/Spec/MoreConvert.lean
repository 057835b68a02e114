import Verif.Model.MoreConvert
import Verif.Spec.Convert
import Verif.Base.XF
/-
Independent specification of further original response files: what such a file says.
-/
namespace Verif.Spec
open Model PyNum
variable {α : Type} [PyNum α]

/-- The line starts a section of the Metop-C file. -/
def IsHeading (line : String) : Prop := "AVHRR".toList <+: line.toList

/-- The line holds a sample: two words, its numbers. -/
def IsPair (P : Parsers α) (line : String) (s : α × α) : Prop :=
  ∃ a b : List Char, WordsOf line.toList [a, b] ∧ P.float (String.ofList a) = .ok s.1 ∧
    P.float (String.ofList b) = .ok s.2

/-- A section of the Metop-C file: heading, a line of titles, the samples, and lines up to the next
section. -/
structure Section (α : Type) where
  heading : String
  title : String
  samples : List (String × α × α)
  gap : List String

/-- The lines of a section. -/
def Section.lines (s : Section α) : List String := s.heading :: s.title :: s.samples.map Prod.fst ++ s.gap

/-- The section is well formed: only the first line is a heading, there is a sample, the sample
lines hold the samples, and what follows them does not look like a sample. -/
structure Section.Good (P : Parsers α) (s : Section α) : Prop where
  heading : IsHeading s.heading
  others : ∀ l ∈ s.lines.tail, ¬ IsHeading l
  nonempty : s.samples ≠ []
  samples : ∀ d ∈ s.samples, IsPair P d.1 d.2
  gap : ∀ l, s.gap.head? = some l → ¬ ∃ a b, WordsOf l.toList [a, b]

/-- All sections are well formed and separated by at least one line. -/
def GoodSections (P : Parsers α) : List (Section α) → Prop
  | [] => True
  | [s] => s.Good P
  | s :: t => s.Good P ∧ s.gap ≠ [] ∧ GoodSections P t

/-- The same section with exact numbers written as floating point values. -/
def Section.toXF (s : Section ℝ) : Section XF :=
  ⟨s.heading, s.title, s.samples.map fun d => (d.1, .fin d.2.1, .fin d.2.2), s.gap⟩

/-- The curve a section stands for: wavelengths in micron from wavenumbers in 1/cm, in the reverse
order. -/
noncomputable def Section.curve (s : Section ℝ) : List (ℝ × ℝ) :=
  (s.samples.map fun d => (10000 / d.2.1, d.2.2)).reverse

/-- The sample is no more than 2 nm outside the range in which the instrument responds. -/
def NearActive (samples : List (ℝ × ℝ)) (w : ℝ) : Prop :=
  (∃ a ∈ samples, 0.00001 < a.2 ∧ a.1 - 2 ≤ w) ∧ ∃ b ∈ samples, 0.00001 < b.2 ∧ w ≤ b.1 + 2

end Verif.Spec
