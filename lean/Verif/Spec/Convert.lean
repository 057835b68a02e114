import Verif.Model.Convert
/-
Independent specification of the original response files that are converted: what a file says.
-/
namespace Verif.Spec
open Model PyNum
variable {α : Type} [PyNum α]

/-- The words of a text: maximal non-empty pieces without white space, in order. -/
inductive WordsOf : List Char → List (List Char) → Prop
  | nil : WordsOf [] []
  | space {c cs ws} (hc : Str.isSpace c = true) (h : WordsOf cs ws) : WordsOf (c :: cs) ws
  | word {p cs ws} (hne : p ≠ []) (hp : ∀ c ∈ p, Str.isSpace c = false)
      (hcs : ∀ c, cs.head? = some c → Str.isSpace c = true) (h : WordsOf cs ws) : WordsOf (p ++ cs) (p :: ws)

/-- A sample of a MODIS file: number of the detector, wavelength (in the file's unit), response. -/
structure ModisRecord (α : Type) where
  det : Int
  wvl : α
  resp : α

/-- The line is a comment. -/
def IsComment (line : String) : Prop := line.toList.head? = some '#'

/-- The line holds this sample: four words, the last three being its numbers. -/
def IsRecord (P : Parsers α) (line : String) (s : ModisRecord α) : Prop :=
  ¬ IsComment line ∧ ∃ a b c d : List Char, WordsOf line.toList [a, b, c, d] ∧
    P.int (String.ofList b) = .ok s.det ∧ P.float (String.ofList c) = .ok s.wvl ∧
    P.float (String.ofList d) = .ok s.resp

/-- The samples of a file, in order. -/
inductive Records (P : Parsers α) : List String → List (ModisRecord α) → Prop
  | nil : Records P [] []
  | comment {l ls rs} (hl : IsComment l) (h : Records P ls rs) : Records P (l :: ls) rs
  | sample {l ls s rs} (hl : IsRecord P l s) (h : Records P ls rs) : Records P (l :: ls) (s :: rs)

/-- The samples of detector `n` that are not marked as missing (-99), in the order of the file. -/
def samplesOf (rs : List (ModisRecord α)) (n : Int) : List (ModisRecord α) :=
  rs.filter fun s => s.det == n && !eq s.resp (-(99.0 : α))

/-- The factor from the unit of a MODIS file (of band `n`) to micron: nanometres for the bands
1 to 19 and 26, and for every band of EOS-Aqua. -/
def modisUnit (platform : String) (n : Nat) : α :=
  if n ≤ 19 ∨ n = 26 ∨ platform = "EOS-Aqua" then 0.001 else 1.0

/-- The name of the original file of MODIS band `n`: one naming scheme for EOS-Terra, another for
other platforms, where the file tells at what temperature the band was measured. -/
def modisFileOf (platform : String) (n : Nat) : String :=
  if platform = "EOS-Terra" then "rsr." ++ toString n ++ ".inb.final"
  else (if n < 10 then "0" ++ toString n else toString n) ++
    (if n = 5 ∨ n = 6 ∨ n = 7 ∨ 20 ≤ n then ".tv.1pct.det" else ".amb.1pct.det")

/-- The two lists of wavelengths agree within numpy's default tolerances. -/
def CloseGrids (v w : List α) : Prop :=
  v.length = w.length ∧ ∀ p ∈ v.zip w,
    (le (abs (p.1 - p.2)) (1e-8 + 1e-5 * abs p.2) = true ∧ isNaN (p.2 - p.2) = false) ∨ eq p.1 p.2 = true

end Verif.Spec
