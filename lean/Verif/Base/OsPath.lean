import Verif.Base.World
/-
`os.path` functions (POSIX).
-/
namespace Verif.OsPath

/-- `os.path.join(a, b)` -/
def join (a b : String) : String :=
  if Str.startsWith b "/" then b
  else if a = "" ∨ Str.endsWith a "/" then a ++ b
  else a ++ "/" ++ b

/-- the part after the last '/' -/
def tailL (cs : List Char) : List Char := (cs.reverse.takeWhile (· ≠ '/')).reverse
/-- the part up to and including the last '/' -/
def headL (cs : List Char) : List Char := (cs.reverse.dropWhile (· ≠ '/')).reverse

/-- `os.path.basename(p)` -/
def basename (p : String) : String := String.ofList (tailL p.toList)

/-- `os.path.dirname(p)`: trailing slashes are removed unless nothing else is left -/
def dirname (p : String) : String :=
  let h := headL p.toList
  if h.all (· = '/') then String.ofList h
  else String.ofList ((h.reverse.dropWhile (· = '/')).reverse)

/-- the file a path names -/
def file (p : String) : Path := (dirname p, basename p)

/-- `os.path.exists(p)` -/
def pathExists (w : World) (p : String) : Bool := (w.files (file p)).isSome || w.dirs p

end Verif.OsPath
