import Verif.Model.Convert
import Verif.Model.WriterSteps
/-
Model of rsr_convert_scripts/avhrr1_rsr.py: the AVHRR/1 responses from the workbook to the files.
(`adjustTypo` is in Model/Convert.lean.)
-/
namespace Verif.Model
open PyNum
variable {α : Type} [PyNum α]

/-- a cell of a workbook: a number or text (an empty cell holds the empty text) -/
inductive Cell (α : Type) where
  | num (x : α)
  | text (s : String)

/-- a sheet of the workbook: its name and its columns -/
structure CellSheet (α : Type) where
  name : String
  col : Nat → List (Cell α)

/-- models rsr_convert_scripts/avhrr1_rsr.py:19 -/
def AVHRR1_BAND_NAMES : List String := ["ch1", "ch2", "ch3", "ch4"]

/-- models rsr_convert_scripts/avhrr1_rsr.py:20 -/
def AVHRR1_SATELLITES : List String := ["TIROS-N", "NOAA-6", "NOAA-8", "NOAA-10"]

/-- models rsr_convert_scripts/avhrr1_rsr.py:24-39 -/
def AVHRR1_CHANNEL_NAMES : Dict String String :=
  [("A101C001", "ch1"), ("A101C002", "ch2"), ("A101C003", "ch3"), ("A101C004", "ch4"),
   ("A102C001", "ch1"), ("A102C002", "ch2"), ("A102C003", "ch3"), ("A102C004", "ch4"),
   ("A103C001", "ch1"), ("A103C002", "ch2"), ("A103C003", "ch3"), ("A103C004", "ch4"),
   ("A104C001", "ch1"), ("A104C002", "ch2"), ("A104C003", "ch3"), ("A104C004", "ch4")]

/-- models rsr_convert_scripts/avhrr1_rsr.py:129-132 (`get_scale_from_unit`) -/
def avhrr1Scale (unit : String) : Option α :=
  if unit = "Å" then some 0.0001 else if unit = "nm" then some 0.001 else none

/-- `text.strip(chars)` of Python -/
def stripChars (chars : List Char) (cs : List Char) : List Char :=
  ((cs.dropWhile (chars.contains ·)).reverse.dropWhile (chars.contains ·)).reverse

/-- what comes before the first occurrence of `sep` (not empty) and what comes after it -/
def splitFirst (sep : List Char) : List Char → List Char × Option (List Char)
  | [] => ([], none)
  | c :: cs =>
    if sep.isPrefixOf (c :: cs) then ([], some ((c :: cs).drop sep.length))
    else
      let r := splitFirst sep cs
      (c :: r.1, r.2)

/-- `text.split(sep)[1]`; IndexError when the separator is missing -/
def secondPart (sep : List Char) (cs : List Char) : Py (List Char) :=
  match (splitFirst sep cs).2 with
  | none => .error .indexError
  | some rest => .ok (splitFirst sep rest).1

/-- the text of the header cell `i`; numbers have no `strip` or `split` (AttributeError) -/
def headerText (header : List (Cell α)) (i : Nat) : Py (List Char) :=
  match header[i]? with
  | none => .error .indexError
  | some (.num _) => .error .attributeError
  | some (.text s) => .ok s.toList

/-- `isinstance(item, str)` (rsr_convert_scripts/avhrr1_rsr.py:99) -/
def Cell.isText : Cell α → Bool
  | .text _ => true
  | .num _ => false

/-- the numbers in cells; none when there is text among them (numpy makes an array of text) -/
def cellNumbers (cs : List (Cell α)) : Option (List α) :=
  cs.mapM fun c => match c with
    | .num x => some x
    | .text _ => none

/-- What is known of a channel.  (None, and an array of text, are both `none`: calculating with
either is a TypeError.) -/
structure Avhrr1Chan (α : Type) where
  wavelength : Option (List α)
  response : Option (List α)

/-- models rsr_convert_scripts/avhrr1_rsr.py:89-114: the samples in a sheet and the platform -/
def avhrr1Sheet (s : CellSheet α) : Py (String × Avhrr1Chan α) := do
  let header := (s.col 0).take 2
  let platform_name := String.ofList (stripChars ['#', ' '] (← headerText header 0))
  let unit := String.ofList (stripChars [')'] (← secondPart "Wavelength (".toList (← headerText header 1)))
  let wvl := (s.col 0).drop 2
  let kept := (wvl.reverse.dropWhile Cell.isText).reverse
  if kept.isEmpty then .error .indexError
  else
    let response := ((s.col 1).drop 2).take kept.length
    match cellNumbers kept, (avhrr1Scale unit : Option α) with
    | some ws, some scale =>
      let ws := if platform_name = "TIROS-N" then adjustTypo ws else ws
      return (platform_name, ⟨some (ws.map (· * scale)), cellNumbers response⟩)
    | _, _ => .error .typeError

/-- the responses of all platforms: platform, then channel -/
abbrev Avhrr1Rsr (α : Type) := Dict String (Dict String (Avhrr1Chan α))

/-- models rsr_convert_scripts/avhrr1_rsr.py:54-58: nothing known yet -/
def avhrr1Empty : Avhrr1Rsr α :=
  AVHRR1_SATELLITES.map fun satname => (satname, AVHRR1_BAND_NAMES.map fun chname => (chname, ⟨none, none⟩))

/-- models rsr_convert_scripts/avhrr1_rsr.py:73-117 (`_load`).  A sheet of unknown name ends the
loop. -/
def avhrr1Load (rsr : Avhrr1Rsr α) : List (CellSheet α) → Py (Avhrr1Rsr α)
  | [] => .ok rsr
  | s :: rest =>
    if s.name = "Kleespies Data" then avhrr1Load rsr rest
    else
      match AVHRR1_CHANNEL_NAMES.get? (Str.strip s.name) with
      | none => .ok rsr
      | some ch_name => do
        let (platform_name, c) ← avhrr1Sheet s
        let channels ← rsr.getItem platform_name
        avhrr1Load (rsr.set platform_name (channels.set ch_name c)) rest

/-- an `AvhrrRSR` object -/
structure Avhrr1RSR (α : Type) where
  output_dir : String
  rsr : Avhrr1Rsr α

/-- models rsr_convert_scripts/avhrr1_rsr.py:45-71 (`AvhrrRSR.__init__`).  When the configured file
is missing, the file in the package's data directory is remembered under a name that is never used,
so the missing file is opened nevertheless (FileNotFoundError; TypeError when no `filename` is
configured).  There is no method `convert2wavenumber` (AttributeError). -/
def Avhrr1RSR.new (options : List (String × Conf)) (files : String → Option (List (CellSheet α)))
    (wavespace : String := "wavelength") : Py (Avhrr1RSR α) := do
  let (path, output_dir) ← sectionPath options "avhrr/1"
  match files path with
  | none =>
    match Dict.get? options "avhrr/1" with
    | some (.map d) =>
      match Dict.get? d "filename" with
      | some (.leaf (.str _)) => .error .fileNotFound
      | _ => .error .typeError
    | _ => .error .typeError
  | some sheets =>
    let rsr ← avhrr1Load avhrr1Empty sheets
    if wavespace = "wavelength" then return { output_dir, rsr }
    else .error .attributeError

/-- models rsr_convert_scripts/avhrr1_rsr.py:144-147: the attributes of the file -/
def avhrr1Attrs (platform_name : String) (bandnames : List String) : Attrs α :=
  [("description", .text (.str "Relative Spectral Responses for AVHRR/1") "Relative Spectral Responses for AVHRR/1"),
   ("platform_name", .text (.str platform_name) platform_name),
   ("band_names", .text (.array .object_ (bandnames.map .str)) "")]

/-- models rsr_convert_scripts/avhrr1_rsr.py:150-162: one channel -/
def avhrr1Band (f32 : α → α) (p : String × Avhrr1Chan α) : PySt (H5File α) Unit := do
  createBand p.1
  match p.2.wavelength, p.2.response with
  | some wvl, some rsp =>
    let cw ← PySt.lift (getCentralWave wvl rsp)
    changeBand p.1 fun B => { B with attrs := B.attrs.set "central_wavelength" (.num cw "") }
    changeBand p.1 fun B => { B with datasets := B.datasets.set "wavelength" (wavelengthSet f32 wvl).2 }
    changeBand p.1 fun B => { B with datasets := B.datasets.set "response" (stored f32 rsp []) }
  | _, _ => PySt.raise .typeError

/-- models rsr_convert_scripts/avhrr1_rsr.py:135-162 (`generate_avhrr1_file`), with the file it
leaves behind when it fails -/
def generateAvhrr1File (f32 : α → α) (avhrr1 : Avhrr1RSR α) (platform_name : String) : PySt (H5Files α) Unit := do
  let filename : Path := (avhrr1.output_dir, "rsr_avhrr1_" ++ platform_name ++ ".h5")
  match avhrr1.rsr.get? platform_name with
  | none =>
    PySt.modify fun fs => fs.put filename
      ⟨(avhrr1Attrs platform_name []).filter (fun p => p.1 != "band_names"), []⟩
    PySt.raise .keyError
  | some channels =>
    let run := PySt.forEach (avhrr1Band f32) channels ⟨avhrr1Attrs platform_name channels.keys, []⟩
    PySt.modify fun fs => fs.put filename run.2
    PySt.lift run.1

/-- models rsr_convert_scripts/avhrr1_rsr.py:165-169 (`run_avhrr1`) -/
def runAvhrr1 (f32 : α → α) (options : List (String × Conf)) (files : String → Option (List (CellSheet α))) :
    PySt (H5Files α) Unit := do
  let avhrr_obj ← PySt.lift (Avhrr1RSR.new options files)
  PySt.forEach (generateAvhrr1File f32 avhrr_obj) ["NOAA-10", "NOAA-8", "NOAA-6", "TIROS-N"]

end Verif.Model
