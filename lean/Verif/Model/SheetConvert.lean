import Verif.Model.TextConvert
/-
Model of the converters that read workbooks and netCDF files: rsr_convert_scripts/aatsr_reader.py,
ahi_reader.py, msu_gsa_reader.py, olci_rsr.py and slstr_rsr.py.
-/
namespace Verif.Model
open PyNum
variable {α : Type} [PyNum α]

/-! ### AATSR -/

/-- a sheet whose first column holds text -/
structure TextSheet where
  name : String
  cells : List String

/-- models rsr_convert_scripts/aatsr_reader.py:49-54: the cells 4 to 258 of the first column, split
into words.  Rows of different length are a ValueError (numpy 1.24), a word that is no number is a
ValueError, and a missing second column is an IndexError.  The numbers are 32 bit. -/
def aatsrSheet (P : Parsers α) (f32 : α → α) (s : TextSheet) : Py (RawCurve α) := do
  let rows := ((s.cells.take 258).drop 3).map Str.words
  match rows with
  | [] => .error .indexError
  | r :: _ =>
    if !rows.all (fun w => w.length == r.length) then .error .valueError
    else
      let data ← rows.mapM fun ws => ws.mapM fun w => do return f32 (← P.float w)
      if r.length < 2 then .error .indexError
      else return ⟨data.filterMap fun d => d[0]?, data.filterMap fun d => d[1]?⟩

/-- models rsr_convert_scripts/aatsr_reader.py:38-56 (`_load`): the last sheet of the name counts -/
def aatsrLoad (P : Parsers α) (f32 : α → α) (sheets : List TextSheet) (bandname : String) : Py (Option (RawCurve α)) :=
  sheets.foldlM (fun rsr s =>
    if Str.strip s.name = "aatsr_" ++ bandname then do return some (← aatsrSheet P f32 s) else pure rsr) none

/-- models rsr_convert_scripts/aatsr_reader.py:22-36 (`AatsrRSR`); `files` gives the workbooks.
Without sheet for the band `rsr` stays None. -/
def AatsrRSR (P : Parsers α) (f32 : α → α) (options : List (String × Conf)) (files : String → Option (List TextSheet))
    (bandname platform_name : String) : Py (RawSensor α) := do
  let (path, out) ← sectionPath options (platform_name ++ "-aatsr")
  match files path with
  | none => .error .fileNotFound
  | some sheets =>
    match ← aatsrLoad P f32 sheets bandname with
    | some c => return RawSensor.ofCurve "aatsr" out c
    | none => return RawSensor.noData "aatsr" out

/-! ### MSU-GS/A -/

/-- models rsr_convert_scripts/msu_gsa_reader.py:17-18 -/
def MSUGSA_BAND_NAMES : List String := chNames 10

/-- models rsr_convert_scripts/msu_gsa_reader.py:57-64: the sheet of a band for one of the two
instruments and the names given to its columns; KeyError for other bands -/
def msugsaSheet (bandname : String) (detnum : Nat) : Py (String × List String) :=
  if bandname ∈ ["ch1", "ch2", "ch3"] then
    .ok ("MSU-" ++ toString detnum ++ " vis", ["wvl", "ch1", "ch2", "ch3"])
  else if bandname ∈ ["ch4", "ch5", "ch6", "ch7", "ch8", "ch9", "ch10"] then
    .ok ("MSU-" ++ toString detnum ++ " IR", ["wvl", "ch4", "ch5", "ch6", "ch7", "ch8", "ch9", "ch10"])
  else .error .keyError

/-- a column of a table read by `pd.read_excel(..., skiprows=2, names=names)`: two rows are skipped
and the next is taken for the header.  (Simplified: the sheet has as many columns as names.) -/
def excelColumn (names : List String) (rows : List (List α)) (name : String) : List α :=
  (rows.drop 3).filterMap fun r => r[names.idxOf name]?

/-- models rsr_convert_scripts/msu_gsa_reader.py:56-68: one of the two instruments; ValueError
without the sheet -/
def msugsaDetector (sheet : String → Option (List (List α))) (bandname : String) (detnum : Nat) :
    Py (String × DetRsr α) := do
  let (name, names) ← msugsaSheet bandname detnum
  match sheet name with
  | none => .error .valueError
  | some rows =>
    return ("det-" ++ toString detnum, [("wavelength", .arr (excelColumn names rows "wvl")),
      ("response", .arr (excelColumn names rows bandname))])

/-- models rsr_convert_scripts/msu_gsa_reader.py:34-70 (`MsugsaRSR`); `files` gives the workbooks by
the names of their sheets -/
def MsugsaRSR (options : List (String × Conf)) (files : String → Option (String → Option (List (List α))))
    (bandname platform_name : String) : Py (RawSensor α) := do
  let (path, out) ← sectionPath options (platform_name ++ "-msu-gsa")
  let sheet := fun (det : Nat) => match files path with
    | none => match msugsaSheet bandname det with
      | .ok _ => Except.error PyErr.fileNotFound
      | .error e => .error e
    | some wb => msugsaDetector wb bandname det
  let d1 ← sheet 1
  let d2 ← sheet 2
  return ⟨"msu-gsa", out, [], [d1, d2]⟩

/-! ### OLCI and SLSTR -/

/-- models rsr_convert_scripts/olci_rsr.py:24-29 -/
def OLCI_BAND_NAMES : List String := (List.range 21).map fun i => "Oa" ++ twoDigits (i + 1)

/-- the two-dimensional variables of a netCDF file.  (Simplified: no missing values.) -/
abbrev NetCdf2 (α : Type) := Dict String (List (List α))

/-- `variable[row, :]` -/
def ncRow (ncf : NetCdf2 α) (name : String) (row : Nat) : Py (List α) := do
  match (← ncf.getItem name)[row]? with
  | some r => return r
  | none => .error .indexError

/-- models rsr_convert_scripts/olci_rsr.py:49-65 (`_load`) -/
def olciLoad (bandname : String) (ncf : NetCdf2 α) (scale : α := 0.001) : Py (RawCurve α) := do
  let bandnum ← if bandname ∈ OLCI_BAND_NAMES then pure (OLCI_BAND_NAMES.idxOf bandname) else .error .valueError
  let resp ← ncRow ncf "mean_spectral_response_function" bandnum
  let wvl ← ncRow ncf "mean_spectral_response_function_wavelength" bandnum
  return ⟨wvl.map (· * scale), resp⟩

/-- models rsr_convert_scripts/olci_rsr.py:35-47 (`OlciRSR`) -/
def OlciRSR (options : List (String × Conf)) (files : String → Option (NetCdf2 α)) (bandname platform_name : String) :
    Py (RawSensor α) := do
  let r ← ({ InstrumentRSR.new bandname platform_name with instrument := some "olci" } : InstrumentRSR).getOptionsFrom options
  match r.output_dir, r.path.bind files with
  | some (.leaf (.str out)), some ncf => return RawSensor.ofCurve "olci" out (← olciLoad bandname ncf)
  | some (.leaf (.str _)), none => .error .ioError
  | _, _ => .error .typeError

/-- models rsr_convert_scripts/slstr_rsr.py:45-53 (`_load`) on the variables of the file -/
def slstrLoad (ncf : Dict String (List α)) (scale : α := 1.0) : Py (RawCurve α) := do
  let wvl ← ncf.getItem "wavelength"
  let resp ← ncf.getItem "response"
  return ⟨wvl.map (· * scale), resp⟩

/-- models rsr_convert_scripts/slstr_rsr.py:25-43 (`SlstrRSR`) -/
def SlstrRSR (options : List (String × Conf)) (files : String → Option (Dict String (List α)))
    (bandname platform_name : String) : Py (RawSensor α) :=
  textClass options files (chNames 9) (some "slstr") .raise slstrLoad bandname platform_name

/-! ### AHI -/

/-- models rsr_convert_scripts/ahi_reader.py:18-34 -/
def AHI_BAND_NAMES : Dict String String := (List.range 16).map fun i => ("Band " ++ toString (i + 1), "ch" ++ toString (i + 1))

/-- models rsr_convert_scripts/ahi_reader.py:72-85: one sheet -/
def ahiSheet (rsr : Dict String (RawCurve α)) (s : Sheet α) : Dict String (RawCurve α) :=
  if s.name = "Title" then rsr
  else rsr.set ((AHI_BAND_NAMES.get? (Str.strip s.name)).getD (Str.strip s.name))
    ⟨s.colValues 0 5 5453, s.colValues 2 5 5453⟩

/-- models rsr_convert_scripts/ahi_reader.py:64-85 (`_load`) -/
def ahiLoad (sheets : List (Sheet α)) : Dict String (RawCurve α) := sheets.foldl ahiSheet []

/-- models rsr_convert_scripts/ahi_reader.py:46-62 (`AhiRSR`).  A missing file is an AttributeError:
the message is made from `self.bandname`, which does not exist.  (Simplified: the section of the
platform has a path.) -/
def AhiRSR (options : List (String × Conf)) (files : String → Option (List (Sheet α))) (platform_name : String) :
    Py (DetectorsRSR α) := do
  let (path, output_dir) ← sectionPath options (platform_name ++ "-ahi")
  match files path with
  | none => .error .attributeError
  | some sheets => return { output_dir, rsr := ahiLoad sheets }

/-- models rsr_convert_scripts/ahi_reader.py:97-99: the attributes set before the names of the bands -/
def ahiAttrs (platform_name : String) : Attrs α :=
  [("description", .text (.str "Relative Spectral Responses for AHI") "Relative Spectral Responses for AHI"),
   ("platform_name", .text (.str platform_name) platform_name),
   ("sensor", .text (.str "ahi") "ahi")]

/-- models rsr_convert_scripts/ahi_reader.py:88-100 (`convert2hdf5`), with the files it leaves
behind.  Line 100 gives h5py the values of a dictionary for the names of the bands; h5py has no type
for such an object (TypeError), so the rest of the function is never run. -/
def ahiConvert (options : List (String × Conf)) (files : String → Option (List (Sheet α))) (platform_name : String) :
    PySt (H5Files α) Unit := do
  let ahi ← PySt.lift (AhiRSR options files platform_name)
  let filename : Path := (ahi.output_dir, "rsr_ahi_" ++ platform_name ++ ".h5")
  PySt.modify fun fs => fs.put filename ⟨ahiAttrs platform_name, []⟩
  PySt.raise .typeError

end Verif.Model
