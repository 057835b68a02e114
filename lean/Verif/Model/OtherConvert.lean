import Verif.Model.TextConvert
import Verif.Model.MoreConvert
/-
Model of the remaining converters of original responses as a whole, from the configuration to the
object handed to the writer: rsr_convert_scripts/agri_rsr.py, ghi_rsr.py, mersi1_rsr.py,
slstr_rsr_txt.py (a text table per band), msi_reader.py, epic_reader.py, goci2_rsr.py and fci_rsr.py
(one file for all bands).
-/
namespace Verif.Model
open PyNum
variable {α : Type} [PyNum α]

/-! ### A text table per band -/

/-- models rsr_convert_scripts/agri_rsr.py:57-59 (also rsr_convert_scripts/ghi_rsr.py:32-34, rsr_convert_scripts/mersi1_rsr.py:37-39): the
instrument of the platform, the given one where there is none or several -/
def instrumentAmong (platform_name default : String) : String :=
  match INSTRUMENTS.get? platform_name with
  | some (.one s) => s
  | _ => default

/-- models rsr_convert_scripts/ghi_rsr.py:15-22: is the wavelength of the band given in nanometres
(scale 0.001)? -/
def GHI_IN_NANOMETRES : Dict String (Dict String Bool) :=
  [("FY-4B", [("ch1", true), ("ch2", true), ("ch3", true), ("ch4", true), ("ch5", true), ("ch6", true), ("ch7", false)])]

/-- models rsr_convert_scripts/agri_rsr.py:67-73 and 81-105 (also rsr_convert_scripts/ghi_rsr.py:42-48 and 56-80): the
scale of the band, KeyError for an unknown platform and AttributeError for a band without scale;
then the table, whose first line is skipped -/
def scaledLoad (table : Dict String (Dict String Bool)) (platform_name bandname : String) (lines : List (List α)) :
    Py (RawCurve α) := do
  let scales ← table.getItem platform_name
  match scales.get? bandname with
  | none => .error .attributeError
  | some nano =>
    let data ← genfromtxt (some ["wavelength", "response"]) 1 lines
    agriLoad (← data.col 0) (← data.col 1) (if nano then 0.001 else 1.0)

/-- models rsr_convert_scripts/agri_rsr.py:47-105: `AGRIRSR`; one band less on FY-4A (lines 52-55) -/
def AgriRSR (options : List (String × Conf)) (files : String → Option (List (List α))) (bandname platform_name : String) :
    Py (RawSensor α) :=
  textClass options files (if platform_name = "FY-4A" then AGRI_BAND_NAMES.dropLast else AGRI_BAND_NAMES)
    (some (instrumentAmong platform_name "agri")) .warn (scaledLoad AGRI_IN_NANOMETRES platform_name bandname)
    bandname platform_name

/-- models rsr_convert_scripts/ghi_rsr.py:25-80: `GHIRSR`, with the band names of line 14 -/
def GhiRSR (options : List (String × Conf)) (files : String → Option (List (List α))) (bandname platform_name : String) :
    Py (RawSensor α) :=
  textClass options files (chNames 7) (some (instrumentAmong platform_name "ghi")) .warn
    (scaledLoad GHI_IN_NANOMETRES platform_name bandname) bandname platform_name

/-- models rsr_convert_scripts/mersi1_rsr.py:20-25 -/
def mersi1Names (platform_name : String) : List String :=
  if platform_name ≠ "FY-3B" then chNames 20 else (chNames 20).filter (· ≠ "ch5")

/-- models rsr_convert_scripts/mersi1_rsr.py:55-94 (`_load`).  (Simplified: when exactly one sample is
kept, numpy's squeeze makes a 0-dimensional array of it.) -/
def mersi1Load (platform_name bandname : String) (lines : List (List α)) (scale : α := 0.001) : Py (RawCurve α) := do
  let data ← genfromtxt none 0 lines
  let wavelength := (← data.col 0).map (· * scale)
  let response ← if platform_name ≠ "FY-3B" then data.col 1 else data.col (← mersi1ColumnFY3B bandname)
  let c := cutBelow 0.001 ⟨wavelength, response⟩
  if bandname ∈ ["1", "2", "3"] then
    let m := (← data.field "wavelength").map fun w => lt w 800
    return ⟨select m c.wavelength, select m c.response⟩
  else return c

/-- models rsr_convert_scripts/mersi1_rsr.py:28-94: `Mersi1FY3ABRSR` -/
def Mersi1RSR (options : List (String × Conf)) (files : String → Option (List (List α))) (bandname platform_name : String) :
    Py (RawSensor α) :=
  textClass options files (mersi1Names platform_name) (some (instrumentAmong platform_name "mersi-1")) .warn
    (mersi1Load platform_name bandname) bandname platform_name

/-- models rsr_convert_scripts/slstr_rsr_txt.py:49-61 (`_load`).  (`rsr_data[:, j]` of a table that is
not transposed is the column j.) -/
def slstrTxtLoad (lines : List (List α)) : Py (RawCurve α) := do
  let data ← genfromtxt none 4 lines
  return slstrFromWavenumbers (← data.col 0) (← data.col 1)

/-- models rsr_convert_scripts/slstr_rsr_txt.py:26-61: `SlstrTxtRSR`, with the band names of lines 22-23 -/
def SlstrTxtRSR (options : List (String × Conf)) (files : String → Option (List (List α))) (bandname platform_name : String) :
    Py (RawSensor α) :=
  textClass options files (chNames 9) (some "slstr") .raise slstrTxtLoad bandname platform_name

/-! ### One file for all bands -/

/-- A sheet, or a table of comma separated values, as pandas gives it: headings and columns in order.
(pandas makes the headings different.) -/
abbrev Frame (α : Type) := List (String × List α)

/-- models `df.columns.get_loc(name)` as in rsr_convert_scripts/epic_reader.py:74; KeyError -/
def Frame.getLoc (df : Frame α) (name : String) : Py Nat :=
  match df.findIdx? (fun c => c.1 == name) with
  | some i => .ok i
  | none => .error .keyError

/-- models `df.iloc[:, i]` as in rsr_convert_scripts/epic_reader.py:75-76; -1 is the last column -/
def Frame.iloc (df : Frame α) (i : Int) : Py (List α) := NP.pyIndex (df.map Prod.snd) i

/-- models the constructors rsr_convert_scripts/epic_reader.py:41-61, rsr_convert_scripts/goci2_rsr.py:44-63 and
rsr_convert_scripts/msi_reader.py:46-59.  (A configured output directory that is no string fails here; in Python it
fails when the path is joined.) -/
def oneFileClass {φ : Type} (options : List (String × Conf)) (files : String → Option φ) (instrument : String)
    (missing : OnMissing) (load : φ → Py (RawCurve α)) (bandname platform_name : String) : Py (RawSensor α) := do
  let r ← ({ InstrumentRSR.new bandname platform_name with instrument := some instrument } : InstrumentRSR).getOptionsFrom options
  match r.output_dir with
  | some (.leaf (.str out)) =>
    match r.path.bind files with
    | some content => return RawSensor.ofCurve instrument out (← load content)
    | none =>
      match missing with
      | .warn => return RawSensor.noData instrument out
      | .raise => .error .ioError
  | _ => .error .typeError

/-- models rsr_convert_scripts/epic_reader.py:20-29 -/
def EPIC_BAND_NAMES : Dict String String :=
  [("B317", "T(317.5) %"), ("B325", "T(325) %"), ("B340", "T(340) %"), ("B388", "T(388) %"), ("B443", "T(443) %"),
   ("B551", "T(551) %"), ("B680", "T(680) %"), ("B688", "T(687.75) %"), ("B764", "T(764) %"), ("B780", "T(779.5) %")]

/-- models rsr_convert_scripts/epic_reader.py:63-85 (`_load`) on the sheet after its heading -/
def epicLoad (bandname : String) (df : Frame α) : Py (RawCurve α) := do
  let pos ← df.getLoc (← EPIC_BAND_NAMES.getItem bandname)
  epicColumns (← df.iloc ((pos : Int) - 1)) (← df.iloc pos)

/-- models rsr_convert_scripts/epic_reader.py:38-85: `EpicRSR` -/
def EpicRSR (options : List (String × Conf)) (files : String → Option (Frame α)) (bandname platform_name : String) :
    Py (RawSensor α) :=
  oneFileClass options files "epic" .warn (epicLoad bandname) bandname platform_name

/-- models rsr_convert_scripts/goci2_rsr.py:21-32 -/
def GOCI2_BAND_NAMES : Dict String String :=
  [("L380", "B1 (380 nm)"), ("L412", "B2 (412 nm)"), ("L443", "B3 (443 nm)"), ("L490", "B4 (490 nm)"),
   ("L510", "B5 (510 nm)"), ("L555", "B6 (555 nm)"), ("L620", "B7 (620 nm)"), ("L660", "B8 (660 nm)"),
   ("L680", "B9 (680 nm)"), ("L709", "B10 (709 nm)"), ("L745", "B11 (745 nm)"), ("L865", "B12 (865 nm)")]

/-- models rsr_convert_scripts/goci2_rsr.py:65-84 (`_load`) -/
def goci2Load (bandname : String) (df : Frame α) : Py (RawCurve α) := do
  let pos ← df.getLoc (← GOCI2_BAND_NAMES.getItem bandname)
  gappyColumns (← df.iloc ((pos : Int) - 1)) (← df.iloc pos)

/-- models rsr_convert_scripts/goci2_rsr.py:41-84: `GOCI2RSR` -/
def Goci2RSR (options : List (String × Conf)) (files : String → Option (Frame α)) (bandname platform_name : String) :
    Py (RawSensor α) :=
  oneFileClass options files "goci2" .warn (goci2Load bandname) bandname platform_name

/-- models rsr_convert_scripts/msi_reader.py:20-32 -/
def MSI_BAND_NAMES : Dict String String :=
  [("B01", "B1"), ("B02", "B2"), ("B03", "B3"), ("B04", "B4"), ("B05", "B5"), ("B06", "B6"), ("B07", "B7"), ("B08", "B8"),
   ("B8A", "B8A"), ("B09", "B9"), ("B10", "B10"), ("B11", "B11"), ("B12", "B12")]

/-- models rsr_convert_scripts/msi_reader.py:34-36 -/
def MSI_SHEET_HEADERS : Dict String String :=
  [("S2A", "Spectral Responses (S2A)"), ("S2B", "Spectral Responses (S2B)"), ("S2C", "Spectral Responses (S2C)")]

/-- models rsr_convert_scripts/msi_reader.py:38-40 -/
def MSI_PLATFORM_SHORT_NAME : Dict String String :=
  [("Sentinel-2A", "S2A"), ("Sentinel-2B", "S2B"), ("Sentinel-2C", "S2C")]

/-- models rsr_convert_scripts/msi_reader.py:61-74 (`_load`) on the sheets of the file; ValueError for a
sheet that is not there, KeyError for a column that is not there.  (An unknown band gives None.) -/
def msiLoad (short_plat bandname : String) (sheets : String → Option (Frame α)) : Py (RawCurve α) := do
  let bname := (MSI_BAND_NAMES.get? bandname).getD "None"
  match sheets (← MSI_SHEET_HEADERS.getItem short_plat) with
  | none => .error .valueError
  | some df =>
    let wvl ← Dict.getItem df "SR_WL"
    let resp ← Dict.getItem df (short_plat ++ "_SR_AV_" ++ bname)
    return msiCut wvl resp

/-- models rsr_convert_scripts/msi_reader.py:43-74: `MsiRSR` -/
def MsiRSR (options : List (String × Conf)) (files : String → Option (String → Option (Frame α)))
    (bandname platform_name : String) : Py (RawSensor α) := do
  let short_plat ← MSI_PLATFORM_SHORT_NAME.getItem platform_name
  oneFileClass options files "msi" .raise (msiLoad short_plat bandname) bandname platform_name

/-- models rsr_convert_scripts/fci_rsr.py:20-45: `FciRSR`.  The file is given by the names and curves of
its channels; a path and None cannot be joined (TypeError). -/
def FciRSR (options : List (String × Conf)) (files : String → Option (List (String × RawCurve α)))
    (bandname platform_name : String) : Py (RawSensor α) := do
  let r ← ({ InstrumentRSR.new bandname platform_name with instrument := some "fci" } : InstrumentRSR).getOptionsFrom options
  match r.output_dir, r.path, r.filename with
  | some (.leaf (.str out)), some path, some (.leaf (.str name)) =>
    match files (OsPath.join path name) with
    | none => .error .fileNotFound
    | some channels =>
      match fciLoad channels bandname with
      | some c => return RawSensor.ofCurve "fci" out c
      | none => return RawSensor.noData "fci" out
  | _, _, _ => .error .typeError

/-- models rsr_convert_scripts/oli_tirs_reader.py:59-64: which of the two configured workbooks -/
def oliKey (bandname : String) : Py String :=
  if OLI_BAND_NAMES.contains bandname then .ok "oli"
  else if TIRS_BAND_NAMES_L8.contains bandname then .ok "tirs"
  else .error .valueError

/-- models rsr_convert_scripts/oli_tirs_reader.py:73-99 (`_load`) on the sheets of the workbook: a
ValueError for a sheet that is not there, a KeyError for a column that is not there.  (With exactly one
sample left numpy's squeeze makes a 0-dimensional array of it; that case is not modelled.) -/
def oliLoad (platform_name bandname : String) (book : String → Option (Frame α)) : Py (RawCurve α) := do
  let src ← oliSource platform_name bandname
  match book src.2.1 with
  | none => .error .valueError
  | some df =>
    let wvl ← Dict.getItem df src.2.2.1
    let resp ← Dict.getItem df src.2.2.2
    return oliCut wvl resp

/-- models rsr_convert_scripts/oli_tirs_reader.py:49-71: `OliRSR`.  `files` is what `Path.exists` and
`pd.read_excel` find.  (A configured output directory that is no string fails here; in Python it fails
when the path is joined.) -/
def OliRSR (options : List (String × Conf)) (files : String → Option (String → Option (Frame α)))
    (bandname platform_name : String) : Py (RawSensor α) := do
  let r ← ({ InstrumentRSR.new bandname platform_name with instrument := some "oli_tirs" } : InstrumentRSR).getOptionsFrom options
  let opts ← r.sectionOf options
  let name ← Dict.getItem opts (← oliKey bandname)
  match r.output_dir, r.path, name with
  | some (.leaf (.str out)), some path, .leaf (.str name) =>
    match files (OsPath.join path name) with
    | none => .error .ioError
    | some book => return RawSensor.ofCurve "oli_tirs" out (← oliLoad platform_name bandname book)
  | _, _, _ => .error .typeError

end Verif.Model
