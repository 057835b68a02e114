import Verif.Model.Config
import Verif.Model.WriterSteps
import Verif.Model.Convert
/-
Model of the converters of original responses that read one text table per band
(rsr_convert_scripts/abi_rsr.py, ami_reader.py, avhrr_rsr.py, cocts_rsr.py, mersi2_rsr.py,
mersi3_rsr.py, mersirm_rsr.py, msu_gs_reader.py, virr_rsr.py): construction, reading, and what is
passed on to pyspectral/utils.py (`convert2hdf5`).
-/
namespace Verif.Model
open PyNum
variable {α : Type} [PyNum α]

/-! ### np.genfromtxt -/

/-- What `np.genfromtxt(..., unpack=True)` returns: without field names a two-dimensional array
that is indexed by columns; with several field names a Python list of columns.  (This is numpy
1.20 and later; setup.py:13 asks for 1.21.) -/
inductive GenTable (α : Type) where
  | array (cols : List (List α))
  | list (cols : List (List α))

/-- the columns of a table of numbers; ValueError when the rows have different lengths -/
def columnsOf (rows : List (List α)) : Py (List (List α)) :=
  match rows with
  | [] => .ok []
  | r :: _ =>
    if rows.all (fun s => s.length == r.length) then
      .ok ((List.range r.length).map fun j => rows.filterMap fun s => s[j]?)
    else .error .valueError

/-- models `np.genfromtxt(file, unpack=True, names=names, skip_header=skip)` as used in
rsr_convert_scripts/abi_rsr.py:53-55 and the other scripts.  A file is given by the numbers on its
lines.  (Simplified: comments, and the squeezing of tables with one row or one column.) -/
def genfromtxt (names : Option (List String)) (skip : Nat) (lines : List (List α)) : Py (GenTable α) := do
  let cols ← columnsOf (lines.drop skip)
  match names with
  | none => return .array cols
  | some ns => return .list (cols.take ns.length)

/-- `data[i]` -/
def GenTable.col (t : GenTable α) (i : Nat) : Py (List α) :=
  match (match t with | .array cs => cs | .list cs => cs)[i]? with
  | some c => .ok c
  | none => .error .indexError

/-- `data['name']`: a list cannot be indexed by a string (TypeError), nor an array without fields
(IndexError) -/
def GenTable.field (t : GenTable α) (_name : String) : Py (List α) :=
  match t with
  | .array _ => .error .indexError
  | .list _ => .error .typeError

/-! ### Reading the table of a band -/

/-- models rsr_convert_scripts/abi_rsr.py:49-59 (`_load`) -/
def abiLoad (lines : List (List α)) (scale : α := 1.0) : Py (RawCurve α) := do
  let data ← genfromtxt none 2 lines
  let wvl ← data.col 0
  let resp ← data.col 2
  return ⟨wvl.map (· * scale), resp⟩

/-- models rsr_convert_scripts/mersi3_rsr.py:46-61 (`_load`) -/
def mersi3Load (lines : List (List α)) (scale : α := 0.001) : Py (RawCurve α) := do
  let res ← genfromtxt none 0 lines
  let wavelength ← res.col 0
  let response ← res.col 1
  return ⟨wavelength.map (· * scale), response⟩

/-- models rsr_convert_scripts/mersirm_rsr.py:40-54 (`_load`) -/
def mersirmLoad (lines : List (List α)) (scale : α := 0.001) : Py (RawCurve α) := do
  let data ← genfromtxt (some ["wavelength", "response"]) 1 lines
  let wavelength ← data.col 0
  let response ← data.col 1
  return ⟨wavelength.map (· * scale), response⟩

/-- models rsr_convert_scripts/msu_gs_reader.py:54-68 (`_load`) -/
def msugsLoad (lines : List (List α)) (scale : α := 10000.0) : Py (RawCurve α) := do
  let data ← genfromtxt (some ["wavenumber", "response"]) 4 lines
  let wavenumber ← data.col 0
  let response ← data.col 1
  return fromWavenumbers wavenumber response scale

/-- models rsr_convert_scripts/mersi2_rsr.py:48-62 and rsr_convert_scripts/virr_rsr.py:46-60
(`_load`) -/
def mersi2Load (lines : List (List α)) (scale : α := 0.001) : Py (RawCurve α) := do
  let data ← genfromtxt (some ["wavelength", "response"]) 0 lines
  let wavelength ← data.field "wavelength"
  let response ← data.field "response"
  return ⟨wavelength.map (· * scale), response⟩

/-- models rsr_convert_scripts/avhrr_rsr.py:52-63 (`_load`) -/
def avhrrLoad (lines : List (List α)) (scale : α := 1.0) : Py (RawCurve α) := do
  let data ← genfromtxt (some ["wavelength", "response"]) 1 lines
  let wavelength ← data.field "wavelength"
  let response ← data.field "response"
  return ⟨wavelength.map (· * scale), response⟩

/-- models rsr_convert_scripts/cocts_rsr.py:47-60 (`_load`) -/
def coctsLoad (bandname : String) (lines : List (List α)) (scale : α := 0.001) : Py (RawCurve α) := do
  let data ← genfromtxt (some ["wavelength", "ch1", "ch2", "ch3", "ch4", "ch5", "ch6", "ch7", "ch8"]) 0 lines
  let wavelength ← data.field "wavelength"
  let response ← data.field bandname
  return ⟨wavelength.map (· * scale), response⟩

/-- models rsr_convert_scripts/ami_reader.py:58-72 (`_load`) -/
def amiLoad (lines : List (List α)) (scale : α := 10000.0) : Py (RawCurve α) := do
  let data ← genfromtxt (some ["wavenumber", "response"]) 4 lines
  let wavenumber ← data.field "wavenumber"
  let response ← data.field "response"
  return fromWavenumbers wavenumber response scale

/-! ### Construction -/

/-- What a converter does when the file of the band is missing: raise IOError
(rsr_convert_scripts/abi_rsr.py:43-45) or log a warning and go on with `rsr = None`
(rsr_convert_scripts/mersi3_rsr.py:39-41). -/
inductive OnMissing where
  | warn
  | raise

/-- the object handed to the writer when data were read -/
def RawSensor.ofCurve (instrument output_dir : String) (c : RawCurve α) : RawSensor α :=
  ⟨instrument, output_dir, [("wavelength", .arr c.wavelength), ("response", .arr c.response)], []⟩

/-- the object handed to the writer when the file was missing: `rsr` is None, and `rsr["wavelength"]`
is a TypeError.  (The model has it as an entry that is no array, which gives the same error.) -/
def RawSensor.noData (instrument output_dir : String) : RawSensor α :=
  ⟨instrument, output_dir, [("wavelength", .num 0)], []⟩

/-- models the constructors, e.g. rsr_convert_scripts/abi_rsr.py:29-47 and
rsr_convert_scripts/mersi3_rsr.py:25-44.  `files` is what `os.path.exists` and `np.genfromtxt` find.
An instrument that is no string (`none`) cannot be appended to the platform name: TypeError.
(A configured output directory that is no string fails here; in Python it fails when the path is
joined.) -/
def textClass {φ : Type} (options : List (String × Conf)) (files : String → Option φ) (bandnames : List String)
    (instrument : Option String) (missing : OnMissing) (load : φ → Py (RawCurve α))
    (bandname platform_name : String) : Py (RawSensor α) := do
  let r ← ({ InstrumentRSR.new bandname platform_name (some bandnames) with instrument } : InstrumentRSR).getOptionsFrom options
  let r ← r.getBandfilenames
  let name ← Dict.getItem r.filenames bandname
  match r.instrument, r.output_dir with
  | some inst, some (.leaf (.str out)) =>
    match name.bind files with
    | some lines => return RawSensor.ofCurve inst out (← load lines)
    | none =>
      match missing with
      | .warn => return RawSensor.noData inst out
      | .raise => .error .ioError
  | _, _ => .error .typeError

/-- `INSTRUMENTS.get(platform_name, default)`; a list is no instrument name -/
def instrumentOr (platform_name default : String) : Option String :=
  match (INSTRUMENTS.get? platform_name).getD (.one default) with
  | .one s => some s
  | .many _ => none

/-- `['ch1', ..., 'chn']` -/
def chNames (n : Nat) : List String := (List.range n).map fun i => "ch" ++ toString (i + 1)

/-- models rsr_convert_scripts/abi_rsr.py:26-59 with the band names of lines 20-23 -/
def AbiRSR (options : List (String × Conf)) (files : String → Option (List (List α))) (bandname platform_name : String) :
    Py (RawSensor α) :=
  textClass options files (chNames 16) (some "abi") .raise (fun ls => abiLoad ls) bandname platform_name

/-- models rsr_convert_scripts/mersi3_rsr.py:22-61 with the band names of lines 16-19 -/
def Mersi3RSR (options : List (String × Conf)) (files : String → Option (List (List α))) (bandname platform_name : String) :
    Py (RawSensor α) :=
  textClass options files (chNames 25) (some "mersi3") .warn (fun ls => mersi3Load ls) bandname platform_name

/-- models rsr_convert_scripts/mersirm_rsr.py:17-54 with the band names of line 14 -/
def MersiRMRSR (options : List (String × Conf)) (files : String → Option (List (List α))) (bandname platform_name : String) :
    Py (RawSensor α) :=
  textClass options files (chNames 8) (instrumentOr platform_name "mersi-rm") .warn (fun ls => mersirmLoad ls) bandname
    platform_name

/-- models rsr_convert_scripts/msu_gs_reader.py:28-68 with the band names of lines 18-19 -/
def MsugsRSR (options : List (String × Conf)) (files : String → Option (List (List α))) (bandname platform_name : String) :
    Py (RawSensor α) :=
  textClass options files (chNames 10) (some "msu-gs") .warn (fun ls => msugsLoad ls) bandname platform_name

/-- models rsr_convert_scripts/mersi2_rsr.py:24-62 with the band names of lines 18-21 -/
def Mersi2RSR (options : List (String × Conf)) (files : String → Option (List (List α))) (bandname platform_name : String) :
    Py (RawSensor α) :=
  textClass options files (chNames 25) (instrumentOr platform_name "mersi-2") .warn (fun ls => mersi2Load ls) bandname
    platform_name

/-- models rsr_convert_scripts/cocts_rsr.py:23-60 with the band names of line 20 -/
def CoctsRSR (options : List (String × Conf)) (files : String → Option (List (List α))) (bandname platform_name : String) :
    Py (RawSensor α) :=
  textClass options files (chNames 8) (instrumentOr platform_name "cocts") .warn (fun ls => coctsLoad bandname ls) bandname
    platform_name

/-- models rsr_convert_scripts/ami_reader.py:31-72 with the band names of lines 19-22 -/
def AmiRSR (options : List (String × Conf)) (files : String → Option (List (List α))) (bandname platform_name : String) :
    Py (RawSensor α) :=
  textClass options files (chNames 16) (some "ami") .warn (fun ls => amiLoad ls) bandname platform_name

/-- models rsr_convert_scripts/avhrr_rsr.py:18-20 -/
def AVHRR_BAND_NAMES : Dict String (List String) :=
  [("avhrr/3", ["ch1", "ch2", "ch3a", "ch3b", "ch4", "ch5"]), ("avhrr/2", ["ch1", "ch2", "ch3", "ch4", "ch5"]),
   ("avhrr/1", ["ch1", "ch2", "ch3", "ch4"])]

/-- models rsr_convert_scripts/avhrr_rsr.py:23-63: KeyError for platforms that are unknown or carry no
AVHRR, TypeError (a list is no key) for platforms with several instruments -/
def AvhrrRSR (options : List (String × Conf)) (files : String → Option (List (List α))) (bandname platform_name : String) :
    Py (RawSensor α) := do
  match ← INSTRUMENTS.getItem platform_name with
  | .many _ => .error .typeError
  | .one inst =>
    let names ← AVHRR_BAND_NAMES.getItem inst
    textClass options files names (some inst) .warn
      (fun ls => if inst = "avhrr/1" then avhrrLoad ls 0.001 else avhrrLoad ls) bandname platform_name

/-- models rsr_convert_scripts/virr_rsr.py:18-21 -/
def VIRR_BAND_NAMES : Dict String (List String) :=
  [("FY-3B", chNames 10), ("FY-3C", ["ch1", "ch2", "ch6", "ch7", "ch8", "ch9", "ch10"])]

/-- models rsr_convert_scripts/virr_rsr.py:24-60: KeyError for other platforms -/
def VirrRSR (options : List (String × Conf)) (files : String → Option (List (List α))) (bandname platform_name : String) :
    Py (RawSensor α) := do
  let names ← VIRR_BAND_NAMES.getItem platform_name
  textClass options files names (instrumentOr platform_name "virr") .warn (fun ls => mersi2Load ls) bandname platform_name

end Verif.Model
