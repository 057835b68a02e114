import Verif.Model.Writer
import Verif.Model.Config
import Verif.Model.Utils
import Verif.Base.Arr
/-
Model of the scripts that convert agency data to the internal format (rsr_convert_scripts/):
reading the original data and, for MODIS and SEVIRI, writing the file.  Text files are given by
their lines, tables by their columns; the number parsers `int()` and `float()` are parameters.
-/
namespace Verif

/-- `s.split()` on characters: the maximal pieces without white space -/
def Str.wordsL : List Char → List (List Char)
  | [] => []
  | c :: cs =>
    let ws := wordsL cs
    if Str.isSpace c then ws
    else if (cs.head?.map Str.isSpace).getD true then [c] :: ws
    else match ws with
      | [] => [[c]]
      | p :: ps => (c :: p) :: ps

/-- `s.split()` -/
def Str.words (s : String) : List String := (Str.wordsL s.toList).map String.ofList

namespace Model
open PyNum
variable {α : Type} [PyNum α]

/-- Wavelengths and responses. -/
structure RawCurve (α : Type) where
  wavelength : List α
  response : List α

/-- `int()` and `float()` of a string: ValueError for anything that is no number -/
structure Parsers (α : Type) where
  int : String → Py Int
  float : String → Py α

/-! ### MODIS -/

/-- models rsr_convert_scripts/modis_rsr.py:112 (the key of a detector) -/
def detKey (n : Int) : String := "det-" ++ toString n

/-- models rsr_convert_scripts/modis_rsr.py:109-117: one line.  (What is left of the dictionary
when the line raises is not modelled: the caller never sees it.) -/
def modisLine (P : Parsers α) (scale : α) (detectors : Dict String (RawCurve α)) (line : String) :
    Py (Dict String (RawCurve α)) :=
  if Str.startsWith line "#" then .ok detectors
  else match Str.words line with
    | [_, det_num, s_1, s_2] => do
      let name := detKey (← P.int det_num)
      let c := (detectors.get? name).getD ⟨[], []⟩
      let w ← P.float s_1
      let r ← P.float s_2
      return detectors.set name ⟨c.wavelength ++ [w * scale], c.response ++ [r]⟩
    | _ => .error .valueError

/-- models rsr_convert_scripts/modis_rsr.py:120-124: the samples marked as missing are removed -/
def dropNodata (c : RawCurve α) : RawCurve α :=
  let keep := c.response.map fun r => !eq r (-(99.0 : α))
  ⟨select keep c.wavelength, select keep c.response⟩

/-- models rsr_convert_scripts/modis_rsr.py:94-126 (`read_modis_response`) on the lines of the file -/
def readModisResponse (P : Parsers α) (lines : List String) (scale : α := 1.0) : Py (Dict String (RawCurve α)) := do
  let detectors ← lines.foldlM (modisLine P scale) []
  return detectors.mapVals dropNodata

/-- models rsr_convert_scripts/modis_rsr.py:13 -/
def MODIS_BAND_NAMES : List String := (List.range 36).map fun i => toString (i + 1)

/-- models rsr_convert_scripts/modis_rsr.py:14 -/
def SHORTWAVE_BANDS : List String := ((List.range 19).map fun i => toString (i + 1)) ++ ["26"]

/-- `"{0:>02d}".format(n)` for a non-negative number -/
def twoDigits (n : Nat) : String := if n < 10 then "0" ++ toString n else toString n

/-- models rsr_convert_scripts/modis_rsr.py:54-65: the file of the band with number `bnum` -/
def modisFilename (platform_name path : String) (bnum : Nat) : String :=
  if platform_name = "EOS-Terra" then OsPath.join path ("rsr." ++ toString bnum ++ ".inb.final")
  else if bnum ∈ [5, 6, 7] ++ (List.range 17).map (· + 20) then
    OsPath.join path (twoDigits bnum ++ ".tv.1pct.det")
  else OsPath.join path (twoDigits bnum ++ ".amb.1pct.det")

/-- models rsr_convert_scripts/modis_rsr.py:49-67 (`_get_bandfilenames`) -/
def modisFilenames (platform_name path : String) : Dict String String :=
  (List.range 36).map fun i => (toString (i + 1), modisFilename platform_name path (i + 1))

/-- models rsr_convert_scripts/modis_rsr.py:80-91 (`sort`) on data per detector; no detector is
called "wavelength" -/
def sortDetectors (argsort : List α → List Nat) (rsr : Dict String (RawCurve α)) : Py (Dict String (RawCurve α)) :=
  rsr.mapM fun p => do
    let (w, r) ← sortData argsort p.2.wavelength p.2.response
    return (p.1, ⟨w, r⟩)

/-- What an original data reader is left with: data per detector, and where to write. -/
structure DetectorsRSR (α : Type) where
  output_dir : String
  rsr : Dict String (RawCurve α)

/-- models rsr_convert_scripts/modis_rsr.py:36-38: the options used.  (Simplified: the directory of
original data and the output directory must be strings.) -/
def sectionPath (options : List (String × Conf)) (key : String) : Py (String × String) := do
  match ← Dict.getItem options key with
  | .leaf _ => .error .attributeError
  | .map d =>
    match Dict.get? d "path", (Dict.get? options "rsr_dir").getD (.leaf (.str "./")) with
    | some (.leaf (.str path)), .leaf (.str out) => return (path, out)
    | _, _ => .error .typeError

/-- models rsr_convert_scripts/modis_rsr.py:69-78 (`_load`) on the lines of the file -/
def modisLoad (P : Parsers α) (argsort : List α → List Nat) (bandname platform_name : String) (sort : Bool)
    (lines : List String) : Py (Dict String (RawCurve α)) := do
  let scale : α := if bandname ∈ SHORTWAVE_BANDS ∨ platform_name = "EOS-Aqua" then 0.001 else 1.0
  let rsr ← readModisResponse P lines scale
  if sort then sortDetectors argsort rsr else return rsr

/-- models rsr_convert_scripts/modis_rsr.py:20-47 (`ModisRSR`).  `files` gives the lines of the
existing files. -/
def ModisRSR (P : Parsers α) (argsort : List α → List Nat) (options : List (String × Conf))
    (files : String → Option (List String)) (bandname platform_name : String) (sort : Bool := true) :
    Py (DetectorsRSR α) := do
  let (path, output_dir) ← sectionPath options (platform_name ++ "-modis")
  let filename ← (modisFilenames platform_name path).getItem bandname
  match files filename with
  | none => .error .ioError
  | some lines => return { output_dir, rsr := ← modisLoad P argsort bandname platform_name sort lines }

/-- `np.isclose(a, b)` with the default tolerances -/
def isClose (a b : α) : Bool :=
  (le (abs (a - b)) (1e-8 + 1e-5 * abs b) && isFinite b) || eq a b

/-- models rsr_convert_scripts/modis_rsr.py:150-157: are the other detectors sampled at the
wavelengths `wvl`? -/
def wvlIsConstant (wvl : List α) (others : List (RawCurve α)) : Bool :=
  others.all fun c => wvl.length == c.wavelength.length && (List.zipWith isClose wvl c.wavelength).all id

/-- models rsr_convert_scripts/modis_rsr.py:161-164 and 177-181: a wavelength data set in micron -/
def wavelengthSet (f32 : α → α) (arr : List α) : String × H5Data α :=
  ("wavelength", stored f32 arr [("unit", .text (.str "m") "m"), ("scale", .num 1e-6 "")])

/-- models rsr_convert_scripts/modis_rsr.py:167-185: the group of one detector -/
def modisDetector (f32 : α → α) (constant : Bool) (c : RawCurve α) : Py (H5Det α) := do
  let wvl ← withoutNaN c.wavelength c.wavelength
  let rsp ← withoutNaN c.wavelength c.response
  let cw ← getCentralWave wvl rsp
  return { attrs := [("central_wavelength", .num cw "")],
           datasets := (if constant then [] else [wavelengthSet f32 c.wavelength]) ++
             [("response", stored f32 c.response [])] }

/-- models rsr_convert_scripts/modis_rsr.py:144-185: the group of one band -/
def modisBand (f32 : α → α) (rsr : Dict String (RawCurve α)) : Py (H5Band α) := do
  match rsr with
  | [] => .error .indexError
  | first :: others =>
    let constant := wvlIsConstant first.2.wavelength (others.map Prod.snd)
    let dets ← rsr.mapM fun p => do return (p.1, ← modisDetector f32 constant p.2)
    return { attrs := [("number_of_detectors", .int rsr.length)],
             datasets := if constant then [wavelengthSet f32 first.2.wavelength] else [],
             dets }

/-- models rsr_convert_scripts/modis_rsr.py:129-185 (`convert2hdf5`): the file written and its
content.  (When it fails the partial file is in Model/ModisProgram.lean.) -/
def modisConvert (P : Parsers α) (argsort : List α → List Nat) (f32 : α → α) (options : List (String × Conf))
    (files : String → Option (List String)) (platform_name : String) : Py (Path × H5File α) := do
  let modis ← ModisRSR P argsort options files "20" platform_name
  let bands ← MODIS_BAND_NAMES.mapM fun chname => do
    let modis ← ModisRSR P argsort options files chname platform_name
    return (chname, ← modisBand f32 modis.rsr)
  return ((modis.output_dir, "rsr_modis_" ++ platform_name ++ ".h5"),
    { attrs := [("description", .text (.str "Relative Spectral Responses for MODIS")
                  "Relative Spectral Responses for MODIS"),
                ("platform_name", .text (.str platform_name) platform_name),
                ("band_names", .text (.array .object_ (MODIS_BAND_NAMES.map .str)) "")],
      bands })

/-! ### VIIRS -/

/-- models rsr_convert_scripts/viirs_rsr.py:157-160: number of lines read up to and including the
first one that does not start with '%' (at the end of the file readline gives '') -/
def linesRead : List String → Nat
  | [] => 1
  | line :: rest => if Str.startsWith line "%" then linesRead rest + 1 else 1

/-- models rsr_convert_scripts/viirs_rsr.py:153-162 (`get_header_lines2skip`) on the lines of the
file -/
def getHeaderLines2skip (lines : List String) : Int := (linesRead lines : Int) - 1

/-- one row of the VIIRS table, as far as it is used -/
structure ViirsRow (α : Type) where
  detector : Int
  wavelength : α
  response : α

/-- models rsr_convert_scripts/viirs_rsr.py:138-150: data per detector from the rows of the table -/
def viirsDetectors (rows : List (ViirsRow α)) (scale : α := 0.001) : Py (Dict String (RawCurve α)) := do
  let wavelength := rows.map fun r => r.wavelength * scale
  let response := rows.map ViirsRow.response
  let det := rows.map ViirsRow.detector
  match det with
  | [] => .error .valueError
  | d :: ds =>
    let n := (ds.foldl max d).toNat
    return (List.range n).map fun (idx : Nat) =>
      let m := det.map fun k => k == (idx : Int) + 1
      ("det-" ++ toString (idx + 1), ⟨select m wavelength, select m response⟩)

/-! ### SEVIRI -/

/-- a sheet of the workbook: its name and its columns of cells -/
structure Sheet (α : Type) where
  name : String
  col : Nat → List α

/-- `sheet.col_values(c, start_rowx=a, end_rowx=b)` -/
def Sheet.colValues (s : Sheet α) (c a b : Nat) : List α := ((s.col c).take b).drop a

/-- Responses of a satellite: one array, or arrays for the detector temperatures "95" and "85". -/
inductive SatResp (β : Type) where
  | one (r : β)
  | temps (d : Dict String β)

/-- Data of a channel: the samples (wavelengths or wavenumbers) and the responses by satellite. -/
structure SeviriChan (α : Type) where
  wave : List α
  sats : Dict String (SatResp (List α))

/-- models rsr_convert_scripts/seviri_rsr.py:76-135: one sheet -/
def seviriSheet (s : Sheet α) : SeviriChan α :=
  let ch_name := Str.strip s.name
  if Str.startsWith ch_name "HRV" then
    ⟨s.colValues 0 37 137,
     [("Meteosat-8", .one (s.colValues 1 37 137)), ("Meteosat-9", .one (s.colValues 3 37 137)),
      ("Meteosat-10", .one (s.colValues 5 37 137)), ("Meteosat-11", .one (s.colValues 6 37 137))]⟩
  else if Str.startsWith ch_name "IR" then
    ⟨s.colValues 0 13 113,
     [("Meteosat-8", .temps [("95", s.colValues 1 13 113), ("85", s.colValues 2 13 113)]),
      ("Meteosat-9", .temps [("95", s.colValues 3 13 113), ("85", s.colValues 4 13 113)]),
      ("Meteosat-10", .temps [("95", s.colValues 5 13 113), ("85", s.colValues 6 13 113)]),
      ("Meteosat-11", .temps [("95", s.colValues 7 13 113), ("85", s.colValues 8 13 113)])]⟩
  else
    ⟨s.colValues 0 12 112,
     [("Meteosat-8", .one (s.colValues 1 12 112)), ("Meteosat-9", .one (s.colValues 2 12 112)),
      ("Meteosat-10", .one (s.colValues 3 12 112)), ("Meteosat-11", .one (s.colValues 4 12 112))]⟩

/-- models rsr_convert_scripts/seviri_rsr.py:62-135 (`_load`): a later sheet of the same name
replaces an earlier one -/
def seviriLoad (sheets : List (Sheet α)) : Dict String (SeviriChan α) :=
  sheets.foldl (fun rsr s =>
    if s.name = "Info" ∨ s.name = "Requirements" then rsr
    else rsr.set (Str.strip s.name) (seviriSheet s)) []

/-- a function on every array of a satellite -/
def SatResp.map {β γ : Type} (f : β → γ) : SatResp β → SatResp γ
  | .one r => .one (f r)
  | .temps d => .temps (d.mapVals f)

/-- the same with a function that may raise -/
def SatResp.mapM {β γ : Type} (f : β → Py γ) : SatResp β → Py (SatResp γ)
  | .one r => do return .one (← f r)
  | .temps d => do return .temps (← d.mapM fun p => do return (p.1, ← f p.2))

/-- models rsr_convert_scripts/seviri_rsr.py:137-158 (`convert2wavenumber`) -/
def seviriWavenumber (rsr : Dict String (SeviriChan α)) : Dict String (SeviriChan α) :=
  rsr.mapVals fun c =>
    ⟨(c.wave.map fun w => 1.0 / (1e-4 * w)).reverse, c.sats.mapVals (SatResp.map List.reverse)⟩

/-- models rsr_convert_scripts/seviri_rsr.py:192-194 (`get_central_wave`) -/
def seviriCentralWave (wavl resp : List α) : Py α := do
  let a ← NP.trapezoid (← NP.bcast2 (· * ·) resp wavl) wavl
  let b ← NP.trapezoid resp wavl
  return a / b

/-- models rsr_convert_scripts/seviri_rsr.py:160-184 (`get_centrals`): the central waves of all
channels and satellites -/
def seviriCentrals (rsr : Dict String (SeviriChan α)) : Py (Dict String (Dict String (SatResp α))) :=
  rsr.mapM fun p => do
    let sats ← p.2.sats.mapM fun q => do return (q.1, ← q.2.mapM (seviriCentralWave p.2.wave))
    return (p.1, sats)

/-- models rsr_convert_scripts/seviri_rsr.py:17-53 (`Seviri`), given the workbook: the data, and the
central wavelengths or wavenumbers.  AttributeError for other wave spaces. -/
structure Seviri (α : Type) where
  output_dir : String
  rsr : Dict String (SeviriChan α)
  wavespace : String
  unit : String
  central_wavelength : Option (Dict String (Dict String (SatResp α)))
  central_wavenumber : Option (Dict String (Dict String (SatResp α)))

/-- models rsr_convert_scripts/seviri_rsr.py:36-53 and 186-189: the constructor -/
def Seviri.new (sheets : List (Sheet α)) (output_dir : String) (wavespace : String := "wavelength") : Py (Seviri α) := do
  let rsr := seviriLoad sheets
  if wavespace = "wavelength" then
    return ⟨output_dir, rsr, wavespace, "micrometer", some (← seviriCentrals rsr), none⟩
  else if wavespace = "wavenumber" then
    let rsr := seviriWavenumber rsr
    return ⟨output_dir, rsr, wavespace, "cm-1", none, some (← seviriCentrals rsr)⟩
  else .error .attributeError

/-- `x['95']` for the responses of a satellite: an array cannot be indexed by a string
(IndexError) -/
def SatResp.at95 {β : Type} : SatResp β → Py β
  | .one _ => .error .indexError
  | .temps d => d.getItem "95"

/-- models rsr_convert_scripts/seviri_rsr.py:217-222: the central wavelength written -/
def SatResp.central {β : Type} : SatResp β → Py β
  | .one c => .ok c
  | .temps d => d.getItem "95"

/-- `try: a except ValueError: b` -/
def orValueError {β : Type} (a b : Py β) : Py β :=
  match a with
  | .error .valueError => b
  | r => r

/-- models rsr_convert_scripts/seviri_rsr.py:229-231: the responses written -/
def SatResp.responses {β : Type} (s : SatResp β) : Py β :=
  orValueError s.at95 (match s with
    | .one r => .ok r
    | .temps _ => .error .attributeError)

/-- models rsr_convert_scripts/seviri_rsr.py:215-233: the group of one channel -/
def seviriBand (f32 : α → α) (centrals : Dict String (Dict String (SatResp α))) (sat_name key : String)
    (c : SeviriChan α) : Py (H5Band α) := do
  let cw ← (← (← centrals.getItem key).getItem sat_name).central
  let arr ← (← c.sats.getItem sat_name).responses
  return { attrs := [("central_wavelength", .num cw "")],
           datasets := [wavelengthSet f32 c.wave, ("response", stored f32 arr [])],
           dets := [] }

/-- models rsr_convert_scripts/seviri_rsr.py:197-233 (`generate_seviri_file`): the file written and
its content.  An object in wavenumber space has no central wavelengths (TypeError) unless there is
no channel at all.  (When it fails the partial file is in Model/SeviriProgram.lean.) -/
def generateSeviriFile (f32 : α → α) (seviri : Seviri α) (platform_name : String) : Py (Path × H5File α) := do
  let bands ← seviri.rsr.mapM fun p => do
    match seviri.central_wavelength with
    | none => .error .typeError
    | some centrals => return (p.1, ← seviriBand f32 centrals platform_name p.1 p.2)
  return ((seviri.output_dir, "rsr_seviri_" ++ platform_name ++ ".h5"),
    { attrs := [("description", .text (.str "Relative Spectral Responses for SEVIRI")
                  "Relative Spectral Responses for SEVIRI"),
                ("platform_name", .text (.str platform_name) platform_name),
                ("band_names", .text (.array .object_ (seviri.rsr.keys.map .str)) "")],
      bands })

/-! ### Tables in wavenumbers, and other text tables -/

/-- models rsr_convert_scripts/ami_reader.py:67-72 (also rsr_convert_scripts/msu_gs_reader.py:62-68): samples by
wavenumber (cm-1) to wavelengths (micron), in reversed order -/
def fromWavenumbers (wavenumber response : List α) (scale : α := 10000.0) : RawCurve α :=
  ⟨wavenumber.reverse.map fun n => 1.0 / n * scale, response.reverse⟩

/-- models rsr_convert_scripts/slstr_rsr_txt.py:55-61 -/
def slstrFromWavenumbers (wavenumber response : List α) : RawCurve α :=
  ⟨wavenumber.reverse.map fun n => 10000.0 / n, response.reverse⟩

/-- models rsr_convert_scripts/agri_rsr.py:99-103: keep the samples above a response -/
def cutBelow (limit : α) (c : RawCurve α) : RawCurve α :=
  let m := c.response.map fun r => gt r limit
  ⟨select m c.wavelength, select m c.response⟩

/-- models rsr_convert_scripts/agri_rsr.py:92-105 (and rsr_convert_scripts/ghi_rsr.py:67-80): the
curve from the two columns.  (`np.nanmax` of an empty array is a ValueError.  Simplified: when
exactly one sample is kept, numpy's squeeze makes a 0-dimensional array of it.) -/
def agriLoad (wavelength response : List α) (scale : α) : Py (RawCurve α) :=
  let w := wavelength.map (· * scale)
  match response with
  | [] => .error .valueError
  | _ =>
    let r := if response.any (fun x => gt x 1) then response.map (· / 100.0) else response
    .ok (cutBelow 0.001 ⟨w, r⟩)

/-- models rsr_convert_scripts/agri_rsr.py:14-15 -/
def AGRI_BAND_NAMES : List String := (List.range 15).map fun i => "ch" ++ toString (i + 1)

/-- models rsr_convert_scripts/agri_rsr.py:16-44: is the wavelength of the band given in nanometres
(scale 0.001)?  `none` for a band without entry. -/
def AGRI_IN_NANOMETRES : Dict String (Dict String Bool) :=
  [("FY-4A", [("ch1", true), ("ch2", true), ("ch3", true), ("ch4", false), ("ch5", false), ("ch6", false),
      ("ch7", false), ("ch8", false), ("ch9", false), ("ch10", false), ("ch11", false), ("ch12", false),
      ("ch13", false), ("ch14", false)]),
   ("FY-4B", [("ch1", true), ("ch2", true), ("ch3", true), ("ch4", true), ("ch5", true), ("ch6", true),
      ("ch7", false), ("ch8", false), ("ch9", false), ("ch10", false), ("ch11", false), ("ch12", false),
      ("ch13", false), ("ch14", false), ("ch15", false)])]

/-- models rsr_convert_scripts/mersi1_rsr.py:69-78: the column of the table that holds the response
of a band of FY-3B (column 0 holds the wavelengths); ValueError for other names -/
def mersi1ColumnFY3B (bandname : String) : Py Nat :=
  let part1 := ["ch1", "ch2", "ch3", "ch4"]
  let part2 := ["ch8", "ch9", "ch10", "ch11", "ch12", "ch13", "ch14", "ch15", "ch16", "ch17", "ch18", "ch19", "ch20"]
  let file2 := ["ch6", "ch7"]
  if bandname ∈ part1 then .ok (part1.idxOf bandname + 1)
  else if bandname ∈ part2 then .ok (part2.idxOf bandname + 4)
  else if bandname ∈ file2 then .ok (file2.idxOf bandname + 1)
  else .error .valueError

/-- models rsr_convert_scripts/avhrr1_rsr.py:123-125: the loop over the following values, given the
(already adjusted) value before -/
def adjustFrom (prev : α) : List α → List α
  | [] => []
  | w :: rest =>
    let w' : α := if gt prev w && lt (abs (w - 640.0)) 0.01 then 840.0 else w
    w' :: adjustFrom w' rest

/-- models rsr_convert_scripts/avhrr1_rsr.py:120-126 (`adjust_typo_avhrr1_srf_only_xls_file`) -/
def adjustTypo : List α → List α
  | [] => []
  | w :: rest => w :: adjustFrom w rest

end Model
end Verif
