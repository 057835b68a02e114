import Verif.Model.MoreConvert
import Verif.Model.WriterSteps
/-
Model of the VIIRS converter (rsr_convert_scripts/viirs_rsr.py): finding the original file of a
band, and writing the response file statement by statement, with what is left behind when it stops.
-/
namespace Verif.Model
open PyNum
variable {α : Type} [PyNum α]

/-- models rsr_convert_scripts/viirs_rsr.py:16-20 -/
def VIIRS_BAND_NAMES : List String :=
  ["M1", "M2", "M3", "M4", "M5", "M6", "M7", "M8", "M9", "M10", "M11", "M12", "M13", "M14", "M15", "M16",
   "I1", "I2", "I3", "I4", "I5", "DNB"]

/-- one item of the configuration of a platform: its key, the bands and the file name pattern -/
structure ViirsSection where
  key : String
  bands : List String
  filename : String

/-- the configuration of a platform (`options['<platform>-viirs']`): `rootdir` and the other items
in their order.  (Simplified: the sections have their entries, with the right types.) -/
structure ViirsConf where
  rootdir : String
  sections : List ViirsSection

/-- models rsr_convert_scripts/viirs_rsr.py:101-108: one section; `compose` is trollsift's function
that fills in the band name -/
def viirsSection (compose : String → String → String) (rootdir : String) (d : Dict String String) (s : ViirsSection) :
    Dict String String :=
  if Str.startsWith s.key "section" then
    s.bands.foldl (fun d band => d.set band (compose (OsPath.join rootdir s.filename) band)) d
  else d

/-- models rsr_convert_scripts/viirs_rsr.py:96-108 (`_get_bandfilenames`) -/
def viirsFilenames (compose : String → String → String) (conf : ViirsConf) : Dict String String :=
  conf.sections.foldl (viirsSection compose conf.rootdir) []

/-- What the script works with: the options of the platforms, the output directory, and the tables
in the existing files. -/
structure ViirsSetup (α : Type) where
  compose : String → String → String
  options : Dict String ViirsConf
  output_dir : String
  files : String → Option (List (ViirsRow α))

/-- models rsr_convert_scripts/viirs_rsr.py:76-150 (`ViirsRSR`): KeyError for a platform or band
without configuration, IOError for a missing file.  (Simplified: a file is given by its table, the
text format is not modelled here.) -/
def ViirsRSR (S : ViirsSetup α) (bandname platform_name : String) : Py (DetectorsRSR α) := do
  let conf ← S.options.getItem (platform_name ++ "-viirs")
  let path ← (viirsFilenames S.compose conf).getItem bandname
  match S.files path with
  | none => .error .ioError
  | some rows => return { output_dir := S.output_dir, rsr := ← viirsDetectors rows }

/-- What depends on the version of numpy: is there `np.alltrue` (gone since 2.0), and does comparing
arrays of different length raise (since 1.25; before, the result was False)? -/
structure NumpyApi where
  alltrue : Bool
  unevenRaises : Bool

/-- models rsr_convert_scripts/viirs_rsr.py:199: `np.alltrue(wvl == det_wvl)`; numpy broadcasts a
single value -/
def sameWavelengths (np : NumpyApi) (wvl det_wvl : List α) : Py Bool :=
  if !np.alltrue then .error .attributeError
  else match NP.bcast2 (fun a b => eq a b) wvl det_wvl with
    | .ok l => .ok (l.all id)
    | .error e => if np.unevenRaises then .error e else .ok false

/-- models rsr_convert_scripts/viirs_rsr.py:196-202: the loop over the other detectors -/
def viirsConstant (np : NumpyApi) (wvl : List α) (others : List (RawCurve α)) : Py Bool :=
  others.foldlM (fun constant c => do
    let same ← sameWavelengths np wvl (uniqueValues c.wavelength)
    return constant && same) true

/-- models rsr_convert_scripts/viirs_rsr.py:213-232: the group of one detector -/
def viirsDetector (f32 : α → α) (constant : Bool) (c : RawCurve α) : Py (H5Det α) := do
  let wvl ← withoutNaN c.wavelength c.wavelength
  let rsp ← withoutNaN c.wavelength c.response
  let u := uniquePairs (wvl.zip rsp)
  let cw ← getCentralWave (u.map Prod.fst) (u.map Prod.snd)
  return { attrs := [("central_wavelength", .num cw "")],
           datasets := (if constant then [] else [wavelengthSet f32 (u.map Prod.fst)]) ++
             [("response", stored f32 (u.map Prod.snd) [])] }

/-- models rsr_convert_scripts/viirs_rsr.py:212-232: the loop over the detectors.  (The group of a
detector is made in one step.) -/
def viirsDetectorSteps (f32 : α → α) (band : String) (constant : Bool) (p : String × RawCurve α) :
    PySt (H5File α) Unit := do
  let D ← PySt.lift (viirsDetector f32 constant p.2)
  changeBand band fun B => B.onDet p.1 fun _ => D

/-- models rsr_convert_scripts/viirs_rsr.py:186-232: one band -/
def viirsBandSteps (np : NumpyApi) (f32 : α → α) (S : ViirsSetup α) (platform_name chname : String) :
    PySt (H5File α) Unit := do
  let viirs ← PySt.lift (ViirsRSR S chname platform_name)
  createBand chname
  changeBand chname fun B => { B with attrs := B.attrs.set "number_of_detectors" (.int viirs.rsr.length) }
  match viirs.rsr with
  | [] => PySt.raise .indexError
  | first :: others =>
    let wvl := uniqueValues first.2.wavelength
    let constant ← PySt.lift (viirsConstant np wvl (others.map Prod.snd))
    if constant then
      changeBand chname fun B => { B with datasets := B.datasets.set "wavelength" (wavelengthSet f32 wvl).2 }
    PySt.forEach (viirsDetectorSteps f32 chname constant) (first :: others)

/-- models rsr_convert_scripts/viirs_rsr.py:181-184 -/
def viirsAttrs (platform_name : String) : Attrs α :=
  [("description", .text (.str "Relative Spectral Responses for VIIRS") "Relative Spectral Responses for VIIRS"),
   ("platform_name", .text (.str platform_name) platform_name),
   ("sensor", .text (.str "viirs") "viirs"),
   ("band_names", .text (.array .object_ (VIIRS_BAND_NAMES.map .str)) "")]

/-- models rsr_convert_scripts/viirs_rsr.py:165-232 (`create_viirs_rsr`) with the files it leaves
behind: the file is emptied after the first band could be read -/
def createViirsRsr (np : NumpyApi) (f32 : α → α) (S : ViirsSetup α) (platform_name : String) :
    PySt (H5Files α) Unit := do
  let viirs ← PySt.lift (ViirsRSR S "M1" platform_name)
  let filename : Path := (viirs.output_dir, "rsr_viirs_" ++ platform_name ++ ".h5")
  let run := PySt.forEach (viirsBandSteps np f32 S platform_name) VIIRS_BAND_NAMES ⟨viirsAttrs platform_name, []⟩
  PySt.modify fun fs => fs.put filename run.2
  PySt.lift run.1

end Verif.Model
