import Verif.Model.Reader
/-
Model of the writer of relative spectral response files (pyspectral/utils.py:280-353).
-/
namespace Verif.Model
open PyNum
variable {α : Type} [PyNum α]

/-- One instrument object made from original response data for one band: the names, and
`rsr` — either one detector's data (`own`) or data per detector (`dets`).  (Simplified: in
Python both are entries of the same dictionary.) -/
structure RawSensor (α : Type) where
  instrument : String
  output_dir : String
  own : DetRsr α
  dets : Dict String (DetRsr α)

/-- `xs[mask]` for a boolean mask of the same length -/
def select : List Bool → List α → List α
  | true :: m, x :: xs => x :: select m xs
  | false :: m, _ :: xs => select m xs
  | _, _ => []

/-- `xs[~np.isnan(ref)]`; IndexError when the lengths differ -/
def withoutNaN (ref xs : List α) : Py (List α) :=
  if ref.length = xs.length then .ok (select (ref.map fun x => !isNaN x) xs) else .error .indexError

/-- A data set written with dtype "f": every value is rounded by `f32` (the rounding to 32 bit
is a parameter of the model). -/
def stored (f32 : α → α) (xs : List α) (attrs : Attrs α) : H5Data α := ⟨xs.map f32, attrs⟩

/-- models pyspectral/utils.py:333-337 (`_save_wavelengths`); the caller passes the responses.
(The text form of the number attribute is not modelled.) -/
def saveWavelengths (f32 : α → α) (arr : List α) (scale : α) : String × H5Data α :=
  ("wavelength", stored f32 arr [("unit", .text (.str "m") "m"), ("scale", .num scale "")])

/-- models pyspectral/utils.py:319-330 (`_write_single_detector_data`) -/
def writeSingle (f32 : α → α) (sensor : RawSensor α) (scale : α) : Py (H5Band α) := do
  let wavelength ← getArr sensor.own "wavelength"
  let wvl ← withoutNaN wavelength wavelength
  let response ← getArr sensor.own "response"
  let rsp ← withoutNaN wavelength response
  let cw ← getCentralWave wvl rsp
  return { attrs := [("central_wavelength", .num cw "")],
           datasets := [("response", stored f32 response []), saveWavelengths f32 response scale],
           dets := [] }

/-- models pyspectral/utils.py:345-351: the group of one detector, and its responses -/
def writeDetector (f32 : α → α) (sensor : RawSensor α) (wvl : List α) (det : String) :
    Py (H5Det α × List α) := do
  let d ← sensor.dets.getItem det
  let response ← getArr d "response"
  let wavelength ← getArr d "wavelength"
  let rsp ← withoutNaN wavelength response
  let cw ← getCentralWave wvl rsp
  return ({ attrs := [("central_wavelength", .num cw "")], datasets := [("response", stored f32 response [])] },
    response)

/-- models pyspectral/utils.py:345-351: the loop over the detectors; a group that exists already
is a ValueError; `arr` keeps the responses of the last detector -/
def writeDetectors (f32 : α → α) (sensor : RawSensor α) (wvl : List α) :
    List String → Dict String (H5Det α) → List α → Py (Dict String (H5Det α) × List α)
  | [], groups, arr => .ok (groups, arr)
  | det :: rest, groups, _ =>
    if groups.contains det then .error .valueError
    else do
      let (g, response) ← writeDetector f32 sensor wvl det
      writeDetectors f32 sensor wvl rest (groups.set det g) response

/-- models pyspectral/utils.py:340-353 (`_write_multidetector_data`) -/
def writeMulti (f32 : α → α) (sensor : RawSensor α) (scale : α) (detectors : List String) : Py (H5Band α) := do
  match detectors with
  | [] => .error .indexError
  | first :: _ =>
    let wavelength ← getArr (← sensor.dets.getItem first) "wavelength"
    let wvl ← withoutNaN wavelength wavelength
    let (groups, arr) ← writeDetectors f32 sensor wvl detectors [] []
    return { attrs := [("number_of_detectors", .int detectors.length)],
             datasets := [saveWavelengths f32 arr scale],
             dets := groups }

/-- models pyspectral/utils.py:312-316: one band -/
def writeBandGroup (f32 : α → α) (sensor : RawSensor α) (scale : α) (detectors : Option (List String)) :
    Py (H5Band α) :=
  match detectors with
  | some ds => writeMulti f32 sensor scale ds
  | none => writeSingle f32 sensor scale

/-- models pyspectral/utils.py:307-316 (`_write_channels`); a band group that exists already is a
ValueError -/
def writeChannels (f32 : α → α) (scale : α) (detectors : Option (List String)) :
    List (String × RawSensor α) → Dict String (H5Band α) → Py (Dict String (H5Band α))
  | [], groups => .ok groups
  | (chname, sensor) :: rest, groups =>
    if groups.contains chname then .error .valueError
    else do
      let g ← writeBandGroup f32 sensor scale detectors
      writeChannels f32 scale detectors rest (groups.set chname g)

/-- models pyspectral/utils.py:300-304 (`_write_global_attrs`).  A list of strings is read back
as an object array of strings (its text form is not modelled). -/
def globalAttrs (instrument platform_name : String) (bandnames : List String) : Attrs α :=
  let description := "Relative Spectral Responses for " ++ Str.upper instrument
  [("description", .text (.str description) description),
   ("platform_name", .text (.str platform_name) platform_name),
   ("band_names", .text (.array .object_ (bandnames.map .str)) "")]

/-- models pyspectral/utils.py:280-297 (`convert2hdf5`): the file written and its content.
`ClassIn band platform` makes the instrument object (or raises).  (Simplified: when writing
fails the partial file is not modelled.) -/
def convert2hdf5 (f32 : α → α) (ClassIn : String → String → Py (RawSensor α)) (platform_name : String)
    (bandnames : List String) (scale : α := 1e-6) (detectors : Option (List String) := none) :
    Py (Path × H5File α) := do
  let instruments ← bandnames.mapM fun b => ClassIn b platform_name
  match instruments with
  | [] => .error .indexError
  | first :: _ =>
    let filename := (first.output_dir,
      "rsr_" ++ Str.removeChar '/' first.instrument ++ "_" ++ platform_name ++ ".h5")
    let bands ← writeChannels f32 scale detectors (bandnames.zip instruments) []
    return (filename, { attrs := globalAttrs first.instrument platform_name bandnames, bands })

end Verif.Model
