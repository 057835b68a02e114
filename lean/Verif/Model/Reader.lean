import Verif.Base.State
import Verif.Model.Download
import Verif.Model.Rsr
/-
Model of the reader of relative spectral responses (pyspectral/rsr_reader.py:142-369): the
contents of an HDF5 file, reading it, the constructor, `integral` and `convert`.
-/
namespace Verif.Model
open PyNum
variable {α : Type} [PyNum α]

/-! ### HDF5 files -/

/-- Value of an HDF5 attribute as h5py delivers it: text (string, bytes, array of strings),
an integer, or a number.  `shown` is Python's `str()` of the value. -/
inductive AttrVal (α : Type) where
  | text (v : PyVal) (shown : String)
  | int (n : Int)
  | num (x : α) (shown : String)

/-- Attributes of a file, group or data set. -/
abbrev Attrs (α : Type) := Dict String (AttrVal α)

/-- A one-dimensional data set. -/
structure H5Data (α : Type) where
  values : List α
  attrs : Attrs α

/-- The group of one detector. -/
structure H5Det (α : Type) where
  attrs : Attrs α
  datasets : Dict String (H5Data α)

/-- The group of one band. -/
structure H5Band (α : Type) where
  attrs : Attrs α
  datasets : Dict String (H5Data α)
  dets : Dict String (H5Det α)

/-- An HDF5 file as the reader sees it: attributes, and a group per band. -/
structure H5File (α : Type) where
  attrs : Attrs α
  bands : Dict String (H5Band α)

/-- `str(value)` of an attribute -/
def AttrVal.shownAs : AttrVal α → String
  | .text (.str s) _ => s
  | .text _ shown => shown
  | .int n => toString n
  | .num _ shown => shown

/-- `convert2str(value)` of an attribute (pyspectral/utils.py:575-583) -/
def attrStr : AttrVal α → Py String
  | .text v _ => convert2str v
  | .int _ => convert2str .other
  | .num _ _ => convert2str .other

/-- the elements of `for x in value` (a string is iterated by character, bytes give integers;
a number is not iterable) -/
def attrIter : AttrVal α → Py (List PyVal)
  | .text (.str s) _ => .ok (s.toList.map fun c => .str (String.singleton c))
  | .text (.bytes (some s)) _ => .ok (s.toList.map fun _ => .other)
  | .text (.bytes none) _ => .ok [.other]
  | .text (.array _ es) _ => .ok es
  | .text .other _ => .error .typeError
  | .int _ => .error .typeError
  | .num _ _ => .error .typeError

/-- an attribute used as a factor or kept as a number; anything else is a TypeError
(simplified: a non-numeric central wavelength would only fail at its first use) -/
def attrNum : AttrVal α → Py α
  | .text _ _ => .error .typeError
  | .int n => .ok (ofInt n)
  | .num x _ => .ok x

/-- an attribute used in `range` -/
def attrInt : AttrVal α → Py Int
  | .int n => .ok n
  | _ => .error .typeError

/-- `try: a except KeyError: b` -/
def orKeyError {β : Type} (a b : Py β) : Py β :=
  match a with
  | .error .keyError => b
  | r => r

/-! ### Reading -/

/-- models pyspectral/rsr_reader.py:277-292 (`_get_platform_name`) -/
def getPlatformName (f : H5File α) : Py (Option String) := do
  let name ← orKeyError (do return some (← attrStr (← f.attrs.getItem "platform_name")))
    (orKeyError (do
      let satname ← attrStr (← f.attrs.getItem "platform")
      let sat_number ← f.attrs.getItem "sat_number"
      return some (satname ++ "-" ++ sat_number.shownAs))
      (pure none))
  return match name with
    | none => none
    | some n => some ((OSCAR_PLATFORM_NAMES.get? n).getD n)

/-- an entry of the INSTRUMENTS table as a value (pyspectral/utils.py:30-91) -/
def instVal : Option Inst → InstVal
  | none => .none
  | some (.one s) => .str s
  | some (.many l) => .list l

/-- models pyspectral/rsr_reader.py:295-302 (`_get_instrument`) -/
def getInstrument (f : H5File α) (platform_name : Option String) : Py InstVal :=
  orKeyError (do return .str (← attrStr (← f.attrs.getItem "sensor")))
    (pure (instVal (platform_name.bind INSTRUMENTS.get?)))

/-- models pyspectral/rsr_reader.py:328-335 (`_get_number_of_detectors4bandname`) -/
def numberOfDetectors (f : H5File α) (band : String) : Py Int :=
  orKeyError (do attrInt (← (← f.bands.getItem band).attrs.getItem "number_of_detectors")) (pure 1)

/-- models pyspectral/rsr_reader.py:322-325 (`_detector_names`) -/
def detectorNames (f : H5File α) (band : String) : Py (List String) := do
  let n ← numberOfDetectors f band
  return (List.range n.toNat).map fun i => "det-" ++ toString (i + 1)

/-- `h5f[band][detector]` -/
def detGroup (f : H5File α) (band det : String) : Py (H5Det α) := do
  (← f.bands.getItem band).dets.getItem det

/-- models pyspectral/rsr_reader.py:338-344 (`_get_band_responses_per_detector`) -/
def bandResponses (f : H5File α) (band det : String) : Py (List α) :=
  orKeyError (do return (← (← detGroup f band det).datasets.getItem "response").values)
    (do return (← (← f.bands.getItem band).datasets.getItem "response").values)

/-- a wavelength data set times its scale -/
def scaled (d : H5Data α) : Py (List α) := do
  let s ← attrNum (← d.attrs.getItem "scale")
  return d.values.map (· * s)

/-- models pyspectral/rsr_reader.py:347-356 (`_get_band_wavelengths_per_detector`) -/
def bandWavelengths (f : H5File α) (band det : String) : Py (List α) := do
  let wvl ← orKeyError (do scaled (← (← detGroup f band det).datasets.getItem "wavelength"))
    (do scaled (← (← f.bands.getItem band).datasets.getItem "wavelength"))
  return wvl.map (· * 1e6)

/-- models pyspectral/rsr_reader.py:359-365 (`_get_band_central_wavelength_per_detector`) -/
def bandCentral (f : H5File α) (band det : String) : Py α :=
  orKeyError (do attrNum (← (← detGroup f band det).attrs.getItem "central_wavelength"))
    (do attrNum (← (← f.bands.getItem band).attrs.getItem "central_wavelength"))

/-- models pyspectral/rsr_reader.py:311-318: the data of one detector -/
def readDetector (f : H5File α) (band det : String) : Py (DetRsr α) := do
  let response ← bandResponses f band det
  let wavelength ← bandWavelengths f band det
  let central ← bandCentral f band det
  return [("response", .arr response), ("wavelength", .arr wavelength), ("central_wavelength", .num central)]

/-- models pyspectral/rsr_reader.py:309-318: the data of one band -/
def readBand (f : H5File α) (band : String) : Py (BandRsr α) := do
  let names ← detectorNames f band
  names.foldlM (fun (out : BandRsr α) det => do return out.set det (← readDetector f band det)) []

/-- models pyspectral/rsr_reader.py:305-319 (`_get_relative_spectral_responses`) -/
def readResponses (f : H5File α) (band_names : List String) : Py (Rsr α) :=
  band_names.foldlM (fun (out : Rsr α) band => do return out.set band (← readBand f band)) []

/-- What is loaded from a file. -/
structure RsrInfo (α : Type) where
  platform_name : Option String
  instrument : InstVal
  band_names : List String
  description : String
  rsr : Rsr α

/-- models pyspectral/rsr_reader.py:260-273 (the part of `_load_rsr_info_from_file` inside
the open file) -/
def loadRsrInfo (f : H5File α) : Py (RsrInfo α) := do
  let band_names ← (← attrIter (← f.attrs.getItem "band_names")).mapM convert2str
  let description ← attrStr (← f.attrs.getItem "description")
  let platform_name ← getPlatformName f
  let instrument ← getInstrument f platform_name
  let rsr ← readResponses f band_names
  return { platform_name, instrument, band_names, description, rsr }

/-! ### The reader object -/

/-- A `RelativeSpectralResponse` object. -/
structure Reader (α : Type) where
  filename : Path
  platform_name : Option String
  instrument : InstVal
  unit : String
  si_scale : α
  wavespace : String
  description : String
  band_names : List String
  rsr : Rsr α

/-- models pyspectral/rsr_reader.py:368-369 (`_get_rsr_filename`) -/
def getRsrFilename (platform_name instrument : String) : String :=
  "rsr_" ++ instrument ++ "_" ++ platform_name ++ ".h5"

/-- models pyspectral/rsr_reader.py:182-202 (`_sanitize_inputs`): the file, and the platform
and instrument if known before reading -/
def sanitizeInputs (rsr_dir : String) (filename : Option Path) (platform_name instrument : Option String) :
    Py (Path × Option String × Option String) :=
  match filename with
  | some p =>
    if instrument.isSome ∨ platform_name.isSome then .error .valueError
    else .ok (p, none, none)
  | none =>
    match platform_name, instrument with
    | some pl, some i => do
      let c ← checkAndAdjustInstrumentName pl i
      return ((rsr_dir, getRsrFilename pl c), some pl, some c)
    | _, _ => .error .valueError

/-- models pyspectral/rsr_reader.py:253-265 (with 204-213): the file must exist; `h5open` is
h5py (none: not an HDF5 file, OSError) -/
def openRsrFile (h5open : Content → Option (H5File α)) (p : Path) : Eff (H5File α) := do
  let w ← Eff.get
  match w.files p with
  | none => Eff.raise .fileNotFound
  | some c => match h5open c with
    | none => Eff.raise .ioError
    | some f => return f

/-- models pyspectral/rsr_reader.py:162-165 and 171-180: the object made from a file's data -/
def readerOf (path : Path) (platform inst : Option String) (info : RsrInfo α) : Reader α where
  filename := path
  platform_name := platform.orElse fun _ => info.platform_name
  instrument := match inst with
    | some i => .str i
    | none => info.instrument
  unit := "1e-6 m"
  si_scale := 1e-6
  wavespace := WAVE_LENGTH
  description := info.description
  band_names := info.band_names
  rsr := info.rsr

/-- models pyspectral/rsr_reader.py:171-180: load the file and complete the object -/
def readerLoad (h5open : Content → Option (H5File α)) (path : Path) (platform inst : Option String) :
    Eff (Reader α) := do
  let f ← openRsrFile h5open path
  let info ← Eff.lift (loadRsrInfo f)
  return readerOf path platform inst info

/-- models pyspectral/rsr_reader.py:142-180 (`RelativeSpectralResponse.__init__`) and 83-92 -/
def readerNew (env : Env) (h5open : Content → Option (H5File α))
    (platform_name instrument : Option String := none) (filename : Option Path := none) :
    Eff (Reader α) := do
  let cfg ← getConfig env
  let (path, platform, inst) ← Eff.lift (sanitizeInputs cfg.rsr_dir filename platform_name instrument)
  if filename.isNone then do
    let _ ← downloadRsrUpdates env
    readerLoad h5open path platform inst
  else readerLoad h5open path platform inst

/-- models pyspectral/rsr_reader.py:215-224 (`integral`); the lookups are `RSRDict` lookups -/
def Reader.integral (r : Reader α) (band_name : String) : Py (Dict String α) := do
  let band ← rsrDictGetItem r.instrument r.rsr band_name
  band.keys.foldlM (fun (intg : Dict String α) det => do
    let d ← band.getItem det
    let wvl ← getArr d "wavelength"
    let resp ← getArr d "response"
    return intg.set det (← NP.trapezoid resp wvl)) []

/-- `self.rsr[band][det][key] = v` for a band and detector that exist -/
def Reader.setEntry (band det key : String) (v : DetVal α) : PySt (Reader α) Unit := do
  let r ← PySt.get
  let b ← PySt.lift (rsrDictGetItem r.instrument r.rsr band)
  let d ← PySt.lift (b.getItem det)
  PySt.modify fun r => { r with rsr := r.rsr.set band (b.set det (d.set key v)) }

/-- models pyspectral/rsr_reader.py:231-236: first loop body of `convert` -/
def Reader.convertStep (rsr : Rsr α) (info : WaveInfo α) (band det : String) : PySt (Reader α) Unit := do
  let d ← PySt.lift (do (← rsr.getItem band).getItem det)
  let wn ← PySt.lift (d.getItem WAVE_NUMBER)
  Reader.setEntry band det WAVE_NUMBER wn
  let resp ← PySt.lift (d.getItem "response")
  Reader.setEntry band det "response" resp
  PySt.modify fun r => { r with unit := info.unit, si_scale := info.si_scale }

/-- models pyspectral/rsr_reader.py:240-242: second loop body of `convert` -/
def Reader.centralStep (band det : String) : PySt (Reader α) Unit := do
  let r ← PySt.get
  let d ← PySt.lift (do (← rsrDictGetItem r.instrument r.rsr band).getItem det)
  let cw ← PySt.lift (do getCentralWave (← getArr d WAVE_NUMBER) (← getArr d "response"))
  Reader.setEntry band det "central_wavenumber" (.num cw)
  let r ← PySt.get
  let b ← PySt.lift (rsrDictGetItem r.instrument r.rsr band)
  let d ← PySt.lift (b.getItem det)
  let _ ← PySt.lift (d.getItem WAVE_LENGTH)
  PySt.modify fun r => { r with rsr := r.rsr.set band (b.set det (d.erase WAVE_LENGTH)) }

/-- the two nested loops `for band in rsr.keys(): for det in rsr[band].keys()` -/
def forDetectors (rsr : Rsr α) (body : String → String → PySt (Reader α) Unit) : PySt (Reader α) Unit :=
  PySt.forEach (fun p => PySt.forEach (body p.1) p.2.keys) rsr

/-- models pyspectral/rsr_reader.py:226-246 (`convert`) -/
def Reader.convert : PySt (Reader α) Unit := do
  let r ← PySt.get
  if r.wavespace = WAVE_LENGTH then do
    let (rsr, info) ← PySt.lift (convert2wavenumber r.rsr)
    forDetectors rsr (Reader.convertStep rsr info)
    PySt.modify fun r => { r with wavespace := WAVE_NUMBER }
    forDetectors rsr Reader.centralStep
  else PySt.raise .notImplemented

/-- models pyspectral/rsr_reader.py:248-251 (`get_bandname_from_wavelength` of the reader) -/
def Reader.bandnameFromWavelength (r : Reader α) (wavelength : α) (epsilon : α := 0.1)
    (multiple_bands : Bool := false) : Py BandMatch := do
  let chfound ← bandsNear r.instrument wavelength epsilon (rsrDictGetItem r.instrument r.rsr ·) r.rsr.keys
  bandMatchResult chfound multiple_bands

end Verif.Model
