import Verif.Base.NumPy
import Verif.Model.BandNames
import Verif.Model.Tables
/-
Data types for relative spectral responses and the conversion to wavenumber space
(pyspectral/utils.py:153-277, pyspectral/rsr_reader.py:46-72).
-/
namespace Verif.Model
open PyNum
variable {α : Type} [PyNum α]

/-- A value stored under one key of a detector's dictionary: an array, a number, or a
dictionary of arrays (several responses, pyspectral/utils.py:207-211). -/
inductive DetVal (α : Type) where
  | arr (xs : List α)
  | num (x : α)
  | dict (d : Dict String (List α))

/-- Data of one detector: models the dictionaries built at pyspectral/rsr_reader.py:314-318. -/
abbrev DetRsr (α : Type) := Dict String (DetVal α)
/-- Data of one band: detector name ↦ data. -/
abbrev BandRsr (α : Type) := Dict String (DetRsr α)
/-- Data of an instrument: band name ↦ data. -/
abbrev Rsr (α : Type) := Dict String (BandRsr α)

/-- What may be stored as an instrument name: None, a string, or (from the INSTRUMENTS
table) a list of strings. -/
inductive InstVal where
  | none
  | str (s : String)
  | list (l : List String)
  deriving DecidableEq, Repr

/-- `det[key]` where an array is needed; arithmetic or slicing of anything else is a TypeError. -/
def getArr (det : DetRsr α) (key : String) : Py (List α) := do
  match ← det.getItem key with
  | .arr xs => return xs
  | _ => .error .typeError

/-- `det[key]` where a number is needed. -/
def getNum (det : DetRsr α) (key : String) : Py α := do
  match ← det.getItem key with
  | .num x => return x
  | _ => .error .typeError

/-! ### Wavenumber conversion -/

/-- models pyspectral/utils.py:197-201 (`_wavelength2wavenumber`) -/
def wavelength2wavenumber (det_rsr : DetRsr α) (key : String) (out : DetRsr α) : Py (DetRsr α) :=
  if key = "wavelength" then do
    let w ← getArr det_rsr key
    let wnum := w.map fun x => 1.0 / (1e-4 * x)
    return out.set "wavenumber" (.arr wnum.reverse)
  else .ok out

/-- models pyspectral/utils.py:204-214 (`_collect_responses`) -/
def collectResponses (det_rsr : DetRsr α) (key : String) (out : DetRsr α) : Py (DetRsr α) :=
  if key = "response" then do
    match ← det_rsr.getItem key with
    | .dict d => return out.set key (.dict (d.mapVals List.reverse))
    | .arr xs => return out.set key (.arr xs.reverse)
    | .num _ => .error .typeError
  else .ok out

/-- models pyspectral/utils.py:188-194 (`_detector2wavenumber`) -/
def detector2wavenumber (det_rsr : DetRsr α) : Py (DetRsr α) :=
  det_rsr.keys.foldlM (fun out key => do
    let out ← wavelength2wavenumber det_rsr key out
    collectResponses det_rsr key out) []

/-- models pyspectral/utils.py:178-183: one detector (copied if already in wavenumbers) -/
def convertDetector (det : DetRsr α) : Py (DetRsr α) :=
  if det.contains "wavenumber" then .ok det else detector2wavenumber det

/-- models pyspectral/utils.py:175-185 (`_band2wavenumber`) -/
def band2wavenumber (ch_rsr : BandRsr α) : Py (BandRsr α) :=
  ch_rsr.keys.foldlM (fun out det => do
    let d ← convertDetector (← ch_rsr.getItem det)
    return out.set det d) []

/-- Unit information returned by the conversion. -/
structure WaveInfo (α : Type) where
  unit : String
  si_scale : α

/-- models pyspectral/utils.py:153-172 (`convert2wavenumber`) -/
def convert2wavenumber (rsr : Rsr α) : Py (Rsr α × WaveInfo α) := do
  let retv ← rsr.keys.foldlM (fun out chname => do
    let b ← band2wavenumber (← rsr.getItem chname)
    return Dict.set out chname b) []
  return (retv, { unit := "cm-1", si_scale := 100.0 })

/-! ### Central wave -/

/-- models pyspectral/utils.py:217-236 (`get_central_wave`); a scalar weight is a
one-element array -/
def getCentralWave (wav resp : List α) (weight : List α := [1.0]) : Py α := do
  let rw ← NP.bcast2 (· * ·) resp wav
  let num ← NP.bcast2 (· * ·) rw weight
  let a ← NP.trapezoid num wav
  let den ← NP.bcast2 (· * ·) resp weight
  let b ← NP.trapezoid den wav
  return a / b

/-! ### Band name from wavelength -/

/-- Result of `get_bandname_from_wavelength`. -/
inductive BandMatch where
  | none
  | one (name : String)
  | several (names : List String)
  deriving DecidableEq, Repr

/-- `BANDNAMES.get(sensor, BANDNAMES['generic'])`; a list is unhashable (TypeError). -/
def bandTable : InstVal → Py (Dict String String)
  | .none => .ok bn_generic
  | .str s => .ok ((BANDNAMES.get? s).getD bn_generic)
  | .list _ => .error .typeError

/-- models pyspectral/utils.py:243-248: the loop collecting the matching channels.
`lookup` is `rsr[channel]` (a plain dict or an RSRDict). -/
def bandsNear (sensor : InstVal) (wavelength : α) (epsilon : α)
    (lookup : String → Py (BandRsr α)) : List String → Py (List String)
  | [] => .ok []
  | channel :: rest => do
    let det ← (← lookup channel).getItem "det-1"
    let cw ← getNum det "central_wavelength"
    let chdist := abs (cw - wavelength)
    if lt chdist 2.0 && lt chdist epsilon then
      let table ← bandTable sensor
      let name := (table.get? channel).getD channel
      let more ← bandsNear sensor wavelength epsilon lookup rest
      return name :: more
    else
      bandsNear sensor wavelength epsilon lookup rest

/-- models pyspectral/utils.py:250-257: what is returned for the list of channels found -/
def bandMatchResult (chfound : List String) (multiple_bands : Bool) : Py BandMatch :=
  match chfound with
  | [b] => .ok (.one b)
  | [] => .ok .none
  | _ => if multiple_bands then .ok (.several chfound) else .error .attributeError

/-- models pyspectral/utils.py:239-257 (`get_bandname_from_wavelength`) on a dictionary -/
def getBandnameFromWavelength (sensor : InstVal) (wavelength : α) (rsr : Rsr α)
    (epsilon : α := 0.1) (multiple_bands : Bool := false) : Py BandMatch := do
  let chfound ← bandsNear sensor wavelength epsilon (rsr.getItem ·) rsr.keys
  bandMatchResult chfound multiple_bands

/-! ### RSRDict -/

/-- models pyspectral/rsr_reader.py:54-65 (`RSRDict.__getitem__`).  `instrument in
BANDNAMES` raises TypeError for a list (unhashable). -/
def rsrDictGetItem {β : Type} (instrument : InstVal) (rsr : Dict String β) (key : String) : Py β :=
  match rsr.get? key with
  | some v => .ok v
  | none => do
    let own ← match instrument with
      | .none => pure none
      | .str s => pure (BANDNAMES.get? s)
      | .list _ => .error .typeError
    match own.bind (·.get? key) with
    | some std => rsr.getItem std
    | none =>
      match bn_generic.get? key with
      | some std => rsr.getItem std
      | none => .error .keyError

/-- models pyspectral/rsr_reader.py:67-72 (`RSRDict.get`) -/
def rsrDictGet {β : Type} (instrument : InstVal) (rsr : Dict String β) (key : String)
    (default : Option β) : Py (Option β) :=
  match rsrDictGetItem instrument rsr key with
  | .ok v => .ok (some v)
  | .error .keyError => .ok default
  | .error e => .error e

end Verif.Model
