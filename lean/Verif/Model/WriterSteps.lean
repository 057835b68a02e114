import Verif.Model.Writer
/-
The writer of response files (pyspectral/utils.py:280-353) statement by statement: what is left
in the file when writing stops half-way with an exception.  Model/Writer.lean describes the
finished file only; Props/WriterSteps.lean proves that both agree when writing succeeds.
-/
namespace Verif.Model
open PyNum
variable {α : Type} [PyNum α]

/-- The response files that exist. -/
abbrev H5Files (α : Type) := Path → Option (H5File α)

/-- a file put at a path -/
def H5Files.put (fs : H5Files α) (p : Path) (f : H5File α) : H5Files α := fun q => if q = p then some f else fs q

/-- a group just made (h5py's `create_group`) -/
def H5Band.empty : H5Band α := ⟨[], [], []⟩

/-- change the group of a band -/
def H5File.onBand (f : H5File α) (band : String) (g : H5Band α → H5Band α) : H5File α :=
  { f with bands := f.bands.set band (g ((f.bands.get? band).getD H5Band.empty)) }

/-- change the group of a detector -/
def H5Band.onDet (B : H5Band α) (det : String) (g : H5Det α → H5Det α) : H5Band α :=
  { B with dets := B.dets.set det (g ((B.dets.get? det).getD ⟨[], []⟩)) }

/-- a statement that changes the group of a band -/
def changeBand (band : String) (g : H5Band α → H5Band α) : PySt (H5File α) Unit :=
  PySt.modify fun f => f.onBand band g

/-- models pyspectral/utils.py:310: `h5f.create_group(chname)`; ValueError when it exists -/
def createBand (band : String) : PySt (H5File α) Unit := do
  let f ← PySt.get
  if f.bands.contains band then PySt.raise .valueError
  else changeBand band fun _ => H5Band.empty

/-- models pyspectral/utils.py:346: `grp.create_group(cur_det)`; ValueError when it exists -/
def createDet (band det : String) : PySt (H5File α) Unit := do
  let f ← PySt.get
  if ((f.bands.get? band).getD H5Band.empty).dets.contains det then PySt.raise .valueError
  else changeBand band fun B => B.onDet det fun _ => ⟨[], []⟩

/-- models pyspectral/utils.py:319-330 (`_write_single_detector_data`).  (Creating a data set,
filling it and setting its attributes is one step.) -/
def singleSteps (f32 : α → α) (band : String) (sensor : RawSensor α) (scale : α) : PySt (H5File α) Unit := do
  let wavelength ← PySt.lift (getArr sensor.own "wavelength")
  let wvl ← PySt.lift (withoutNaN wavelength wavelength)
  let response ← PySt.lift (getArr sensor.own "response")
  let rsp ← PySt.lift (withoutNaN wavelength response)
  let cw ← PySt.lift (getCentralWave wvl rsp)
  changeBand band fun B => { B with attrs := B.attrs.set "central_wavelength" (.num cw "") }
  changeBand band fun B => { B with datasets := B.datasets.set "response" (stored f32 response []) }
  changeBand band fun B =>
    { B with datasets := B.datasets.set "wavelength" (saveWavelengths f32 response scale).2 }

/-- models pyspectral/utils.py:346-351: one detector; the result is its responses -/
def detectorSteps (f32 : α → α) (band : String) (sensor : RawSensor α) (wvl : List α) (det : String) :
    PySt (H5File α) (List α) := do
  createDet band det
  let d ← PySt.lift (sensor.dets.getItem det)
  let response ← PySt.lift (getArr d "response")
  let wavelength ← PySt.lift (getArr d "wavelength")
  let rsp ← PySt.lift (withoutNaN wavelength response)
  let cw ← PySt.lift (getCentralWave wvl rsp)
  changeBand band fun B => B.onDet det fun D => { D with attrs := D.attrs.set "central_wavelength" (.num cw "") }
  changeBand band fun B => B.onDet det fun D =>
    { D with datasets := D.datasets.set "response" (stored f32 response []) }
  return response

/-- models pyspectral/utils.py:345-351: the loop over the detectors -/
def detectorsSteps (f32 : α → α) (band : String) (sensor : RawSensor α) (wvl : List α) :
    List String → List α → PySt (H5File α) (List α)
  | [], arr => return arr
  | det :: rest, _ => do
    let response ← detectorSteps f32 band sensor wvl det
    detectorsSteps f32 band sensor wvl rest response

/-- models pyspectral/utils.py:340-353 (`_write_multidetector_data`) -/
def multiSteps (f32 : α → α) (band : String) (sensor : RawSensor α) (scale : α) (detectors : List String) :
    PySt (H5File α) Unit := do
  match detectors with
  | [] => PySt.raise .indexError
  | first :: _ =>
    let d ← PySt.lift (sensor.dets.getItem first)
    let wavelength ← PySt.lift (getArr d "wavelength")
    let wvl ← PySt.lift (withoutNaN wavelength wavelength)
    changeBand band fun B => { B with attrs := B.attrs.set "number_of_detectors" (.int detectors.length) }
    let arr ← detectorsSteps f32 band sensor wvl detectors []
    changeBand band fun B => { B with datasets := B.datasets.set "wavelength" (saveWavelengths f32 arr scale).2 }

/-- models pyspectral/utils.py:309-316: one band -/
def bandSteps (f32 : α → α) (scale : α) (detectors : Option (List String)) (p : String × RawSensor α) :
    PySt (H5File α) Unit := do
  createBand p.1
  match detectors with
  | some ds => multiSteps f32 p.1 p.2 scale ds
  | none => singleSteps f32 p.1 p.2 scale

/-- models pyspectral/utils.py:295-316: what is written into the open file (`_write_global_attrs`
and `_write_channels`).  (The three attributes are one step: setting them does not fail.) -/
def fileSteps (f32 : α → α) (instrument platform_name : String) (scale : α) (detectors : Option (List String))
    (channels : List (String × RawSensor α)) (bandnames : List String) : PySt (H5File α) Unit := do
  PySt.modify fun f => { f with attrs := globalAttrs instrument platform_name bandnames }
  PySt.forEach (bandSteps f32 scale detectors) channels

/-- models pyspectral/utils.py:280-297 (`convert2hdf5`) with the files it leaves behind.  Opening a
file with "w" empties it; leaving the `with` block closes it with what has been written. -/
def convertSteps (f32 : α → α) (ClassIn : String → String → Py (RawSensor α)) (platform_name : String)
    (bandnames : List String) (scale : α := 1e-6) (detectors : Option (List String) := none) :
    PySt (H5Files α) Unit := do
  let instruments ← PySt.lift (bandnames.mapM fun b => ClassIn b platform_name)
  match instruments with
  | [] => PySt.raise .indexError
  | first :: _ =>
    let filename : Path := (first.output_dir,
      "rsr_" ++ Str.removeChar '/' first.instrument ++ "_" ++ platform_name ++ ".h5")
    let run := fileSteps f32 first.instrument platform_name scale detectors (bandnames.zip instruments) bandnames
      ⟨[], []⟩
    PySt.modify fun fs => fs.put filename run.2
    PySt.lift run.1

end Verif.Model
