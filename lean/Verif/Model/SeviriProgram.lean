import Verif.Model.Convert
import Verif.Model.WriterSteps
/-
Model of the SEVIRI converter (rsr_convert_scripts/seviri_rsr.py) with the files it leaves behind, also when it fails half-way.
Model/Convert.lean describes the finished file only; Props/SeviriProgram.lean proves that both agree.
-/
namespace Verif.Model
open PyNum
variable {α : Type} [PyNum α]

/-- models rsr_convert_scripts/seviri_rsr.py:215-233: one channel.  (Creating a data set, filling it and setting its attributes is
one step.) -/
def seviriBandSteps (f32 : α → α) (seviri : Seviri α) (sat_name key : String) : PySt (H5File α) Unit := do
  createBand key
  match seviri.central_wavelength with
  | none => PySt.raise .typeError
  | some centrals =>
    let ofKey ← PySt.lift (centrals.getItem key)
    let ofSat ← PySt.lift (ofKey.getItem sat_name)
    let cw ← PySt.lift ofSat.central
    changeBand key fun B => { B with attrs := B.attrs.set "central_wavelength" (.num cw "") }
    let c ← PySt.lift (seviri.rsr.getItem key)
    changeBand key fun B => { B with datasets := B.datasets.set "wavelength" (wavelengthSet f32 c.wave).2 }
    let resp ← PySt.lift (c.sats.getItem sat_name)
    let arr ← PySt.lift resp.responses
    changeBand key fun B => { B with datasets := B.datasets.set "response" (stored f32 arr []) }

/-- models rsr_convert_scripts/seviri_rsr.py:210-213 -/
def seviriAttrs (seviri : Seviri α) (platform_name : String) : Attrs α :=
  [("description", .text (.str "Relative Spectral Responses for SEVIRI") "Relative Spectral Responses for SEVIRI"),
   ("platform_name", .text (.str platform_name) platform_name),
   ("band_names", .text (.array .object_ (seviri.rsr.keys.map .str)) "")]

/-- models rsr_convert_scripts/seviri_rsr.py:197-233 (`generate_seviri_file`) with the files it leaves behind -/
def seviriFileSteps (f32 : α → α) (seviri : Seviri α) (platform_name : String) : PySt (H5Files α) Unit := do
  let filename : Path := (seviri.output_dir, "rsr_seviri_" ++ platform_name ++ ".h5")
  let run := PySt.forEach (seviriBandSteps f32 seviri platform_name) seviri.rsr.keys ⟨seviriAttrs seviri platform_name, []⟩
  PySt.modify fun fs => fs.put filename run.2
  PySt.lift run.1

/-- models rsr_convert_scripts/seviri_rsr.py:236-241: one object for the four satellites -/
def seviriProgram (f32 : α → α) (sheets : List (Sheet α)) (output_dir : String) : PySt (H5Files α) Unit := do
  let sev_obj ← PySt.lift (Seviri.new sheets output_dir)
  PySt.forEach (seviriFileSteps f32 sev_obj) ["Meteosat-8", "Meteosat-9", "Meteosat-10", "Meteosat-11"]

end Verif.Model
