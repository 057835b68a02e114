import Verif.Model.Convert
import Verif.Model.WriterSteps
/-
Model of the MODIS converter (rsr_convert_scripts/modis_rsr.py) with the files it leaves behind, also when it fails half-way.
Model/Convert.lean describes the finished file only; Props/ModisProgram.lean proves that both agree.
-/
namespace Verif.Model
open PyNum
variable {α : Type} [PyNum α]

/-- models rsr_convert_scripts/modis_rsr.py:167-185: one detector.  (The group of a detector is made in one step.) -/
def modisDetectorSteps (f32 : α → α) (band : String) (constant : Bool) (p : String × RawCurve α) : PySt (H5File α) Unit := do
  let D ← PySt.lift (modisDetector f32 constant p.2)
  changeBand band fun B => B.onDet p.1 fun _ => D

/-- models rsr_convert_scripts/modis_rsr.py:142-185: one band -/
def modisBandSteps (P : Parsers α) (argsort : List α → List Nat) (f32 : α → α) (options : List (String × Conf))
    (files : String → Option (List String)) (platform_name chname : String) : PySt (H5File α) Unit := do
  let modis ← PySt.lift (ModisRSR P argsort options files chname platform_name)
  createBand chname
  changeBand chname fun B => { B with attrs := B.attrs.set "number_of_detectors" (.int modis.rsr.length) }
  match modis.rsr with
  | [] => PySt.raise .indexError
  | first :: others =>
    let constant := wvlIsConstant first.2.wavelength (others.map Prod.snd)
    if constant then
      changeBand chname fun B => { B with datasets := B.datasets.set "wavelength" (wavelengthSet f32 first.2.wavelength).2 }
    PySt.forEach (modisDetectorSteps f32 chname constant) (first :: others)

/-- models rsr_convert_scripts/modis_rsr.py:138-140: there is no attribute `sensor` -/
def modisAttrs (platform_name : String) : Attrs α :=
  [("description", .text (.str "Relative Spectral Responses for MODIS") "Relative Spectral Responses for MODIS"),
   ("platform_name", .text (.str platform_name) platform_name),
   ("band_names", .text (.array .object_ (MODIS_BAND_NAMES.map .str)) "")]

/-- models rsr_convert_scripts/modis_rsr.py:129-185 (`convert2hdf5`) with the files it leaves behind: the response file is emptied
as soon as band 20 could be read -/
def modisConvertSteps (P : Parsers α) (argsort : List α → List Nat) (f32 : α → α) (options : List (String × Conf))
    (files : String → Option (List String)) (platform_name : String) : PySt (H5Files α) Unit := do
  let modis ← PySt.lift (ModisRSR P argsort options files "20" platform_name)
  let filename : Path := (modis.output_dir, "rsr_modis_" ++ platform_name ++ ".h5")
  let run := PySt.forEach (modisBandSteps P argsort f32 options files platform_name) MODIS_BAND_NAMES ⟨modisAttrs platform_name, []⟩
  PySt.modify fun fs => fs.put filename run.2
  PySt.lift run.1

/-- models rsr_convert_scripts/modis_rsr.py:188-190 -/
def modisProgram (P : Parsers α) (argsort : List α → List Nat) (f32 : α → α) (options : List (String × Conf))
    (files : String → Option (List String)) : PySt (H5Files α) Unit :=
  PySt.forEach (modisConvertSteps P argsort f32 options files) ["EOS-Terra", "EOS-Aqua"]

end Verif.Model
