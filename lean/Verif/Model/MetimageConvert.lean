import Verif.Model.MoreConvert
import Verif.Model.WriterSteps
/-
Model of rsr_convert_scripts/metimage_rsr.py: the METimage responses from the netCDF file to the response file.
-/
namespace Verif.Model
open PyNum
variable {α : Type} [PyNum α]

/-- A netCDF file with groups: the rows (two columns) of every variable of every group.  (Simplified: the values are not
masked.) -/
abbrev NcGroups (α : Type) := Dict String (Dict String (List (α × α)))

/-- models rsr_convert_scripts/metimage_rsr.py:70-76: `ncf[group].variables[name]`; netCDF4 raises an IndexError for a group that is
not there -/
def ncRows (nc : NcGroups α) (group name : String) : Py (List (α × α)) :=
  match nc.get? group with
  | none => .error .indexError
  | some g => g.getItem name

/-- models rsr_convert_scripts/metimage_rsr.py:43-83 (`MetImageRSR`): the directory for response files and the data; without a file
there is only a warning and no data.  (Simplified: the section of the platform has a path.) -/
def MetImageRSR (options : List (String × Conf)) (files : String → Option (NcGroups α)) (bandname platform_name : String) :
    Py (String × Option (RawCurve α)) := do
  let (path, output_dir) ← sectionPath options (platform_name ++ "-metimage")
  match files path with
  | none => return (output_dir, none)
  | some nc =>
    let (group, name) ← metimageSource bandname
    let rows ← ncRows nc group name
    return (output_dir, some (← metimageLoad (rows.map Prod.fst) (rows.map Prod.snd)))

/-- models rsr_convert_scripts/metimage_rsr.py:103-148: one band; without data an AttributeError (`None` has no keys) after the group
was made.  (Simplified: the group is filled in one step; that cannot fail for two columns of the same length.) -/
def metimageBandSteps (f32 : α → α) (options : List (String × Conf)) (files : String → Option (NcGroups α)) (platform_name chname : String) :
    PySt (H5File α) Unit := do
  let metimage ← PySt.lift (MetImageRSR options files chname platform_name)
  createBand chname
  match metimage.2 with
  | none => PySt.raise .attributeError
  | some c =>
    let B ← PySt.lift (metimageBand f32 c)
    changeBand chname fun _ => B

/-- models rsr_convert_scripts/metimage_rsr.py:98-101: there is no attribute `sensor` -/
def metimageAttrs (platform_name : String) : Attrs α :=
  [("description", .text (.str "Relative Spectral Responses for METIMAGE") "Relative Spectral Responses for METIMAGE"),
   ("platform_name", .text (.str platform_name) platform_name),
   ("band_names", .text (.array .object_ (METIMAGE_BAND_NAMES_DICT.keys.map .str)) "")]

/-- models rsr_convert_scripts/metimage_rsr.py:86-148 (`generate_metimage_file`) with the files it leaves behind: the response file
is emptied as soon as there is an object for the first band -/
def generateMetimageFile (f32 : α → α) (options : List (String × Conf)) (files : String → Option (NcGroups α)) (platform_name : String) :
    PySt (H5Files α) Unit := do
  let instr ← PySt.lift (MetImageRSR options files "vii-4" platform_name)
  let filename : Path := (instr.1, "rsr_metimage_" ++ platform_name ++ ".h5")
  let run := PySt.forEach (metimageBandSteps f32 options files platform_name) METIMAGE_BAND_NAMES_DICT.keys ⟨metimageAttrs platform_name, []⟩
  PySt.modify fun fs => fs.put filename run.2
  PySt.lift run.1

/-- models rsr_convert_scripts/metimage_rsr.py:151-153 -/
def metimageProgram (f32 : α → α) (options : List (String × Conf)) (files : String → Option (NcGroups α)) : PySt (H5Files α) Unit :=
  PySt.forEach (generateMetimageFile f32 options files) ["Metop-SG-A1"]

end Verif.Model
