import Verif.Base.World
import Verif.Model.Tables
import Verif.Model.Utils
/-
Model of the downloads (pyspectral/utils.py:356-461, pyspectral/rsr_reader.py:75-136 and
372-376, pyspectral/rayleigh.py:59-112 and 339-361).
-/
namespace Verif.Model

/-- The options used by the downloading code, as returned by `get_config()`
(pyspectral/config.py:41-58). -/
structure Config where
  rsr_dir : String
  rayleigh_dir : String
  download_from_internet : Bool

/-- What `requests.get` does for one URL: it raises (no connection), or answers: a status, whether the
content-length header (if any) is an integer, and the chunks of the body; or it answers without an error, but the
connection is lost in the body: `iter_content` raises after some chunks. -/
inductive Answer where
  | raises (e : PyErr)
  | answered (status : Nat) (contentLengthOk : Bool) (chunks : List Content)
  | broken (chunks : List Content) (e : PyErr)

/-- What the code depends on from outside: the configuration, the server, and how tarfile
reads an archive: the members it can read in order, and whether it reaches the end without an
error. -/
structure Env where
  cfg : Config
  server : String → Answer
  untar : Content → List (String × Content) × Bool

/-- models pyspectral/config.py:41-58 (`get_config`) as used here: creates both directories -/
def getConfig (env : Env) : Eff Config := do
  FileOp.makedirs env.cfg.rsr_dir
  FileOp.makedirs env.cfg.rayleigh_dir
  return env.cfg

/-- one archive member written by `tarfile.extractall` (creates the directory, truncates an
existing file); names with subdirectories are plain names in this model -/
def extractMember (dir : String) (m : String × Content) : Eff Unit := do
  FileOp.makedirs dir
  FileOp.openWrite (dir, m.1)
  FileOp.append (dir, m.1) m.2

/-- models pyspectral/utils.py:437-461 (`_download_tarball_and_extract`) -/
def downloadTarballAndExtract (env : Env) (url : String) (local_pathname : Path)
    (extract_dir : String) : Eff Unit := do
  Eff.step fun w => { w with requests := w.requests ++ [url] }
  match env.server url with
  | .raises e => Eff.raise e
  | .answered status contentLengthOk chunks =>
    if 400 ≤ status ∧ status < 600 then Eff.raise .httpError
    else if ¬ contentLengthOk then Eff.raise .valueError
    else do
      FileOp.openWrite local_pathname
      Eff.forEach (fun data => if data ≠ [] then FileOp.append local_pathname data else pure ()) chunks
      let w ← Eff.get
      let (members, ok) := env.untar ((w.files local_pathname).getD [])
      Eff.forEach (extractMember extract_dir) members
      if ¬ ok then Eff.raise .runtimeError
      else FileOp.remove local_pathname
  | .broken chunks e => do
    FileOp.openWrite local_pathname
    Eff.forEach (fun data => if data ≠ [] then FileOp.append local_pathname data else pure ()) chunks
    Eff.raise e

/-! ### Relative spectral responses -/

/-- `dest_path / "pyspectral_rsr_data.tgz"`, pyspectral/utils.py:377 -/
def RSR_TARBALL : String := "pyspectral_rsr_data.tgz"

/-- models pyspectral/utils.py:356-383 (`download_rsr`) -/
def downloadRsr (env : Env) (dest_dir : Option String := none) (dry_run : Bool := false) : Eff Unit := do
  let config ← getConfig env
  let dest_path := dest_dir.getD config.rsr_dir
  if dry_run then return ()
  else downloadTarballAndExtract env HTTP_PYSPECTRAL_RSR (dest_path, RSR_TARBALL) dest_path

/-- first line of a version file, or "v0.0.0"; models pyspectral/rsr_reader.py:95-103 and
pyspectral/rayleigh.py:88-103 -/
def versionIn (w : World) (p : Path) : Content :=
  match w.files p with
  | none => "v0.0.0".toList
  | some c => Str.stripL (Str.firstLineL c)

/-- models pyspectral/rsr_reader.py:105-108 (`rsr_data_version_uptodate`) with 94-103 -/
def rsrDataVersionUptodate (env : Env) (w : World) : Bool :=
  versionIn w (env.cfg.rsr_dir, RSR_DATA_VERSION_FILENAME) = RSR_DATA_VERSION.toList

/-- models pyspectral/rsr_reader.py:110-136 (`download_rsr_updates`) -/
def downloadRsrUpdates (env : Env) (dest_dir : Option String := none) (dry_run : Bool := false) :
    Eff Bool := do
  let w ← Eff.get
  if rsrDataVersionUptodate env w then return false
  else if ¬ env.cfg.download_from_internet then return true
  else do
    downloadRsr env dest_dir dry_run
    return true

/-- models pyspectral/rsr_reader.py:372-376 (`check_and_download`) and 83-87 -/
def checkAndDownloadRsr (env : Env) (dest_dir : Option String := none) (dry_run : Bool := false) :
    Eff Unit := do
  let _ ← getConfig env
  let _ ← downloadRsrUpdates env dest_dir dry_run
  return ()

/-! ### Rayleigh tables -/

/-- models pyspectral/utils.py:146-150 (`get_rayleigh_lut_dir`) -/
def rayleighLutDir (env : Env) (aerosol_type : String) : String :=
  env.cfg.rayleigh_dir ++ "/" ++ aerosol_type

/-- `subdir_path / "pyspectral_rayleigh_correction_luts.tgz"`, pyspectral/utils.py:414 -/
def LUT_TARBALL : String := "pyspectral_rayleigh_correction_luts.tgz"

/-- models pyspectral/utils.py:402-415: one aerosol type of `download_luts` -/
def downloadLut (env : Env) (dry_run : Bool) (subname : String) : Eff Unit := do
  let url ← Eff.lift (HTTPS_RAYLEIGH_LUTS.getItem subname)
  let _ ← getConfig env
  let subdir := rayleighLutDir env subname
  if dry_run then return ()
  else do
    FileOp.makedirs subdir
    downloadTarballAndExtract env url (subdir, LUT_TARBALL) subdir

/-- models pyspectral/utils.py:386-415 (`download_luts`) and 418-428 -/
def downloadLuts (env : Env) (aerosol_types : Option (List String) := none) (dry_run : Bool := false)
    (aerosol_type : Option (List String) := none) : Eff Unit :=
  let types := match aerosol_type, aerosol_types with
    | some l, _ => l
    | none, none => HTTPS_RAYLEIGH_LUTS.keys
    | none, some l => l
  Eff.forEach (downloadLut env dry_run) types

/-- models pyspectral/rayleigh.py:82-101: the version check of one aerosol type -/
def lutVersionUptodate (env : Env) (w : World) (aerosol_type : String) : Bool :=
  match ATM_CORRECTION_LUT_VERSION.get? aerosol_type with
  | none => false
  | some (version, filename) =>
    decide (versionIn w (rayleighLutDir env aerosol_type, filename) = version.toList)

/-- models pyspectral/rayleigh.py:62-84 (`RayleighConfigBaseClass.__init__`): whether the
tables are up to date -/
def rayleighConfig (env : Env) (aerosol_type : String) (atm_type : String := "us-standard") :
    Eff Bool := do
  let _ ← getConfig env
  if ¬ ATMOSPHERES.contains atm_type then Eff.raise .attributeError
  else if ¬ AEROSOL_TYPES.contains aerosol_type then Eff.raise .attributeError
  else do
    let _ ← getConfig env
    let w ← Eff.get
    return lutVersionUptodate env w aerosol_type

/-- models pyspectral/rayleigh.py:346-354: the requested types that are out of date -/
def neededTypes (env : Env) : List String → Eff (List String)
  | [] => return []
  | t :: ts => do
    let upToDate ← rayleighConfig env t
    let rest ← neededTypes env ts
    return (if upToDate then rest else t :: rest)

/-- models pyspectral/rayleigh.py:339-358 (`check_and_download`); None and an empty list both
mean all types -/
def checkAndDownloadLuts (env : Env) (dry_run : Bool := false) (aerosol_types : Option (List String) := none) :
    Eff Unit := do
  let types := match aerosol_types with
    | none => AEROSOL_TYPES
    | some [] => AEROSOL_TYPES
    | some l => l
  let needed ← neededTypes env types
  if needed = [] then return ()
  else downloadLuts env (some needed) dry_run

/-- What a Rayleigh object remembers. -/
structure RayleighObj where
  platform_name : String
  sensor : String
  reflectance_lut_filename : Path
  deriving DecidableEq

/-- models pyspectral/rayleigh.py:124-140 (`__init__`) of `Rayleigh`; the version check is
made once, before the sensor name is normalised -/
def rayleighNew (env : Env) (platform_name sensor : String) (atmosphere : String := "us-standard")
    (aerosol_type : String := "marine_clean_aerosol") : Eff RayleighObj := do
  let upToDate ← rayleighConfig env aerosol_type atmosphere
  let sensor ← Eff.lift (normalizeSensor platform_name sensor)
  let _ ← getConfig env
  let ext := Str.replaceChar ' ' '_' atmosphere
  let lut : Path := (rayleighLutDir env aerosol_type, "rayleigh_lut_" ++ ext ++ ".h5")
  if ¬ upToDate ∧ env.cfg.download_from_internet then
    downloadLuts env (some [aerosol_type])
    return ⟨platform_name, sensor, lut⟩
  else return ⟨platform_name, sensor, lut⟩

/-- A (hashable) keyword argument of `Rayleigh`. -/
inductive RayleighKw where
  | str (s : String)
  | other
  deriving DecidableEq

/-- models pyspectral/rayleigh.py:122-127 and 65-74: `Rayleigh(platform_name, sensor, **kwargs)`; only two
keywords are looked at, and a value that is not a string is in neither table -/
def rayleighNewKw (env : Env) (platform_name sensor : String) (kwargs : Dict String RayleighKw) : Eff RayleighObj :=
  match (kwargs.get? "atmosphere").getD (.str "us-standard"), (kwargs.get? "aerosol_type").getD (.str "marine_clean_aerosol") with
  | .str atm, .str aerosol => rayleighNew env platform_name sensor atm aerosol
  | _, _ => do
    let _ ← getConfig env
    Eff.raise .attributeError

end Verif.Model
