import Verif.Model.Config
import Verif.Model.Reader
/-
Model of pyspectral/testing.py: context managers that override the configuration and fake the
files and the network.  A context manager is modelled as a function of the body of its `with`
block; whatever way the body ends, the exit part runs.
-/
namespace Verif.Model
open PyNum
variable {α : Type} [PyNum α] {β : Type}

/-- The state of a process running tests: files, directories and requests; the environment
variable PSP_CONFIG_FILE; what replaces `pyspectral.rsr_reader._load_rsr_info_from_file`, if
anything; and whether `requests` is replaced by a mock that raises. -/
structure TestState (α : Type) where
  world : World
  psp : Option String
  loader : Option (Path → Py (RsrInfo α))
  forbidden : Bool

/-- A computation of a test. -/
abbrev Test (α β : Type) := PySt (TestState α) β

/-- What the code depends on from outside: names of temporary directories, `yaml.dump`, the
content of the fake table file (pyspectral/testing.py:529-558 with given or default data), the
server and tarfile, h5py, and what the configuration depends on (its `psp` is not used). -/
structure TestEnv (α : Type) where
  fresh : World → String
  yamlDump : List (String × Conf) → Content
  fakeLut : Content
  server : String → Answer
  untar : Content → List (String × Content) × Bool
  h5open : Content → Option (H5File α)
  conf : ConfEnv

/-- change the files -/
def onWorld (f : World → World) : Test α Unit := PySt.modify fun s => { s with world := f s.world }

/-- `path.mkdir(parents=True, exist_ok=True)` -/
def mkdir (d : String) : Test α Unit :=
  onWorld fun w => { w with dirs := fun x => if x = d then true else w.dirs x }

/-- `with open(path, "w") as f: f.write(content)`; FileNotFoundError if the directory is missing -/
def writeFile (p : Path) (content : Content) : Test α Unit := fun s =>
  if s.world.dirs p.1 then (.ok (), { s with world := s.world.setFile p (some content) })
  else (.error .fileNotFound, s)

/-- is this directory `d` or below it? -/
def within (d x : String) : Bool := x = d || Str.startsWith x (d ++ "/")

/-- `shutil.rmtree(d)` -/
def removeTree (d : String) (w : World) : World :=
  { w with files := fun p => if within d p.1 then none else w.files p
           dirs := fun x => if within d x then false else w.dirs x }

/-- `with tempfile.TemporaryDirectory() as d: body`; also used where the directory is removed
when the object is collected (pyspectral/testing.py:112-114 and 137-138) -/
def withTempDir (te : TestEnv α) (body : String → Test α β) : Test α β := fun s =>
  let d := te.fresh s.world
  let (_, s) := mkdir d s
  let (r, s) := body d s
  (r, { s with world := removeTree d s.world })

/-- `d` if given, else a temporary directory; models pyspectral/testing.py:112-114, 156-158,
231-233 and 355-357 -/
def withDirOrTemp (te : TestEnv α) (d : Option String) (body : String → Test α β) : Test α β :=
  match d with
  | some d => body d
  | none => withTempDir te body

/-- `Path(tmpdir) / "pyspectral.yaml"`, pyspectral/testing.py:525-526 -/
def configPathIn (tmpdir : String) : String := tmpdir ++ "/" ++ "pyspectral.yaml"

/-- models pyspectral/testing.py:500-516 (`create_pyspectral_config_file`) -/
def createPyspectralConfigFile (te : TestEnv α) (config_path : String) (config_options : Option (List (String × Conf))) :
    Test α Unit :=
  writeFile (OsPath.file config_path) (te.yamlDump (config_options.getD []))

/-- models pyspectral/testing.py:481-488: the variable is set, the body runs, and in any case
the variable is put back; `del` of a variable that is no longer set is a KeyError (which takes the
place of the body's exception) -/
def overridden (old : Option String) (config_path : String) (body : String → Test α β) : Test α β := fun s =>
  match body config_path { s with psp := some config_path } with
  | (r, s) =>
    match old with
    | some v => (r, { s with psp := some v })
    | none => match s.psp with
      | none => (.error .keyError, s)
      | some _ => (r, { s with psp := none })

/-- models pyspectral/testing.py:467-488 (`override_config`) with 491-526 -/
def overrideConfig (te : TestEnv α) (config_options : Option (List (String × Conf)) := none)
    (config_path : Option String := none) (body : String → Test α β) : Test α β := fun s =>
  match config_path with
  | some p => overridden s.psp p body s
  | none => withTempDir te (fun tmpdir => do
      createPyspectralConfigFile te (configPathIn tmpdir) config_options
      overridden s.psp (configPathIn tmpdir) body) s

/-! ### Fake responses -/

/-- `Path.stem` of a file name: without the last suffix (a leading or final dot is no suffix) -/
def stem (name : String) : String :=
  let r := name.toList.reverse
  let suffix := r.takeWhile (· ≠ '.')
  let rest := r.dropWhile (· ≠ '.')
  if suffix = [] ∨ rest.drop 1 = [] then name else String.ofList (rest.drop 1).reverse

/-- `instrument[-1]` (IndexError for an empty string, which does not start with "avhrr") -/
def lastChar (s : String) : Py String :=
  match s.toList.getLast? with
  | some c => .ok (String.singleton c)
  | none => .error .indexError

/-- models pyspectral/testing.py:605-609: instrument and platform from the file name -/
def fakeNames (name : String) : Py (String × String) := do
  let parts := Str.split '_' (stem name)
  let instrument ← NP.pyIndex parts 1
  let platform_name ← NP.pyIndex parts 2
  let instrument ← if Str.startsWith instrument "avhrr" then ("avhrr/" ++ ·) <$> lastChar instrument
    else pure instrument
  return (instrument, platform_name)

/-- models pyspectral/testing.py:610-612: `BANDNAMES.get(name, BANDNAMES["generic"])` -/
def bandNameMap (instrument : String) : Dict String String :=
  (BANDNAMES.get? (Str.replaceChar '/' '-' (Str.lower instrument))).getD bn_generic

/-- models pyspectral/testing.py:621-625: central wavelengths by standard band name -/
def centralMap (band_name_map : Dict String String) (central_wavelengths : Dict String α) : Dict String α :=
  central_wavelengths.foldl (fun m p => m.set ((band_name_map.get? p.1).getD p.1) p.2) []

/-- models pyspectral/testing.py:626-637: the data of one band (float32 arrays are taken exact) -/
def fakeBand (central_wvl : α) : BandRsr α :=
  [("det-1", [("wavelength", .arr ((NP.linspace (-0.02) 0.02 1000).map (· + central_wvl))),
              ("central_wavelength", .num central_wvl),
              ("response", .arr (NP.linspace 0.0009 1.0 1000))])]

/-- models pyspectral/testing.py:628-637: all bands; a name twice in the list gives one band -/
def fakeBands (instrument : String) (central : Dict String α) (band_names : List String) : Py (Rsr α) :=
  band_names.foldlM (fun (out : Rsr α) band_name => do
    let c ← rsrDictGet (.str instrument) central band_name (some 0.46)
    return out.set band_name (fakeBand (c.getD 0.46))) []

/-- models pyspectral/testing.py:596-639 (`_fake_rsr_info_factory`): what the fake gives for a
file, from its name alone -/
def fakeRsrInfo (central_wavelengths : Dict String α) (rsr_path : Path) : Py (RsrInfo α) := do
  let (instrument, platform_name) ← fakeNames rsr_path.2
  let band_name_map := bandNameMap instrument
  let band_names := band_name_map.map Prod.snd
  let central := centralMap band_name_map central_wavelengths
  let rsr ← fakeBands instrument central band_names
  return { platform_name := some platform_name, instrument := .str instrument, band_names,
           description := "Relative Response for " ++ instrument, rsr }

/-- `with mock.patch("pyspectral.rsr_reader._load_rsr_info_from_file")`: replaced in the body, put
back in any case -/
def withLoader (load : Path → Py (RsrInfo α)) (body : Test α β) : Test α β := fun s =>
  match body { s with loader := some load } with
  | (r, s') => (r, { s' with loader := s.loader })

/-- models pyspectral/testing.py:293-311 (`mock_rsr_files`), without the low-level options
`side_effect` and `return_value` -/
def mockRsrFiles (rsr_dir : String) (rsr_data_version : Option String := some RSR_DATA_VERSION)
    (central_wavelengths : Dict String α := []) (body : Test α β) : Test α β := do
  match rsr_data_version with
  | none => pure ()
  | some v => do
    mkdir rsr_dir
    writeFile (rsr_dir, RSR_DATA_VERSION_FILENAME) v.toList
  withLoader (fakeRsrInfo central_wavelengths) body

/-- models pyspectral/testing.py:189-249 (`mock_rsr`) -/
def mockRsr (te : TestEnv α) (rsr_dir : Option String := none)
    (rsr_data_version : Option String := some RSR_DATA_VERSION) (download_from_internet : Bool := false)
    (central_wavelengths : Dict String α := []) (body : Test α β) : Test α β :=
  withDirOrTemp te rsr_dir fun rsr_dir =>
    overrideConfig te (some [("rsr_dir", .leaf (.str rsr_dir)),
      ("download_from_internet", .leaf (.bool download_from_internet))]) none fun _ =>
    mockRsrFiles rsr_dir rsr_data_version central_wavelengths body

/-! ### Fake Rayleigh tables -/

/-- The option `existing_version`: True, False or a version. -/
inductive ExistingVersion where
  | flag (b : Bool)
  | version (v : String)

/-- truth value of the option -/
def ExistingVersion.truthy : ExistingVersion → Bool
  | .flag b => b
  | .version v => v ≠ ""

/-- `base_fake_rayleigh_lut.h5`, pyspectral/testing.py:83 -/
def BASE_RAYLEIGH_LUT_FILENAME : String := "base_fake_rayleigh_lut.h5"

/-- models pyspectral/testing.py:448-464 (`_init_rayleigh_version_files`) -/
def initRayleighVersionFiles (rayleigh_dir : String) (existing_version : ExistingVersion) (aerosol_types : List String) :
    Test α Unit :=
  PySt.forEach (fun aerosol_type => do
    let (version, filename) ← PySt.lift (ATM_CORRECTION_LUT_VERSION.getItem aerosol_type)
    let subdir := rayleigh_dir ++ "/" ++ aerosol_type
    mkdir subdir
    let v := match existing_version with
      | .version v => v
      | .flag _ => version
    writeFile (subdir, filename) v.toList) aerosol_types

/-- models pyspectral/testing.py:587-593 (`_symlink_rayleigh_lut`); a link is modelled as a file with
the content of the base file at that moment -/
def symlinkRayleighLut (rayleigh_dir : String) (link_path : Path) : Test α Unit := fun s =>
  if (s.world.files link_path).isSome then (.ok (), s)
  else (.ok (), { s with world := s.world.setFile link_path (s.world.files (rayleigh_dir, BASE_RAYLEIGH_LUT_FILENAME)) })

/-- models pyspectral/testing.py:436-443: the links of one aerosol type -/
def linkLuts (rayleigh_dir : String) (atmospheres : List String) (aerosol_type : String) : Test α Unit := do
  let subdir := rayleigh_dir ++ "/" ++ aerosol_type
  mkdir subdir
  PySt.forEach (fun atmo_name =>
    symlinkRayleighLut rayleigh_dir (subdir, "rayleigh_lut_" ++ Str.replaceChar ' ' '_' atmo_name ++ ".h5")) atmospheres

/-- models pyspectral/testing.py:422-445 (`mock_rayleigh_luts`) -/
def mockRayleighLuts (te : TestEnv α) (rayleigh_dir : String) (existing_version : ExistingVersion := .flag true)
    (aerosol_types atmospheres : Option (List String) := none) (body : Test α β) : Test α β := do
  let aerosol_types := aerosol_types.getD AEROSOL_TYPES
  let atmospheres := atmospheres.getD (ATMOSPHERES.map Prod.fst)
  mkdir rayleigh_dir
  writeFile (rayleigh_dir, BASE_RAYLEIGH_LUT_FILENAME) te.fakeLut
  if existing_version.truthy then do
    initRayleighVersionFiles rayleigh_dir existing_version aerosol_types
    PySt.forEach (linkLuts rayleigh_dir atmospheres) aerosol_types
  body

/-- models pyspectral/testing.py:314-378 (`mock_rayleigh`) -/
def mockRayleigh (te : TestEnv α) (rayleigh_dir rsr_dir : Option String := none)
    (existing_version : ExistingVersion := .flag true) (aerosol_types atmospheres : Option (List String) := none)
    (body : Test α β) : Test α β :=
  withDirOrTemp te rayleigh_dir fun rayleigh_dir =>
    let rsr_dir := rsr_dir.getD rayleigh_dir
    overrideConfig te (some [("rayleigh_dir", .leaf (.str rayleigh_dir)), ("rsr_dir", .leaf (.str rsr_dir)),
      ("download_from_internet", .leaf (.bool false))]) none fun _ =>
    mockRayleighLuts te rayleigh_dir existing_version aerosol_types atmospheres (mockRsrFiles rsr_dir (body := body))

/-- models pyspectral/testing.py:86-138 (`mock_pyspectral_downloads`); `rsr_files_kwargs` are the
version and the central wavelengths -/
def mockPyspectralDownloads (te : TestEnv α) (tmp_path : Option String := none)
    (extra_config_options : List (String × Conf) := []) (rsr_data_version : Option String := some RSR_DATA_VERSION)
    (central_wavelengths : Dict String α := []) (body : Test α β) : Test α β :=
  withDirOrTemp te tmp_path fun tmp_path =>
    let rsr_dir := tmp_path ++ "/" ++ "fake_rsr"
    let rayleigh_dir := tmp_path ++ "/" ++ "fake_rayleigh"
    let tb2rad_dir := tmp_path ++ "/" ++ "fake_tb2rad"
    let config_options : List (String × Conf) :=
      [("download_from_internet", .leaf (.bool false)), ("rsr_dir", .leaf (.str rsr_dir)),
       ("rayleigh_dir", .leaf (.str rayleigh_dir)), ("tb2rad_dir", .leaf (.str tb2rad_dir))]
    let config_options := extra_config_options.foldl (fun d p => Dict.set d p.1 p.2) config_options
    overrideConfig te (some config_options) none fun _ =>
    mockRayleighLuts te rayleigh_dir (body := do
      mkdir tb2rad_dir
      mockRsrFiles rsr_dir rsr_data_version central_wavelengths body)

/-- models pyspectral/testing.py:141-176 (`mock_tb_conversion`) -/
def mockTbConversion (te : TestEnv α) (tb2rad_dir rsr_dir : Option String := none)
    (rsr_data_version : Option String := some RSR_DATA_VERSION) (central_wavelengths : Dict String α := [])
    (body : Test α β) : Test α β :=
  withDirOrTemp te tb2rad_dir fun tb2rad_dir =>
    let rsr_dir := rsr_dir.getD tb2rad_dir
    overrideConfig te (some [("rsr_dir", .leaf (.str rsr_dir)), ("tb2rad_dir", .leaf (.str tb2rad_dir)),
      ("download_from_internet", .leaf (.bool false))]) none fun _ =>
    mockRsrFiles rsr_dir rsr_data_version central_wavelengths body

/-- models pyspectral/testing.py:642-676 (`forbid_pyspectral_downloads`) -/
def forbidPyspectralDownloads (body : Test α β) : Test α β := fun s =>
  match body { s with forbidden := true } with
  | (r, s') => (r, { s' with forbidden := s.forbidden })

/-! ### Using pyspectral in a test -/

/-- the configuration, read by `get_config` under the present environment variable, and the network
as the test sees it -/
def useConfig (te : TestEnv α) (f : Env → Eff β) : Test α β := fun s =>
  let e : ConfEnv := { te.conf with psp := s.psp }
  let server := if s.forbidden then fun _ => Answer.raises .runtimeError else te.server
  let m : Eff β := do
    let options ← Eff.lift (downloadOptions (← getConfigFull e))
    f { cfg := options, server, untar := te.untar }
  match m s.world with
  | (r, w, _) => (r, { s with world := w })

/-- models pyspectral/rsr_reader.py:142-180 with the loading function as it is patched at the
moment -/
def readerWith (load : Path → Py (RsrInfo α)) (env : Env) (platform_name instrument : Option String := none)
    (filename : Option Path := none) : Eff (Reader α) := do
  let cfg ← getConfig env
  let (path, platform, inst) ← Eff.lift (sanitizeInputs cfg.rsr_dir filename platform_name instrument)
  if filename.isNone then do
    let _ ← downloadRsrUpdates env
    let info ← Eff.lift (load path)
    return readerOf path platform inst info
  else do
    let info ← Eff.lift (load path)
    return readerOf path platform inst info

/-- `RelativeSpectralResponse(...)` in a test -/
def newReader (te : TestEnv α) (platform_name instrument : Option String := none) (filename : Option Path := none) :
    Test α (Reader α) := fun s =>
  match s.loader with
  | some load => useConfig te (fun env => readerWith load env platform_name instrument filename) s
  | none => useConfig te (fun env => readerNew env te.h5open platform_name instrument filename) s

/-- `Rayleigh(...)` in a test -/
def newRayleigh (te : TestEnv α) (platform_name sensor atmosphere aerosol_type : String) : Test α RayleighObj :=
  useConfig te fun env => rayleighNew env platform_name sensor atmosphere aerosol_type

end Verif.Model
