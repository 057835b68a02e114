import Verif.Base.OsPath
import Verif.Model.Download
/-
Model of pyspectral/config.py and of what readers of raw responses take from the configuration
(pyspectral/raw_reader.py).
-/
namespace Verif.Model

/-- A value that is not a mapping: a string, a bool, or anything else (shown by a name, with its
truth value). -/
inductive Leaf where
  | str (s : String)
  | bool (b : Bool)
  | other (name : String) (truthy : Bool)
  deriving DecidableEq

/-- A configuration value: a leaf or a mapping (in insertion order).  Keys are strings. -/
inductive Conf where
  | leaf (v : Leaf)
  | map (d : List (String × Conf))

/-- models pyspectral/config.py:24-38 (`recursive_dict_update`): the new value of `d` after going
through the items of `u`.  A `d` that is no mapping has no `get` (AttributeError) and no item
assignment (TypeError).  (What is left of `d` after an exception is not modelled.) -/
def recursiveDictUpdate : Conf → List (String × Conf) → Py Conf
  | d, [] => .ok d
  | d, (k, .map v) :: u =>
    match d with
    | .leaf _ => .error .attributeError
    | .map dd => do
      let r ← recursiveDictUpdate ((Dict.get? dd k).getD (.map [])) v
      recursiveDictUpdate (.map (Dict.set dd k r)) u
  | d, (k, .leaf v) :: u =>
    match d with
    | .leaf _ => .error .typeError
    | .map dd => recursiveDictUpdate (.map (Dict.set dd k (.leaf v))) u

/-- What the configuration depends on from outside: the environment variable PSP_CONFIG_FILE, the
path of the builtin file (pyspectral/config.py:21), the yaml parser, the user data directory of
platformdirs, and the home directories (of the user, name "", and of others). -/
structure ConfEnv where
  psp : Option String
  builtin : String
  yamlLoad : Content → Py Conf
  userDataDir : String
  home : String → Option String

/-- `s.rstrip('/')` on characters -/
def rstripSlash (cs : List Char) : List Char := (cs.reverse.dropWhile (· = '/')).reverse

/-- `os.path.expanduser` (posixpath): a leading `~` or `~name` up to the first slash -/
def expanduser (home : String → Option String) (path : String) : String :=
  match path.toList with
  | '~' :: cs =>
    match home (String.ofList (cs.takeWhile (· ≠ '/'))) with
    | none => path
    | some h =>
      let r := rstripSlash h.toList ++ cs.dropWhile (· ≠ '/')
      if r = [] then "/" else String.ofList r
  | _ => path

/-- models pyspectral/config.py:61-68 (`_get_env_or_builtin_config_path`) -/
def getEnvOrBuiltinConfigPath (e : ConfEnv) (w : World) : Py String :=
  match e.psp with
  | some f => if (w.files (OsPath.file f)).isSome then .ok f else .error .ioError
  | none => .ok e.builtin

/-- `expanduser(config.get(key, default))`: TypeError for a value that is no string -/
def expandOption (e : ConfEnv) (config : List (String × Conf)) (key : String) : Py String :=
  match Dict.get? config key with
  | none => .ok (expanduser e.home e.userDataDir)
  | some (.leaf (.str s)) => .ok (expanduser e.home s)
  | some _ => .error .typeError

/-- models pyspectral/config.py:46-49: read and parse the file, and copy it into an empty
dictionary; a document that is no mapping has no `items` (AttributeError) -/
def loadConfigFile (e : ConfEnv) (config_file : String) (w : World) : Py (List (String × Conf)) := do
  match w.files (OsPath.file config_file) with
  | none => .error (if w.dirs config_file then .ioError else .fileNotFound)
  | some content =>
    match ← e.yamlLoad content with
    | .leaf _ => .error .attributeError
    | .map u =>
      match ← recursiveDictUpdate (.map []) u with
      | .leaf _ => .error .attributeError
      | .map config => return config

/-- models pyspectral/config.py:43-44: the file given, else the one of the environment -/
def configPath (e : ConfEnv) (config_file : Option String) (w : World) : Py String :=
  match config_file with
  | some f => .ok f
  | none => getEnvOrBuiltinConfigPath e w

/-- models pyspectral/config.py:41-58 (`get_config`); `os.makedirs` of a place that is a file, and
parent directories, are not modelled -/
def getConfigFull (e : ConfEnv) (config_file : Option String := none) : Eff (List (String × Conf)) := do
  let w ← Eff.get
  let file ← Eff.lift (configPath e config_file w)
  let config ← Eff.lift (loadConfigFile e file w)
  let rsr_dir ← Eff.lift (expandOption e config "rsr_dir")
  let config := Dict.set config "rsr_dir" (.leaf (.str rsr_dir))
  let rayleigh_dir ← Eff.lift (expandOption e config "rayleigh_dir")
  let config := Dict.set config "rayleigh_dir" (.leaf (.str rayleigh_dir))
  FileOp.makedirs rsr_dir
  FileOp.makedirs rayleigh_dir
  return config

/-- `bool(x)`: an empty mapping is false -/
def Conf.truthy : Conf → Bool
  | .leaf (.str s) => s ≠ ""
  | .leaf (.bool b) => b
  | .leaf (.other _ t) => t
  | .map d => !d.isEmpty

/-- the options used by the downloading code: models pyspectral/rsr_reader.py:83-87 and
pyspectral/rayleigh.py:67-69 -/
def downloadOptions (config : List (String × Conf)) : Py Config := do
  let r ← Dict.getItem config "rsr_dir"
  let l ← Dict.getItem config "rayleigh_dir"
  match r, l with
  | .leaf (.str rsr_dir), .leaf (.str rayleigh_dir) =>
    return { rsr_dir, rayleigh_dir,
             download_from_internet := match Dict.get? config "download_from_internet" with
               | some v => v.truthy
               | none => false }
  | _, _ => .error .typeError

/-! ### Raw responses -/

/-- models pyspectral/raw_reader.py:12-32 (`InstrumentRSR`): the attributes set by the base class.
A subclass sets `instrument`. -/
structure InstrumentRSR where
  platform_name : String
  bandname : String
  instrument : Option String
  filenames : Dict String (Option String)
  bandnames : List String
  output_dir : Option Conf
  path : Option String
  filename : Option Conf
  options : List (String × Conf)

/-- models pyspectral/raw_reader.py:15-32 (`__init__`) -/
def InstrumentRSR.new (bandname platform_name : String) (bandnames : Option (List String) := none) : InstrumentRSR where
  platform_name := platform_name
  bandname := bandname
  instrument := none
  bandnames := bandnames.getD []
  filenames := (bandnames.getD []).foldl (fun d b => Dict.set d b none) []
  output_dir := none
  path := none
  filename := none
  options := []

/-- the section of the platform and instrument; TypeError without instrument, KeyError without
section, pyspectral/raw_reader.py:38-39 and 46-48 -/
def InstrumentRSR.sectionOf (r : InstrumentRSR) (options : List (String × Conf)) : Py (List (String × Conf)) := do
  match r.instrument with
  | none => .error .typeError
  | some i =>
    match ← Dict.getItem options (r.platform_name ++ "-" ++ i) with
    | .map d => return d
    | .leaf _ => .error .typeError

/-- models pyspectral/raw_reader.py:37-40 (`_get_options_from_config`), given the options.
`Path(...)` of a value that is no string is a TypeError; its normalisation is not modelled,
nor what is left of the object after an exception. -/
def InstrumentRSR.getOptionsFrom (options : List (String × Conf)) (r : InstrumentRSR) : Py InstrumentRSR := do
  let output_dir := (Dict.get? options "rsr_dir").getD (.leaf (.str "./"))
  let d ← r.sectionOf options
  let path ← match ← Dict.getItem d "path" with
    | .leaf (.str s) => pure s
    | _ => .error .typeError
  return { r with output_dir := some output_dir, path := some path, filename := Dict.get? d "filename", options }

/-- models pyspectral/raw_reader.py:34-40 (`_get_options_from_config`) -/
def InstrumentRSR.getOptionsFromConfig (e : ConfEnv) (r : InstrumentRSR) : Eff InstrumentRSR := do
  let options ← getConfigFull e
  Eff.lift (r.getOptionsFrom options)

/-- models pyspectral/raw_reader.py:46-48: the file of one band; TypeError before the options are
read (`self.path` is None) or if the name is no string -/
def InstrumentRSR.bandFilename (r : InstrumentRSR) (band : String) : Py String := do
  let d ← r.sectionOf r.options
  let f ← Dict.getItem d band
  match r.path, f with
  | some p, .leaf (.str s) => return OsPath.join p s
  | _, _ => .error .typeError

/-- models pyspectral/raw_reader.py:42-52 (`_get_bandfilenames`); a missing file is only logged -/
def InstrumentRSR.getBandfilenames (r : InstrumentRSR) : Py InstrumentRSR := do
  let fs ← r.bandnames.mapM fun b => do return (b, ← r.bandFilename b)
  return { r with filenames := fs.foldl (fun d p => Dict.set d p.1 (some p.2)) r.filenames }

/-- models pyspectral/raw_reader.py:54-57 (`_load` of the base class) -/
def InstrumentRSR.load (_ : InstrumentRSR) : Py Unit := .error .notImplemented

end Verif.Model
