import Verif.Base.Conc
import Verif.Model.Testing
/-
Model of `override_config` (pyspectral/testing.py:467-497) as a program of atomic steps, for use by several threads
of one process: they share the environment variable PSP_CONFIG_FILE and the files.
-/
namespace Verif.Model
variable {α : Type} {β : Type}

/-- models pyspectral/testing.py:484-488: the variable is put back to what it was when the block was entered;
`del` of a variable that is not set is a KeyError -/
def restoreP (old : Option String) (r : Py β) : Prog (TestState α) β :=
  match old with
  | some v => .step (fun _ => .done r) fun s => { s with psp := some v }
  | none => .step (fun s => if s.psp = none then .done (.error .keyError) else .done r) fun s => { s with psp := none }

/-- models pyspectral/testing.py:481-488 -/
def overriddenP (old : Option String) (config_path : String) (body : String → Prog (TestState α) β) :
    Prog (TestState α) β :=
  .step (fun _ => (body config_path).onEnd (restoreP old)) fun s => { s with psp := some config_path }

/-- `with tempfile.TemporaryDirectory() as d: body`: making the directory is one step, removing it another -/
def withTempDirP (te : TestEnv α) (body : String → Prog (TestState α) β) : Prog (TestState α) β :=
  .step (fun s => (body (te.fresh s.world)).onEnd fun r =>
      .step (fun _ => .done r) fun s' => { s' with world := removeTree (te.fresh s.world) s'.world })
    fun s => (mkdir (te.fresh s.world) s).2

/-- models pyspectral/testing.py:500-516 (`create_pyspectral_config_file`), in one step: the file is in a
directory that only this thread uses -/
def createPyspectralConfigFileP (te : TestEnv α) (config_path : String) (options : Option (List (String × Conf))) :
    Prog (TestState α) Unit :=
  .step (fun s => .done (createPyspectralConfigFile te config_path options s).1)
    fun s => (createPyspectralConfigFile te config_path options s).2

/-- models pyspectral/testing.py:467-488 (`override_config`) with 491-497 and 519-526 -/
def overrideConfigP (te : TestEnv α) (options : Option (List (String × Conf)) := none)
    (config_path : Option String := none) (body : String → Prog (TestState α) β) : Prog (TestState α) β :=
  .look fun s =>
    match config_path with
    | some p => overriddenP s.psp p body
    | none => withTempDirP te fun d =>
        (createPyspectralConfigFileP te (configPathIn d) options).bind fun _ =>
          overriddenP s.psp (configPathIn d) body

end Verif.Model
