import Verif.Model.Concurrent
import Verif.Model.Download
/-
Checking and downloading the spectral responses in several processes at the same time: the steps of
pyspectral/rsr_reader.py:83-136 and 372-376 and pyspectral/utils.py:356-383 and 437-461 on shared
files.
-/
namespace Verif.Model

/-- Files shared by processes.  Archives are written, read and removed, perhaps while other processes
have them open, so a name only points to a file (its number), which goes on to exist for those who have
opened it.  All other files are never removed; for them a name is enough (`world`). -/
structure Shared where
  world : World
  name : Path → Option Nat
  data : Nat → Content
  next : Nat

namespace Shared

/-- the files under their names, archives included -/
def view (s : Shared) : World :=
  { s.world with files := fun p => match s.name p with
      | some i => some (s.data i)
      | none => s.world.files p }

/-- change one archive -/
def setData (s : Shared) (i : Nat) (c : Content) : Shared := { s with data := fun j => if j = i then c else s.data j }

/-- give a name to an archive, or take it away -/
def setName (s : Shared) (p : Path) (i : Option Nat) : Shared := { s with name := fun q => if q = p then i else s.name q }

/-- the file a process gets when it opens an archive for writing: the one with that name, or a new one -/
def handle (s : Shared) (p : Path) : Nat := (s.name p).getD s.next

/-- `open(p, "wb")` of an archive: the file with that name is emptied, or a new file gets the name -/
def opened (s : Shared) (p : Path) : Shared :=
  match s.name p with
  | some i => s.setData i []
  | none => { ((s.setData s.next []).setName p (some s.next)) with next := s.next + 1 }

end Shared

/-- a program that does not touch archives -/
def onWorldP {β : Type} : Prog World β → Prog Shared β
  | .done r => .done r
  | .step n u => .step (fun s => onWorldP (n s.world)) (fun s => { s with world := u s.world })

/-- `open(p, "wb")` of an archive: the number of the file -/
def openArchiveP (p : Path) : Prog Shared Nat :=
  .step (fun s => if s.world.dirs p.1 then .done (.ok (s.handle p)) else .done (.error .fileNotFound))
    (fun s => if s.world.dirs p.1 then s.opened p else s)

/-- writing to an open archive, byte by byte -/
def writeArchiveP (i : Nat) : Nat → Content → Prog Shared Unit
  | _, [] => .done (.ok ())
  | k, b :: bs => .step (fun _ => writeArchiveP i (k + 1) bs) (fun s => s.setData i (writeAt (s.data i) k b))

/-- reading an open archive byte by byte, until its end or at most `n` bytes -/
def readArchiveP (i : Nat) : Nat → Nat → Content → Prog Shared Content
  | _, 0, acc => .done (.ok acc)
  | k, n + 1, acc => .look fun s => match (s.data i)[k]? with
    | some b => readArchiveP i (k + 1) n (acc ++ [b])
    | none => .done (.ok acc)

/-- `tarfile.open(p)`: the file that has the name now; then it is read to its end.  (tarfile unpacks while
it reads; here all is read first.  `size` bytes were written by this process itself; a file is not read
beyond this or its size when opened.) -/
def readAllP (p : Path) (size : Nat) : Prog Shared Content :=
  .look fun s => match s.name p with
    | none => .done (.error .fileNotFound)
    | some i => readArchiveP i 0 (max size (s.data i).length) []

/-- `os.remove(p)` of an archive -/
def removeP (p : Path) : Prog Shared Unit :=
  .step (fun s => match s.name p with
      | some _ => .done (.ok ())
      | none => .done (.error .fileNotFound))
    (fun s => s.setName p none)

/-- one member written by `extractall`, as `extractMember` -/
def extractMemberP (dir : String) (m : String × Content) : Prog World Unit :=
  (makedirsP dir).bind fun _ => (openWriteP (dir, m.1)).bind fun _ => writeP (dir, m.1) 0 m.2

/-- all members in order -/
def extractAllP (dir : String) : List (String × Content) → Prog World Unit
  | [] => .done (.ok ())
  | m :: ms => (extractMemberP dir m).bind fun _ => extractAllP dir ms

/-- `tarfile.extractall`, then an error if the archive could not be read to its end, else the archive is
removed; models pyspectral/utils.py:457-461 -/
def unpackP (dir : String) (p : Path) (u : List (String × Content) × Bool) : Prog Shared Unit :=
  (onWorldP (extractAllP dir u.1)).bind fun _ => if u.2 then removeP p else .done (.error .runtimeError)

/-- models pyspectral/utils.py:437-461 (`_download_tarball_and_extract`), as `downloadTarballAndExtract` -/
def downloadTarballP (env : Env) (url : String) (local_pathname : Path) (extract_dir : String) : Prog Shared Unit :=
  (Prog.act fun s : Shared => { s with world := { s.world with requests := s.world.requests ++ [url] } }).bind fun _ =>
  match env.server url with
  | .raises e => .done (.error e)
  | .answered status contentLengthOk chunks =>
    if 400 ≤ status ∧ status < 600 then .done (.error .httpError)
    else if ¬ contentLengthOk then .done (.error .valueError)
    else
      (openArchiveP local_pathname).bind fun i => (writeArchiveP i 0 chunks.flatten).bind fun _ =>
      (readAllP local_pathname chunks.flatten.length).bind fun content =>
        unpackP extract_dir local_pathname (env.untar content)
  | .broken chunks e =>
    (openArchiveP local_pathname).bind fun i => (writeArchiveP i 0 chunks.flatten).bind fun _ => .done (.error e)

/-- models pyspectral/config.py:41-58 (`get_config`) as `getConfig` -/
def getConfigP (env : Env) : Prog Shared Unit :=
  onWorldP ((makedirsP env.cfg.rsr_dir).bind fun _ => makedirsP env.cfg.rayleigh_dir)

/-- models pyspectral/utils.py:356-383 (`download_rsr`) with the default directory -/
def downloadRsrP (env : Env) (dry_run : Bool) : Prog Shared Unit :=
  (getConfigP env).bind fun _ =>
    if dry_run then .done (.ok ())
    else downloadTarballP env HTTP_PYSPECTRAL_RSR (env.cfg.rsr_dir, RSR_TARBALL) env.cfg.rsr_dir

/-- models pyspectral/rsr_reader.py:110-136 (`download_rsr_updates`); the line with the version is read
at once -/
def downloadRsrUpdatesP (env : Env) (dry_run : Bool) : Prog Shared Bool :=
  .look fun s =>
    if rsrDataVersionUptodate env s.view then .done (.ok false)
    else if ¬ env.cfg.download_from_internet then .done (.ok true)
    else (downloadRsrP env dry_run).bind fun _ => .done (.ok true)

/-- models pyspectral/rsr_reader.py:83-87 and 110-136: making the data base object and
`download_rsr_updates`, as `check_and_download` (372-376) does, with the value it ignores -/
def checkUpdatesP (env : Env) (dry_run : Bool) : Prog Shared Bool :=
  (getConfigP env).bind fun _ => downloadRsrUpdatesP env dry_run

end Verif.Model
