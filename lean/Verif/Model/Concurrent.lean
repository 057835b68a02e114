import Verif.Base.Conc
import Verif.Model.Nir
/-
Constructing Calculator objects in several processes (or threads) at the same time: the steps of
pyspectral/near_infrared_reflectance.py:45-135 and pyspectral/radiance_tb_conversion.py:209-220 on
shared files.
-/
namespace Verif.Model
open PyNum
variable {α : Type} [PyNum α]

/-- the content after writing one byte at an offset: beyond the end, the gap is filled with zero
bytes -/
def writeAt (content : Content) (k : Nat) (b : Char) : Content :=
  if k < content.length then content.set k b
  else content ++ List.replicate (k - content.length) '\x00' ++ [b]

/-- `open(p, "wb")`, as `FileOp.openWrite` -/
def openWriteP (p : Path) : Prog World Unit :=
  .step (fun w => if w.dirs p.1 then .done (.ok ()) else .done (.error .fileNotFound))
    (fun w => if w.dirs p.1 then w.setFile p (some []) else w)

/-- writing data from an offset on, byte by byte; every process has its own offset -/
def writeP (p : Path) : Nat → Content → Prog World Unit
  | _, [] => .done (.ok ())
  | k, b :: bs => .step (fun _ => writeP p (k + 1) bs)
      (fun w => w.setFile p (some (writeAt ((w.files p).getD []) k b)))

/-- reading up to `n` bytes from an offset on, byte by byte; a file that has become shorter ends the
reading -/
def readBytesP (p : Path) : Nat → Nat → Content → Prog World Content
  | _, 0, acc => .done (.ok acc)
  | k, n + 1, acc => .look fun w => match ((w.files p).getD [])[k]? with
    | some b => readBytesP p (k + 1) n (acc ++ [b])
    | none => .done (.ok acc)

/-- reading a file: its size first (a zip file is read from its end), then the bytes -/
def readP (p : Path) : Prog World Content :=
  .look fun w => match w.files p with
    | none => .done (.error .fileNotFound)
    | some c => readBytesP p 0 c.length []

/-- models pyspectral/radiance_tb_conversion.py:209-214 (`make_tb2rad_lut`) -/
def makeTb2radLutFileP (ne : NirEnv α) (c : RadTb α) (filepath : String) : Prog World Unit :=
  (Prog.done (c.makeTb2radLut ne.nanCast)).bind fun lut =>
    (openWriteP (OsPath.file (savezPath filepath))).bind fun _ =>
      writeP (OsPath.file (savezPath filepath)) 0 (ne.npzEncode lut)

/-- models pyspectral/radiance_tb_conversion.py:217-220 (`read_tb2rad_lut`) -/
def readTb2radLutP (ne : NirEnv α) (filepath : String) : Prog World (Lut α) :=
  (readP (OsPath.file filepath)).bind fun content => .done (ne.npzDecode content)

/-- models pyspectral/near_infrared_reflectance.py:127-135 (`_set_lut`) -/
def setLutP (ne : NirEnv α) (c : RadTb α) (lutfile : String) : Prog World (Lut α) :=
  .look fun w =>
    if OsPath.pathExists w lutfile then readTb2radLutP ne lutfile
    else (makeTb2radLutFileP ne c lutfile).bind fun _ => readTb2radLutP ne lutfile

/-- `os.makedirs(d, exist_ok=True)` -/
def makedirsP (d : String) : Prog World Unit :=
  .act fun w => { w with dirs := fun x => if x = d then true else w.dirs x }

/-- models pyspectral/near_infrared_reflectance.py:88-99 (`_set_lutfile`) -/
def setLutfileP (ne : NirEnv α) (platform_name instrument bandname : String) : Prog World String :=
  (makedirsP ne.env.cfg.rsr_dir).bind fun _ => (makedirsP ne.env.cfg.rayleigh_dir).bind fun _ =>
    .look fun w =>
      let tb2rad_dir := ne.tb2rad_dir.getD ne.tempdir
      match lutfileFromConfig ne w tb2rad_dir platform_name instrument bandname with
      | some f => .done (.ok f)
      | none => .done (.ok (OsPath.join tb2rad_dir (autoLutname platform_name instrument bandname ++ ".npz")))

/-- models pyspectral/near_infrared_reflectance.py:45-72 (`__init__`), as `Nir.new` -/
def Nir.newP (ne : NirEnv α) (sensor : Py (Sensor α)) (platform_name instrument : String) (band : BandArg α)
    (detector : String := "det-1") (wavespace : String := WAVE_LENGTH) (solar_flux : Option α := none)
    (sunz_threshold : α := TERMINATOR_LIMIT) (masking_limit : Option α := some TERMINATOR_LIMIT) :
    Prog World (Nir α) :=
  (Prog.done (RadTb.new sensor platform_name instrument band detector wavespace)).bind fun c =>
  (Prog.done (nirBand c band)).bind fun nw =>
  (Prog.done (nirFlux ne c nw.1 solar_flux)).bind fun flux =>
  (setLutfileP ne platform_name instrument nw.1).bind fun lutfile =>
  (setLutP ne c lutfile).bind fun lut =>
    .done (.ok {
      conv := { c with bandname := some nw.1 }, bandname := nw.1, bandwavelength := nw.2, lutfile, lut := some lut
      masking_limit, solar_flux := flux, sunz_threshold, e3x := none, r3x := none, rad3x := none
      rad3x_t11 := none, rad3x_correction := Arr.scalar 1.0, solar_radiance := none })

end Verif.Model
