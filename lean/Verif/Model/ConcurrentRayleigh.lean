import Verif.Model.ConcurrentDownload
/-
Making `Rayleigh` objects in several processes at the same time: the steps of
pyspectral/rayleigh.py:62-84 and 124-140 and pyspectral/utils.py:386-415 and 437-461 on shared files.
-/
namespace Verif.Model

/-- models pyspectral/utils.py:402-415: one aerosol type of `download_luts`, as `downloadLut` -/
def downloadLutP (env : Env) (subname : String) : Prog Shared Unit :=
  (Prog.done (HTTPS_RAYLEIGH_LUTS.getItem subname)).bind fun url =>
  (getConfigP env).bind fun _ =>
  (onWorldP (makedirsP (rayleighLutDir env subname))).bind fun _ =>
    downloadTarballP env url (rayleighLutDir env subname, LUT_TARBALL) (rayleighLutDir env subname)

/-- models pyspectral/rayleigh.py:62-84 and 86-101 (`RayleighConfigBaseClass.__init__`) as `rayleighConfig`;
the line with the version is read at once -/
def rayleighConfigP (env : Env) (aerosol_type atm_type : String) : Prog Shared Bool :=
  (getConfigP env).bind fun _ =>
    if ¬ ATMOSPHERES.contains atm_type then .done (.error .attributeError)
    else if ¬ AEROSOL_TYPES.contains aerosol_type then .done (.error .attributeError)
    else (getConfigP env).bind fun _ => .look fun s => .done (.ok (lutVersionUptodate env s.view aerosol_type))

/-- models pyspectral/rayleigh.py:124-140 (`Rayleigh.__init__`) as `rayleighNew` -/
def rayleighNewP (env : Env) (platform_name sensor atmosphere aerosol_type : String) : Prog Shared RayleighObj :=
  (rayleighConfigP env aerosol_type atmosphere).bind fun upToDate =>
  (Prog.done (normalizeSensor platform_name sensor)).bind fun sensor =>
  (getConfigP env).bind fun _ =>
    let lut : Path := (rayleighLutDir env aerosol_type, "rayleigh_lut_" ++ Str.replaceChar ' ' '_' atmosphere ++ ".h5")
    if ¬ upToDate ∧ env.cfg.download_from_internet then
      (downloadLutP env aerosol_type).bind fun _ => .done (.ok ⟨platform_name, sensor, lut⟩)
    else .done (.ok ⟨platform_name, sensor, lut⟩)

end Verif.Model
