import Verif.Base.Arr
import Verif.Base.OsPath
import Verif.Base.State
import Verif.Model.Download
import Verif.Model.RadTb
import Verif.Model.Solar
/-
Model of pyspectral/near_infrared_reflectance.py.  dask is taken to be installed (lines 14-17),
so all arrays inside are dask arrays; element types other than float64 are not modelled.
-/
namespace Verif.Model
open PyNum
variable {α : Type} [PyNum α]

/-- models pyspectral/near_infrared_reflectance.py:26 -/
def NIR_EPSILON : α := 0.005
/-- models pyspectral/near_infrared_reflectance.py:29 -/
def TERMINATOR_LIMIT : α := 85.0

/-- the option `tb2rad_lut_filename` of a platform-instrument section: nothing, one file for
all bands, or a dictionary from bands to files -/
inductive LutOption where
  | empty
  | file (s : String)
  | perBand (d : Dict String (Option String))

/-- What the constructor depends on from outside: the configuration (with the options
`tb2rad_dir` and the platform-instrument sections having a `tb2rad_lut_filename`), the temporary
directory, the solar spectrum file, the spline, the npz file format, and the value numpy gives
to NaN cast to int16. -/
structure NirEnv (α : Type) where
  env : Env
  tb2rad_dir : Option String
  tempdir : String
  sections : Dict String LutOption
  solarFile : Py (List α × List α)
  spline : Spline α
  npzEncode : Lut α → Content
  npzDecode : Content → Py (Lut α)
  nanCast : Int

/-- A Calculator object (pyspectral/near_infrared_reflectance.py:45-72); `conv` holds the
attributes of the base class. -/
structure Nir (α : Type) where
  conv : RadTb α
  bandname : String
  bandwavelength : α
  lutfile : String
  lut : Option (Lut α)
  masking_limit : Option α
  solar_flux : α
  sunz_threshold : α
  e3x : Option (Arr α)
  r3x : Option (Arr α)
  rad3x : Option (Arr α)
  rad3x_t11 : Option (Arr α)
  rad3x_correction : Arr α
  solar_radiance : Option (Arr α)

/-! ### Construction -/

/-- models pyspectral/near_infrared_reflectance.py:74-86 (`_set_bandname_and_wavelength`) -/
def nirBand (c : RadTb α) (band : BandArg α) : Py (String × α) := do
  let bandname ← notNone (← converterBandname c.instrument c.rsr band)
  let bandwavelength ← match band with
    | .name _ => do
      let b ← converterLookup c.wavespace c.rsrInstrument c.rsr (some bandname)
      getNum (← Dict.getItem b "det-1") "central_wavelength"
    | .number x => pure x
    | .other => .error .typeError
  if gt bandwavelength 3.95 || lt bandwavelength 3.5 then .error .notImplemented
  else return (bandname, bandwavelength)

/-- models pyspectral/near_infrared_reflectance.py:154-159 (`_get_solarflux`) -/
def nirSolarflux (ne : NirEnv α) (c : RadTb α) (bandname : String) : Py α := do
  let s ← solarNew ne.solarFile (some c.wavespace) (some 0.0005)
  let b ← converterLookup c.wavespace c.rsrInstrument c.rsr (some bandname)
  (Solar.inbandSolarflux ne.spline (.dets b) (scale := 1.0) (detector := 1) s).1

/-- models pyspectral/near_infrared_reflectance.py:68-69: the flux given, or derived -/
def nirFlux (ne : NirEnv α) (c : RadTb α) (bandname : String) : Option α → Py α
  | some f => .ok f
  | none => nirSolarflux ne c bandname

/-- models pyspectral/near_infrared_reflectance.py:118-125 (`_lutfile_from_dict`) -/
def lutfileFromDict (bandname : String) : Dict String (Option String) → Option String
  | [] => none
  | (item, v) :: rest => if item = bandname ∨ item = Str.lower bandname then v else lutfileFromDict bandname rest

/-- models pyspectral/near_infrared_reflectance.py:105-108: one file for all bands or per band -/
def lutfileFromOption (bandname : String) : LutOption → Option String
  | .empty => none
  | .file s => some s
  | .perBand d => lutfileFromDict bandname d

/-- models pyspectral/near_infrared_reflectance.py:101-116 (`_lutfile_from_config`);
`platform_sensor in options` and the test for the option are one look-up in `sections` -/
def lutfileFromConfig (ne : NirEnv α) (w : World) (tb2rad_dir platform_name instrument bandname : String) :
    Option String :=
  match ne.sections.get? (platform_name ++ "-" ++ instrument) with
  | none => none
  | some opt =>
    match lutfileFromOption bandname opt with
    | none => none
    | some "" => some ""
    | some f =>
      let f := if Str.endsWith f ".npz" then f else f ++ ".npz"
      if OsPath.pathExists w (OsPath.dirname f) then some f
      else some (OsPath.join tb2rad_dir (OsPath.basename f))

/-- models pyspectral/near_infrared_reflectance.py:97-98: the automatic file name -/
def autoLutname (platform_name instrument bandname : String) : String :=
  "tb2rad_lut_" ++ Str.lower platform_name ++ "_" ++ Str.lower instrument ++ "_" ++ Str.lower bandname

/-- models pyspectral/near_infrared_reflectance.py:88-99 (`_set_lutfile`) -/
def setLutfile (ne : NirEnv α) (platform_name instrument bandname : String) : Eff String := do
  let _ ← getConfig ne.env
  let tb2rad_dir := ne.tb2rad_dir.getD ne.tempdir
  let w ← Eff.get
  match lutfileFromConfig ne w tb2rad_dir platform_name instrument bandname with
  | some f => return f
  | none => return OsPath.join tb2rad_dir (autoLutname platform_name instrument bandname ++ ".npz")

/-- `np.savez(filepath, ...)` adds the extension if it is missing -/
def savezPath (p : String) : String := if Str.endsWith p ".npz" then p else p ++ ".npz"

/-- models pyspectral/radiance_tb_conversion.py:209-214 (`make_tb2rad_lut`): compute the table,
then write the file -/
def makeTb2radLutFile (ne : NirEnv α) (c : RadTb α) (filepath : String) : Eff Unit := do
  let lut ← Eff.lift (c.makeTb2radLut ne.nanCast)
  let p := OsPath.file (savezPath filepath)
  FileOp.openWrite p
  FileOp.append p (ne.npzEncode lut)

/-- models pyspectral/radiance_tb_conversion.py:217-220 (`read_tb2rad_lut`) -/
def readTb2radLut (ne : NirEnv α) (filepath : String) : Eff (Lut α) := do
  let w ← Eff.get
  match w.files (OsPath.file filepath) with
  | none => Eff.raise .fileNotFound
  | some content => Eff.lift (ne.npzDecode content)

/-- models pyspectral/near_infrared_reflectance.py:127-135 (`_set_lut`) -/
def setLut (ne : NirEnv α) (c : RadTb α) (lutfile : String) : Eff (Lut α) := do
  let w ← Eff.get
  if OsPath.pathExists w lutfile then readTb2radLut ne lutfile
  else do
    makeTb2radLutFile ne c lutfile
    readTb2radLut ne lutfile

/-- models pyspectral/near_infrared_reflectance.py:45-72 (`__init__`).  `sensor` is what reading
the spectral responses gives (see `RadTb.new`). -/
def Nir.new (ne : NirEnv α) (sensor : Py (Sensor α)) (platform_name instrument : String) (band : BandArg α)
    (detector : String := "det-1") (wavespace : String := WAVE_LENGTH) (solar_flux : Option α := none)
    (sunz_threshold : α := TERMINATOR_LIMIT) (masking_limit : Option α := some TERMINATOR_LIMIT) :
    Eff (Nir α) := do
  let c ← Eff.lift (RadTb.new sensor platform_name instrument band detector wavespace)
  let nw ← Eff.lift (nirBand c band)
  let flux ← Eff.lift (nirFlux ne c nw.1 solar_flux)
  let lutfile ← setLutfile ne platform_name instrument nw.1
  let lut ← setLut ne c lutfile
  return {
    conv := { c with bandname := some nw.1 }, bandname := nw.1, bandwavelength := nw.2, lutfile, lut := some lut
    masking_limit, solar_flux := flux, sunz_threshold, e3x := none, r3x := none, rad3x := none
    rad3x_t11 := none, rad3x_correction := Arr.scalar 1.0, solar_radiance := none }

/-! ### Reflectance -/

/-- Kinds of array arguments: plain numpy arrays, dask (or xarray) arrays, numpy masked arrays
(whose own mask is not modelled). -/
inductive ArrKind where
  | numpy | dask | masked
  deriving DecidableEq, Repr

/-- An argument: a scalar or an array. -/
inductive NirIn (α : Type) where
  | scalar (x : α)
  | array (kind : ArrKind) (a : Arr α)

/-- models pyspectral/near_infrared_reflectance.py:285-293 (`get_as_array`) -/
def NirIn.asArray : NirIn α → Arr α
  | .scalar x => ⟨[1], [x]⟩
  | .array _ a => a

/-- `hasattr(x, "compute")` -/
def NirIn.isLazy : NirIn α → Bool
  | .array .dask _ => true
  | _ => false
/-- `hasattr(x, "mask")` -/
def NirIn.isMasked : NirIn α → Bool
  | .array .masked _ => true
  | _ => false

/-- A returned array: the values, whether they are still lazy (a dask array), and the mask of a
masked array. -/
structure NirOut (α : Type) where
  values : Arr α
  isLazy : Bool
  mask : Option (List Bool)

/-- the elements of a radiance result -/
def Rad.elems : Rad α → List α
  | .arr xs => xs
  | .pyFloat x => [x]

/-- `tb2radiance(tb, lut=lut)["radiance"]` of an array (pyspectral/radiance_tb_conversion.py:153-207):
the table branch keeps the shape (line 192 does not apply to dask arrays), the direct one gives a
1-D array (pyspectral/blackbody.py:97) -/
def tb2radianceArr (c : RadTb α) (nanCast : Int) (tb : Arr α) (lut : Option (Lut α)) : Py (Arr α) := do
  let r ← c.tb2radiance nanCast tb.data lut
  let data := r.radiance.elems
  match lut with
  | some _ => return ⟨tb.shape, data⟩
  | none => return ⟨[data.length], data⟩

/-- models pyspectral/near_infrared_reflectance.py:152 on arrays -/
def rad39Corr (bt11 bt13 : Arr α) : Py (Arr α) := do
  let d ← bt11.bcast (· - ·) bt13
  let t ← bt11.bcast (· - ·) (d.map (0.25 * ·))
  (t.map (powNat · 4)).bcast (· / ·) (bt11.map (powNat · 4))

/-- models pyspectral/near_infrared_reflectance.py:137-152 (`derive_rad39_corr`) -/
def Nir.deriveRad39Corr (bt11 bt13 : Arr α) (method : String := "rosenfeld") : PySt (Nir α) Unit := do
  if method ≠ "rosenfeld" then PySt.raise .attributeError
  else do
    let corr ← PySt.lift (rad39Corr bt11 bt13)
    PySt.modify fun s => { s with rad3x_correction := corr }

/-- models pyspectral/near_infrared_reflectance.py:247-251 (`_calculate_solar_radiance`): one
zenith angle -/
def solarRadiancePoint (flux sunz_threshold z : α) : α :=
  flux * cos (deg2rad (clip z 0 sunz_threshold)) / pi

/-- models pyspectral/near_infrared_reflectance.py:253-261 (`_calculate_rad3x_correction`) -/
def Nir.calculateRad3xCorrection (tb_therm : Arr α) (tbco2 : Option (Arr α)) : PySt (Nir α) Unit :=
  match tbco2 with
  | some co2 => Nir.deriveRad39Corr tb_therm co2
  | none => PySt.modify fun s => { s with rad3x_correction := Arr.scalar 1.0 }

/-- models pyspectral/near_infrared_reflectance.py:277-279: adding the zenith mask -/
def zenithMask (masking_limit : Option α) (sun_zenith : Arr α) (mask : Arr Bool) : Py (Arr Bool) :=
  match masking_limit with
  | none => .ok mask
  | some lim => (sun_zenith.map fun z => lt z 0.0 || gt z lim).bcastOut (· || ·) mask

/-- models pyspectral/near_infrared_reflectance.py:263-282 (`_calculate_r3x`) on the attributes
it reads -/
def r3xOf (integral : α) (masking_limit : Option α) (rad3x_t11 rad3x corr solar sun_zenith tb_nir : Arr α) :
    Py (Arr α) := do
  let thermal_emiss_one := rad3x_t11.map (· * integral)
  let corrected ← thermal_emiss_one.bcast (· * ·) corr
  let l_nir := rad3x.map (· * integral)
  let nomin ← l_nir.bcast (· - ·) corrected
  let denom ← solar.bcast (· - ·) corrected
  let data ← nomin.bcast (· / ·) denom
  let mask := denom.map (lt · NIR_EPSILON)
  let mask ← zenithMask masking_limit sun_zenith mask
  let mask ← (tb_nir.map isNaN).bcastOut (fun n m => m || n) mask
  Arr.whereScalar nan mask data

/-- models pyspectral/near_infrared_reflectance.py:230-231: the changes of state of a retrieval
up to the radiances -/
def Nir.setRadiances (nanCast : Int) (lut : Option (Lut α)) (tb_nir tb_therm : Arr α) :
    PySt (Nir α) (Arr α × Arr α) := do
  let s ← PySt.get
  let t11 ← PySt.lift (tb2radianceArr s.conv nanCast tb_therm lut)
  PySt.modify fun s => { s with rad3x_t11 := some t11 }
  let r ← PySt.lift (tb2radianceArr s.conv nanCast tb_nir lut)
  PySt.modify fun s => { s with rad3x := some r }
  return (t11, r)

/-- models pyspectral/near_infrared_reflectance.py:230-238: the changes of state of a retrieval -/
def Nir.retrieve (nanCast : Int) (lut : Option (Lut α)) (sun_zenith tb_nir tb_therm : Arr α)
    (tbco2 : Option (Arr α)) : PySt (Nir α) (Arr α) := do
  let rads ← Nir.setRadiances nanCast lut tb_nir tb_therm
  let s ← PySt.get
  let solar := sun_zenith.map (solarRadiancePoint s.solar_flux s.sunz_threshold)
  PySt.modify fun s => { s with solar_radiance := some solar }
  Nir.calculateRad3xCorrection tb_therm tbco2
  let s ← PySt.get
  let r3x ← PySt.lift (r3xOf s.conv.rsr_integral s.masking_limit rads.1 rads.2 s.rad3x_correction solar
    sun_zenith tb_nir)
  PySt.modify fun s => { s with r3x := some r3x }
  return r3x

/-- models pyspectral/near_infrared_reflectance.py:182-245 (`reflectance_from_tbs`); `lut` is the
keyword argument (`none`: not given, `some none`: None) -/
def Nir.reflectanceFromTbs (nanCast : Int) (sun_zenith tb_near_ir tb_thermal : NirIn α)
    (tb_ir_co2 : Option (NirIn α) := none) (lut : Option (Option (Lut α)) := none) :
    PySt (Nir α) (NirOut α) := do
  let s ← PySt.get
  if s.conv.rsr.isEmpty then PySt.raise .notImplemented
  else if tb_thermal.asArray.shape ≠ tb_near_ir.asArray.shape then PySt.raise .valueError
  else do
    let r ← Nir.retrieve nanCast (lut.getD s.lut) sun_zenith.asArray tb_near_ir.asArray tb_thermal.asArray
      (tb_ir_co2.map NirIn.asArray)
    let is_masked := tb_near_ir.isMasked || tb_thermal.isMasked
    return {
      values := r
      isLazy := (tb_near_ir.isLazy || tb_thermal.isLazy) && !is_masked
      mask := if is_masked then some (r.data.map fun x => !isFinite x) else none }

/-! ### Emissive part -/

/-- models pyspectral/near_infrared_reflectance.py:164-167: the emissive part where the
retrieval has been made -/
def Nir.setEmissive (t11 r rad3x : Arr α) : PySt (Nir α) Unit := do
  let e ← PySt.lift (t11.bcast (· * ·) (r.map (1 - ·)))
  PySt.modify fun s => { s with e3x := some e }
  let masked ← PySt.lift ((e.map fun v => (isNaN v, v)).bcast (fun p x => if p.1 then x else p.2) rad3x)
  PySt.modify fun s => { s with e3x := some masked }

/-- models pyspectral/near_infrared_reflectance.py:161-180 (`emissive_part_3x`).  Before a
retrieval the attributes are None and the TypeError is caught (172-175); None is `none` in the
result.  The conversion to temperature is element-wise (line 178; C07: for every division in blocks). -/
def Nir.emissivePart3x (tb : Bool := true) : PySt (Nir α) (Option (Arr α)) := do
  let s ← PySt.get
  (match s.rad3x_t11, s.r3x, s.rad3x with
    | some t11, some r, some rad3x => Nir.setEmissive t11 r rad3x
    | _, _, _ => pure ())
  let s ← PySt.get
  if tb then do
    match s.e3x with
    | some e => do
      let v ← PySt.lift (s.conv.radiance2tb [] (.nd e.data))
      match v with
      | .nd ys => return some ⟨e.shape, ys⟩
      | _ => PySt.raise .typeError
    | none => do
      -- `None` has no `dtype`, pyspectral/blackbody.py:38
      let b ← PySt.lift (converterLookup s.conv.wavespace s.conv.rsrInstrument s.conv.rsr s.conv.bandname)
      let det ← PySt.lift (Dict.getItem b s.conv.detector)
      let _ ← PySt.lift (getNum det "central_wavelength")
      PySt.raise .attributeError
  else return s.e3x

end Verif.Model
