import Verif.Model.Blackbody
import Verif.Model.Utils
/-
Model of pyspectral/radiance_tb_conversion.py.
-/
namespace Verif.Model
open PyNum
variable {α : Type} [PyNum α]

/-- models pyspectral/radiance_tb_conversion.py:23 -/
def TB_MIN : α := 150.0
/-- models pyspectral/radiance_tb_conversion.py:24 -/
def TB_MAX : α := 360.0

/-- What a loaded reader gives to the converter: `sensor.rsr` (an RSRDict: data and
instrument), `sensor.unit`, `sensor.si_scale` (pyspectral/rsr_reader.py:161-180). -/
structure Sensor (α : Type) where
  rsr : Rsr α
  instrument : InstVal
  unit : String
  si_scale : α

/-- The `band` argument: a name, a wavelength in micron, or anything else. -/
inductive BandArg (α : Type) where
  | name (s : String)
  | number (x : α)
  | other

/-- State of a constructed RadTbConverter (pyspectral/radiance_tb_conversion.py:74-107). -/
structure RadTb (α : Type) where
  platform_name : String
  instrument : String
  /-- `self.bandname`; Python None is `none` -/
  bandname : Option String
  detector : String
  wavespace : String
  tb_resolution : α
  tb_scale : α
  wave_unit : String
  wave_si_scale : α
  /-- `self.rsr[...]`, an RSRDict in wavelength space and a plain dict in wavenumber space -/
  rsr : Rsr α
  rsrInstrument : InstVal
  /-- `self.wavelength_or_wavenumber` in SI units -/
  wave : List α
  response : List α
  rsr_integral : α

/-- `self.rsr[name]`: models the choice made at pyspectral/radiance_tb_conversion.py:118-123 between
the plain dictionary from `convert2wavenumber` and the sensor's RSRDict.  A `None` name is
never a key. -/
def converterLookup (wavespace : String) (inst : InstVal) (rsr : Rsr α) :
    Option String → Py (BandRsr α)
  | none => .error .keyError
  | some name =>
    if wavespace = WAVE_NUMBER then rsr.getItem name else rsrDictGetItem inst rsr name

/-- models pyspectral/radiance_tb_conversion.py:128-132: the band name from the `band`
argument -/
def converterBandname (instrument : String) (rsr : Rsr α) : BandArg α → Py (Option String)
  | .name s => do
    let table ← bandTable (.str instrument)
    return some ((table.get? s).getD s)
  | .number x => do
    match ← getBandnameFromWavelength (.str instrument) x rsr with
    | .one b => return some b
    | _ => return none
  | .other => return none

/-- models pyspectral/radiance_tb_conversion.py:74-107 (`__init__`) and 109-138 (`_get_rsr`).
`sensor` is the result of `RelativeSpectralResponse(platform_name, instrument)`.
`tb_resolution` is a Python float (or int): dividing by zero raises (line 102). -/
def RadTb.new (sensor : Py (Sensor α)) (platform_name instrument : String) (band : BandArg α)
    (detector : String := "det-1") (wavespace : String := WAVE_LENGTH)
    (tb_resolution : α := 0.1) : Py (RadTb α) := do
  if wavespace ≠ WAVE_LENGTH ∧ wavespace ≠ WAVE_NUMBER then .error .attributeError
  else if eq tb_resolution 0 then .error .zeroDivision
  else
    let sensor ← sensor
    let (rsr, unit, si_scale) ←
      if wavespace = WAVE_NUMBER then do
        let (r, info) ← convert2wavenumber sensor.rsr
        pure (r, info.unit, info.si_scale)
      else pure (sensor.rsr, sensor.unit, sensor.si_scale)
    let bandname ← converterBandname instrument rsr band
    let b ← converterLookup wavespace sensor.instrument rsr bandname
    let det ← Dict.getItem b detector
    let waves ← getArr det wavespace
    let wave := waves.map (· * si_scale)
    let response ← getArr det "response"
    let integral ← NP.trapezoid response wave
    return {
      platform_name, instrument, bandname, detector, wavespace, tb_resolution
      tb_scale := 1.0 / tb_resolution
      wave_unit := unit, wave_si_scale := si_scale
      rsr, rsrInstrument := sensor.instrument, wave, response
      rsr_integral := integral }

/-- A radiance result: an array, or (LUT branch with one value, line 191) a Python float. -/
inductive Rad (α : Type) where
  | arr (xs : List α)
  | pyFloat (x : α)

/-- models the dictionary returned by `tb2radiance` -/
structure RadResult (α : Type) where
  radiance : Rad α
  unit : String
  scale : α

/-- A Tb/radiance look-up table (`lut['tb']`, `lut['radiance']`). -/
structure Lut (α : Type) where
  tb : List α
  radiance : List α

/-- models pyspectral/radiance_tb_conversion.py:169-180: the unit string -/
def radianceUnit (wavespace : String) (normalized : Bool) : String :=
  if wavespace = WAVE_NUMBER then
    if normalized then "W/m^2 sr^-1 (m^-1)^-1" else "W/m^2 sr^-1"
  else
    if normalized then "W/m^2 sr^-1 m^-1" else "W/m^2 sr^-1"

/-- Integer clip of an index into `[lo, hi]` (`hi` wins). -/
def clipInt (i lo hi : Int) : Int := min (max i lo) hi

/-- `int(x)` for a Python/numpy float: ValueError for NaN, OverflowError for infinities
(both are represented by ValueError here). -/
def pyInt (x : α) : Py Int :=
  match trunc x with
  | some i => .ok i
  | none => .error .valueError

/-- models pyspectral/radiance_tb_conversion.py:182-196: the LUT branch.  `nanCast` is the
platform-dependent int16 value of a NaN. -/
def lutRadiance (nanCast : Int) (tb_scale : α) (lut : Lut α) (tb : List α) : Py (Rad α) := do
  let ntb := tb.map fun t => NP.castInt16 nanCast (t * tb_scale)
  let tb0 ← NP.pyIndex lut.tb 0
  let start ← pyInt (tb0 * tb_scale)
  if start < -32768 ∨ 32767 < start then .error .overflowError
  else
    let index := ntb.map fun n => clipInt (NP.wrap16 (n - start)) 0 ((lut.radiance.length : Int) - 1)
    let rad ← index.mapM fun i => NP.pyIndex lut.radiance i
    match rad with
    | [x] => return .pyFloat x
    | xs => return .arr xs

/-- models pyspectral/radiance_tb_conversion.py:19-20 (BLACKBODY_FUNC) -/
def blackbodyFunction (wavespace : String) : List α → List α → Py (List (List α)) :=
  if wavespace = WAVE_NUMBER then blackbody_wn else blackbody

/-- models pyspectral/radiance_tb_conversion.py:153-207 (`tb2radiance`); `lut = none`
also stands for an empty (falsy) look-up table -/
def RadTb.tb2radiance (c : RadTb α) (nanCast : Int) (tb : List α) (lut : Option (Lut α) := none)
    (normalized : Bool := true) : Py (RadResult α) := do
  let unit := radianceUnit c.wavespace normalized
  match lut with
  | some lut => return { radiance := ← lutRadiance nanCast c.tb_scale lut tb, unit, scale := 1.0 }
  | none =>
    let pl ← blackbodyFunction c.wavespace c.wave tb
    let weighted ← pl.mapM fun row => NP.bcast2 (· * ·) row c.response
    let integrals ← weighted.mapM fun row => NP.trapezoid row c.wave
    let radiance := if normalized then integrals.map (· / c.rsr_integral) else integrals
    return { radiance := .arr radiance, unit, scale := 1.0 }

/-- models pyspectral/radiance_tb_conversion.py:209-214 (`make_tb2rad_lut`): the table written -/
def RadTb.makeTb2radLut (c : RadTb α) (nanCast : Int) (normalized : Bool := true) : Py (Lut α) := do
  let tb ← NP.arange TB_MIN TB_MAX c.tb_resolution
  let r ← c.tb2radiance nanCast tb none normalized
  match r.radiance with
  | .arr xs => return { tb, radiance := xs }
  | .pyFloat x => return { tb, radiance := [x] }

/-- models pyspectral/radiance_tb_conversion.py:231-240 (`radiance2tb` function) -/
def radiance2tbFun (order : List Nat) (rad : Val α) (wavelength : α) : Py (Val α) :=
  blackbodyRad2tempCall order ⟨[.npScalar wavelength, rad], []⟩

/-- models pyspectral/radiance_tb_conversion.py:222-228 (`RadTbConverter.radiance2tb`) -/
def RadTb.radiance2tb (c : RadTb α) (order : List Nat) (rad : Val α) : Py (Val α) := do
  let b ← converterLookup c.wavespace c.rsrInstrument c.rsr c.bandname
  let det ← Dict.getItem b c.detector
  let cw ← getNum det "central_wavelength"
  radiance2tbFun order rad (cw * 1e-6)

/-! ### SEVIRI -/

/-- models pyspectral/radiance_tb_conversion.py:38-63 (central wavenumber in cm-1, alpha, beta) -/
def SEVIRI : Dict String (Dict String (List α)) := [
  ("IR3.9", [("Meteosat-8", [2567.330, 0.9956, 3.410]), ("Meteosat-9", [2568.832, 0.9954, 3.438]), ("Meteosat-10", [])]),
  ("WV6.2", [("Meteosat-8", [1598.103, 0.9962, 2.218]), ("Meteosat-9", [1600.548, 0.9963, 2.185])]),
  ("WV7.3", [("Meteosat-8", [1362.081, 0.9991, 0.478]), ("Meteosat-9", [1360.330, 0.9991, 0.470])]),
  ("IR8.7", [("Meteosat-8", [1149.069, 0.9996, 0.179]), ("Meteosat-9", [1148.620, 0.9996, 0.179])]),
  ("IR9.7", [("Meteosat-8", [1034.343, 0.9999, 0.060]), ("Meteosat-9", [1035.289, 0.9999, 0.056])]),
  ("IR10.8", [("Meteosat-8", [930.647, 0.9983, 0.625]), ("Meteosat-9", [931.700, 0.9983, 0.640])]),
  ("IR12.0", [("Meteosat-8", [839.660, 0.9988, 0.397]), ("Meteosat-9", [836.445, 0.9988, 0.408])]),
  ("IR13.4", [("Meteosat-8", [752.387, 0.9981, 0.578]), ("Meteosat-9", [751.792, 0.9981, 0.561])])]

/-- State of a SeviriRadTbConverter. -/
structure SeviriConv where
  platform_name : String
  bandname : String
  deriving DecidableEq, Repr

/-- models pyspectral/radiance_tb_conversion.py:252-266 and 74-107 (`_get_rsr` is overridden
and reads nothing, 268-270) -/
def SeviriConv.new (platform_name : String) (band : BandArg α) (wavespace : String := WAVE_LENGTH) :
    Py SeviriConv :=
  if wavespace ≠ WAVE_LENGTH ∧ wavespace ≠ WAVE_NUMBER then .error .attributeError
  else match band with
    | .name s => do
      let table ← bandTable (.str "seviri")
      return { platform_name, bandname := (table.get? s).getD s }
    | _ => .error .attributeError

/-- models pyspectral/radiance_tb_conversion.py:286-290, 317-321: `(vc*100, alpha, beta)` -/
def seviriCoefs (c : SeviriConv) : Py (α × α × α) := do
  let row ← (← (SEVIRI (α := α)).getItem c.bandname).getItem c.platform_name
  let vc ← NP.pyIndex row 0
  let alpha ← NP.pyIndex row 1
  let beta ← NP.pyIndex row 2
  return (vc * 100.0, alpha, beta)

/-- models pyspectral/radiance_tb_conversion.py:283-295: one radiance -/
def seviriTbPoint (vc alpha beta rad : α) : α :=
  let c_1 : α := 2 * H_PLANCK * powNat C_SPEED 2
  let c_2 : α := H_PLANCK * C_SPEED / K_BOLTZMANN
  c_2 * vc / (alpha * log (c_1 * powNat vc 3 / rad + 1)) - beta / alpha

/-- models pyspectral/radiance_tb_conversion.py:314-324: one temperature -/
def seviriRadPoint (vc alpha beta tb : α) : α :=
  let c_1 : α := 2 * H_PLANCK * powNat C_SPEED 2
  let c_2 : α := H_PLANCK * C_SPEED / K_BOLTZMANN
  c_1 * powNat vc 3 / (exp (c_2 * vc / (alpha * tb + beta)) - 1)

/-- models pyspectral/radiance_tb_conversion.py:272-295 -/
def SeviriConv.radiance2tb (c : SeviriConv) (rad : List α) : Py (List α) := do
  let (vc, alpha, beta) ← seviriCoefs c
  return rad.map (seviriTbPoint vc alpha beta)

/-- models pyspectral/radiance_tb_conversion.py:297-330 -/
def SeviriConv.tb2radiance (c : SeviriConv) (tb : List α) (lut : Option (Lut α) := none)
    (normalized : Bool := true) : Py (RadResult α) := do
  if lut.isSome then .error .notImplemented
  else if !normalized then .error .notImplemented
  else
    let (vc, alpha, beta) ← seviriCoefs c
    return { radiance := .arr (tb.map (seviriRadPoint vc alpha beta)),
             unit := "W/m^2 sr^-1 (m^-1)^-1", scale := 1.0 }

end Verif.Model
