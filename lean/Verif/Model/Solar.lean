import Verif.Base.State
import Verif.Model.Rsr
/-
Model of the solar irradiance spectrum (pyspectral/solar.py:21-239).
-/
namespace Verif.Model
open PyNum
variable {α : Type} [PyNum α]

/-- `InterpolatedUnivariateSpline(x, y)`: fails or gives a function (applied point by point).
What scipy computes is a parameter of the model; theorems state what they assume of it. -/
abbrev Spline (α : Type) := List α → List α → Py (α → α)

/-- A `SolarIrradianceSpectrum` object (attributes set and read by the modelled methods). -/
structure Solar (α : Type) where
  wavelength : Option (List α)
  wavenumber : Option (List α)
  irradiance : List α
  wavespace : String
  dlambda : α
  irradianceUnit : String
  ipol_wavelength : List α
  ipol_irradiance : List α

/-- a value that must not be None -/
def notNone {β : Type} : Option β → Py β
  | some v => .ok v
  | none => .error .typeError

/-- models pyspectral/solar.py:83-94 (`convert2wavenumber`) -/
def Solar.convert2wavenumber (s : Solar α) : Py (Solar α) := do
  let wavelength ← notNone s.wavelength
  let wavenumber := wavelength.reverse.map fun w => 1.0 / (1e-4 * w)
  let a ← NP.bcast2 (· * ·) s.irradiance.reverse wavelength.reverse
  let b ← NP.bcast2 (· * ·) a wavelength.reverse
  return { s with wavenumber := some wavenumber, irradiance := b.map (· * 0.1), wavelength := none }

/-- models pyspectral/solar.py:30-81 (`__init__`); `file` is what `np.genfromtxt` reads (96-99) -/
def solarNew (file : Py (List α × List α)) (wavespace : Option String := none) (dlambda : Option α := none) :
    Py (Solar α) := do
  let ws := wavespace.getD "wavelength"
  let dl := match dlambda with
    | some d => d
    | none => if ws = "wavelength" then 0.005 else 1.0 / (0.005 * 100.0)
  let (wavelength, irradiance) ← file
  let s : Solar α := {
    wavelength := some wavelength, wavenumber := none, irradiance, wavespace := ws, dlambda := dl,
    irradianceUnit := "$W/m^2 (1e-6*m)^{-1})", ipol_wavelength := [], ipol_irradiance := [] }
  if ws = "wavenumber" then
    let s ← s.convert2wavenumber
    return { s with irradianceUnit := "mW/m^2 (cm^{-1})^{-1}" }
  else return s

/-- models pyspectral/solar.py:101-108 (`solar_constant`) -/
def Solar.solarConstant (s : Solar α) : Py α :=
  match s.wavenumber with
  | some wn => NP.trapezoid s.irradiance wn
  | none => match s.wavelength with
    | some w => NP.trapezoid s.irradiance w
    | none => .error .typeError

/-- `np.linspace(start, end, int(round((end - start) / dlambda)) + 1)`: a NaN or infinite
quotient fails (ValueError, OverflowError; both modelled as ValueError), and so does a negative
number of points. -/
def regularGrid (start stop dlambda : α) : Py (List α) :=
  match rint ((stop - start) / dlambda) with
  | none => .error .valueError
  | some n => if n + 1 < 0 then .error .valueError else .ok (NP.linspace start stop (n + 1).toNat)

/-- the abscissa of the spectrum in the current space -/
def Solar.axis (s : Solar α) : Option (List α) := if s.wavespace = "wavelength" then s.wavelength else s.wavenumber

/-- models pyspectral/solar.py:219-227: the interval to resample -/
def solarInterval (axis : Option (List α)) : Option (α × α) → Py (α × α)
  | some p => .ok p
  | none => do
    let a ← notNone axis
    return (← NP.pyIndex a 0, ← NP.pyIndex a (-1))

/-- what scipy makes of the abscissa: None is an array without dimensions, which `np.diff` in scipy's
validation refuses (ValueError) -/
def splineAxis {β : Type} : Option β → Py β
  | some v => .ok v
  | none => .error .valueError

/-- models pyspectral/solar.py:219-236: the new grid and the spectrum on it -/
def solarResampled (spline : Spline α) (s : Solar α) (ival : Option (α × α)) : Py (List α × List α) := do
  let (start, stop) ← solarInterval s.axis ival
  let xspl ← regularGrid start stop s.dlambda
  let ius ← spline (← splineAxis s.axis) s.irradiance
  return (xspl, xspl.map ius)

/-- models pyspectral/solar.py:193-239 (`interpolate`) -/
def Solar.interpolate (spline : Spline α) (dlambda : Option α := none) (ival : Option (α × α) := none) :
    PySt (Solar α) Unit := do
  PySt.modify fun s => match dlambda with
    | some d => { s with dlambda := d }
    | none => s
  let s ← PySt.get
  let r ← PySt.lift (solarResampled spline s ival)
  PySt.modify fun s => { s with ipol_wavelength := r.1, ipol_irradiance := r.2 }

/-- The response argument of the in-band methods: either one curve or a dictionary of
detectors. -/
inductive RsrArg (α : Type) where
  | curve (d : DetRsr α)
  | dets (d : BandRsr α)

/-- models pyspectral/solar.py:147-164: the abscissa (scaled) and the response of the detector -/
def bandCurve (wavespace : String) (rsr : RsrArg α) (scale : α) (detector : Nat) : Py (List α × List α) := do
  let d ← match rsr with
    | .curve d => pure d
    | .dets b => b.getItem ("det-" ++ toString detector)
  let wvl ← getArr d (if wavespace = "wavelength" then "wavelength" else "wavenumber")
  let resp ← getArr d "response"
  return (wvl.map (· * scale), resp)

/-- models pyspectral/solar.py:147-174: start and end of the band, and the resampled response -/
def bandResampled (spline : Spline α) (wavespace : String) (dlambda : α) (rsr : RsrArg α) (scale : α)
    (detector : Nat) : Py ((α × α) × List α) := do
  let (wvl, resp) ← bandCurve wavespace rsr scale detector
  let start ← NP.pyIndex wvl 0
  let stop ← NP.pyIndex wvl (-1)
  let xspl ← regularGrid start stop dlambda
  let ius ← spline wvl resp
  return ((start, stop), xspl.map ius)

/-- models pyspectral/solar.py:180-191: mask, multiply and integrate -/
def foldBand (flux : Bool) (ival : α × α) (ipol_wavelength ipol_irradiance resp_ipol : List α) : Py α := do
  let inside := (ipol_wavelength.zip ipol_irradiance).filter fun p => ge p.1 ival.1 && le p.1 ival.2
  let wvl := inside.map Prod.fst
  let irr := inside.map Prod.snd
  let total ← NP.trapezoid (← NP.bcast2 (· * ·) irr resp_ipol) wvl
  if flux then return total
  else return total / (← NP.trapezoid resp_ipol wvl)

/-- models pyspectral/solar.py:131-191 (`_band_calculations`) -/
def Solar.bandCalculations (spline : Spline α) (rsr : RsrArg α) (flux : Bool) (scale : α) (detector : Nat) :
    PySt (Solar α) α := do
  let s ← PySt.get
  let b ← PySt.lift (bandResampled spline s.wavespace s.dlambda rsr scale detector)
  Solar.interpolate spline (dlambda := some s.dlambda) (ival := some b.1)
  let s ← PySt.get
  PySt.lift (foldBand flux b.1 s.ipol_wavelength s.ipol_irradiance b.2)

/-- models pyspectral/solar.py:110-118 (`inband_solarflux`) -/
def Solar.inbandSolarflux (spline : Spline α) (rsr : RsrArg α) (scale : α := 1.0) (detector : Nat := 1) :
    PySt (Solar α) α := Solar.bandCalculations spline rsr true scale detector

/-- models pyspectral/solar.py:120-129 (`inband_solarirradiance`) -/
def Solar.inbandSolarirradiance (spline : Spline α) (rsr : RsrArg α) (scale : α := 1.0) (detector : Nat := 1) :
    PySt (Solar α) α := Solar.bandCalculations spline rsr false scale detector

end Verif.Model
