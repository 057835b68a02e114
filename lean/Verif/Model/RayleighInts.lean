import Verif.Model.Rayleigh
import Verif.Model.Integers
/-
`Rayleigh.get_reflectance` (pyspectral/rayleigh.py) for arrays of integers: the table and its coordinates are converted to the
element type of the red band, or of the sun zenith angles without a red band (pyspectral/rayleigh.py:213, 224 and 183-185).
The numbers of an integer array are given as numbers.
-/
namespace Verif.Model
open PyNum
variable {α : Type} [PyNum α]

/-- geotiepoints' `MultilinearInterpolator` made for an element type: as `Interp3`, but it may refuse the type -/
abbrev TypedInterp3 (α : Type) := Dtype → α × α × α → α × α × α → Nat × Nat × Nat → List α → α × α × α → Py α

/-- models pyspectral/rayleigh.py:183-185 -/
def LutFile.castAxes (nanInt : Int) (d : Dtype) (lut : LutFile α) : LutFile α :=
  { lut with
    azimuth_difference := lut.azimuth_difference.map (asType nanInt d)
    satellite_zenith_secant := lut.satellite_zenith_secant.map (asType nanInt d)
    sun_zenith_secant := lut.sun_zenith_secant.map (asType nanInt d) }

/-- models pyspectral/rayleigh.py:178-203 (`_interp_rayleigh_refl_by_angles`) for a table of element type `d` -/
def interpByAnglesTyped (nanInt : Int) (d : Dtype) (interp : TypedInterp3 α) (file : LutFile α)
    (sun_zenith sat_zenith azidiff : List α) (rayleigh_refl : List α) : Py (List α) := do
  let lut := file.castAxes nanInt d
  let sunMax ← NP.amax lut.sun_zenith_secant
  let sunzsec := sun_zenith.map fun z => secant (clipAngle sunMax z)
  let satMax ← NP.amax lut.satellite_zenith_secant
  let satzsec := sat_zenith.map fun z => secant (clipAngle satMax z)
  let smin := (← NP.pyIndex lut.sun_zenith_secant 0, ← NP.pyIndex lut.azimuth_difference 0,
    ← NP.pyIndex lut.satellite_zenith_secant 0)
  let smax := (← NP.pyIndex lut.sun_zenith_secant (-1), ← NP.pyIndex lut.azimuth_difference (-1),
    ← NP.pyIndex lut.satellite_zenith_secant (-1))
  let orders := (lut.sun_zenith_secant.length, lut.azimuth_difference.length,
    lut.satellite_zenith_secant.length)
  let points ← vstack3 sunzsec (azidiff.map fun a => 180 - a) satzsec
  points.mapM fun p => do return (← interp d smin smax orders rayleigh_refl p) * 100

/-- models pyspectral/rayleigh.py:213-230; `d` is the element type of `repr_arr` -/
def uncorrectedTyped (nanInt : Int) (d : Dtype) (da : Bool) (h5lut : Content → Option (LutFile α)) (interp : TypedInterp3 α)
    (p : Path) (wvl : α) (sun_zenith sat_zenith azidiff : List α) (redband : Option (List α)) : Eff (List α) := fun w =>
  match adjustedTable h5lut p wvl w with
  | (.error .valueError, w', t) =>
    if da && redband.isNone then (.error .attributeError, w', t)
    else (.ok ((redband.getD sun_zenith).map fun _ => 0), w', t)
  | (.error e, w', t) => (.error e, w', t)
  | (.ok table, w', t) =>
    match (openLut h5lut p w').1 with
    | .error e => (.error e, w', t)
    | .ok lut => (interpByAnglesTyped nanInt d interp lut sun_zenith sat_zenith azidiff (table.map (asType nanInt d)), w', t)

/-- models pyspectral/rayleigh.py:205-242 (`get_reflectance`) for numpy arrays; `dsun` and `dred` are the element types of the sun
zenith angles and of the red band (those of the other angles are not looked at) -/
def getReflectanceTyped (nanInt : Int) (dsun dred : Dtype) (da : Bool) (env : Env) (h5open : Content → Option (H5File α))
    (h5lut : Content → Option (LutFile α)) (interp : TypedInterp3 α) (r : RayleighObj) (sun_zenith sat_zenith azidiff : List α)
    (band : RayleighBand α) (redband : Option (List α) := none) : Eff (List α) := do
  let wvl ← effectiveWavelength env h5open r band
  let d := if redband.isNone then dsun else dred
  let res ← uncorrectedTyped nanInt d da h5lut interp r.reflectance_lut_filename wvl sun_zenith sat_zenith azidiff redband
  Eff.lift (finish redband res)

end Verif.Model
