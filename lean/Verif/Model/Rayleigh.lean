import Verif.Model.Reader
/-
Model of the Rayleigh correction (pyspectral/rayleigh.py:44-56, 143-336).

Arrays of any shape are flat lists of pixels in C order.  dtype casts are not modelled
(`astype` is the identity), and `map_blocks` is the direct call (dask: Model/Chunks.lean).
-/
namespace Verif.Model
open PyNum
variable {α : Type} [PyNum α]

/-- `np.nan_to_num` of a float64: NaN to 0, infinities to the largest finite numbers -/
def nanToNum (x : α) : α :=
  if isNaN x then 0.0
  else if gt x 1.7976931348623157e308 then 1.7976931348623157e308
  else if lt x (-1.7976931348623157e308) then -1.7976931348623157e308
  else x

/-- models pyspectral/rayleigh.py:44-56 (`_clip_angles_inside_coordinate_range`), one angle -/
def clipAngle (zenith_secant_max zenith_angle : α) : α :=
  clip (nanToNum zenith_angle) 0 (nanToNum (rad2deg (arccos (1.0 / zenith_secant_max))))

/-- `1. / np.cos(np.deg2rad(zenith))`, pyspectral/rayleigh.py:188 and 191 -/
def secant (zenith : α) : α := 1.0 / cos (deg2rad zenith)

/-! ### The table file -/

/-- Content of a table file (pyspectral/rayleigh.py:299-307 and 326-334): per wavelength the
three-dimensional table (sun zenith secant, azimuth difference, satellite zenith secant) in C
order, and the coordinates. -/
structure LutFile (α : Type) where
  reflectance : List (List α)
  wavelengths : List α
  azimuth_difference : List α
  satellite_zenith_secant : List α
  sun_zenith_secant : List α

/-- `np.searchsorted(xs, key)` (left side) for a key that is not NaN: numpy's binary search
between `lo` and `hi` -/
def searchBetween (xs : List α) (key : α) (lo hi : Nat) : Nat :=
  if h : lo < hi then
    let mid := lo + (hi - lo) / 2
    match xs[mid]? with
    | some v => if lt v key then searchBetween xs key (mid + 1) hi else searchBetween xs key lo mid
    | none => lo
  else lo
termination_by hi - lo
decreasing_by all_goals omega

/-- `np.searchsorted(xs, key)` -/
def searchsorted (xs : List α) (key : α) : Nat := searchBetween xs key 0 xs.length

/-- models pyspectral/rayleigh.py:310-315 (`_get_wavelength_index_and_factor`) -/
def wavelengthIndexAndFactor (wvl_coord : List α) (wvl : α) : Py (Nat × α) := do
  let i := searchsorted wvl_coord wvl
  let wvl1 ← NP.pyIndex wvl_coord ((i : Int) - 1)
  let wvl2 ← NP.pyIndex wvl_coord i
  return (i, (wvl2 - wvl) / (wvl2 - wvl1))

/-- models pyspectral/rayleigh.py:299-307: the table at one wavelength -/
def tableAt (lut : LutFile α) (wvl : α) : Py (List α) := do
  let lo ← NP.amin lut.wavelengths
  let hi ← NP.amax lut.wavelengths
  if ¬ (lt lo wvl = true ∧ lt wvl hi = true) then .error .valueError
  else do
    let (i, f) ← wavelengthIndexAndFactor lut.wavelengths wvl
    let a ← NP.pyIndex lut.reflectance ((i : Int) - 1)
    let b ← NP.pyIndex lut.reflectance i
    NP.bcast2 (· + ·) (a.map (f * ·)) (b.map ((1 - f) * ·))

/-- h5py opening the table file; FileNotFoundError as in pyspectral/rayleigh.py:295-297 -/
def openLut (h5open : Content → Option (LutFile α)) (p : Path) : Eff (LutFile α) := do
  let w ← Eff.get
  match w.files p with
  | none => Eff.raise .fileNotFound
  | some c => match h5open c with
    | none => Eff.raise .ioError
    | some f => return f

/-- models pyspectral/rayleigh.py:294-307 (`_get_wavelength_adjusted_lut_rayleigh_reflectance`) -/
def adjustedTable (h5open : Content → Option (LutFile α)) (p : Path) (wvl : α) : Eff (List α) := do
  let lut ← openLut h5open p
  Eff.lift (tableAt lut wvl)

/-! ### The angles -/

/-- An interpolator on a regular three-dimensional grid, as geotiepoints'
`MultilinearInterpolator`: smallest and largest coordinates, numbers of nodes, values in C
order, and the point. -/
abbrev Interp3 (α : Type) := α × α × α → α × α × α → Nat × Nat × Nat → List α → α × α × α → α

/-- pixels of three arrays; `np.vstack` needs equal sizes (ValueError),
pyspectral/rayleigh.py:200 -/
def vstack3 (a b c : List α) : Py (List (α × α × α)) :=
  if a.length = b.length ∧ b.length = c.length then .ok (a.zip (b.zip c)) else .error .valueError

/-- models pyspectral/rayleigh.py:178-203 (`_interp_rayleigh_refl_by_angles`), reading the
coordinates with pyspectral/rayleigh.py:318-336 (`get_reflectance_lut_from_file`) -/
def interpByAngles (interp : Interp3 α) (lut : LutFile α) (sun_zenith sat_zenith azidiff : List α)
    (rayleigh_refl : List α) : Py (List α) := do
  let sunMax ← NP.amax lut.sun_zenith_secant
  let sunzsec := sun_zenith.map fun z => secant (clipAngle sunMax z)
  let satMax ← NP.amax lut.satellite_zenith_secant
  let satzsec := sat_zenith.map fun z => secant (clipAngle satMax z)
  let smin := (← NP.pyIndex lut.sun_zenith_secant 0, ← NP.pyIndex lut.azimuth_difference 0,
    ← NP.pyIndex lut.satellite_zenith_secant 0)
  let smax := (← NP.pyIndex lut.sun_zenith_secant (-1), ← NP.pyIndex lut.azimuth_difference (-1),
    ← NP.pyIndex lut.satellite_zenith_secant (-1))
  let orders := (lut.sun_zenith_secant.length, lut.azimuth_difference.length,
    lut.satellite_zenith_secant.length)
  let points ← vstack3 sunzsec (azidiff.map fun a => 180 - a) satzsec
  return points.map fun p => interp smin smax orders rayleigh_refl p * 100

/-- models pyspectral/rayleigh.py:244-247 (`_relax_rayleigh_refl_correction_where_cloudy`), one
pixel -/
def relaxCloudy (redband rayleigh_refl : α) : α :=
  if lt redband 20.0 then rayleigh_refl else (1 - (redband - 20) / 80) * rayleigh_refl

/-- models pyspectral/rayleigh.py:249-261 (`reduce_rayleigh_highzenith`), one pixel -/
def reduceHighzenith (thresh_zen maxzen strength zenith rayref : α) : α :=
  let frac := if lt zenith thresh_zen then (0 : α) else (zenith - thresh_zen) / (maxzen - thresh_zen)
  rayref * clip (1.0 - strength * frac) 0 1

/-! ### The band -/

/-- A band given by name or by wavelength in micrometer. -/
inductive RayleighBand (α : Type) where
  | wavelength (x : α)
  | name (s : String)

/-- subclasses of OSError (requests' exceptions are) -/
def isOSError : PyErr → Bool
  | .ioError => true
  | .fileNotFound => true
  | .httpError => true
  | _ => false

/-- `except OSError: raise KeyError`, pyspectral/rayleigh.py:281-286 -/
def keyErrorOnOSError {β : Type} (m : Eff β) : Eff β := fun w =>
  match m w with
  | (.error e, w', t) => (.error (if isOSError e then .keyError else e), w', t)
  | r => r

/-- models pyspectral/rayleigh.py:288-291: the effective wavelength of a loaded response -/
def effectiveOf (r : Reader α) (band_name : String) : Py α := do
  let band ← rsrDictGetItem r.instrument r.rsr band_name
  let det ← band.getItem "det-1"
  let wvl ← getArr det "wavelength"
  let resp ← getArr det "response"
  getCentralWave wvl resp (wvl.map fun w => 1.0 / powNat w 4)

/-- models pyspectral/rayleigh.py:278-291 (`_get_rsr_wavelength_from_band_name`) -/
def rsrWavelengthFromBandName (env : Env) (h5open : Content → Option (H5File α))
    (platform_name sensor band_name : String) : Eff α := do
  let rsr ← keyErrorOnOSError (readerNew env h5open (some platform_name) (some sensor))
  Eff.lift (effectiveOf rsr band_name)

/-- models pyspectral/rayleigh.py:143-176 (`_get_effective_wavelength_and_band_name`): the
wavelength in nanometer (the name is only logged) -/
def effectiveWavelength (env : Env) (h5open : Content → Option (H5File α)) (r : RayleighObj) :
    RayleighBand α → Eff α
  | .wavelength x => return x * 1000.0
  | .name s => do
    let x ← rsrWavelengthFromBandName env h5open r.platform_name r.sensor s
    return x * 1000.0

/-! ### The correction -/

/-- models pyspectral/rayleigh.py:213-230: the interpolated correction, or zeros when the table
cannot be had for that wavelength (ValueError).  `da`: dask can be imported (pyspectral/rayleigh.py:11-14).  Then
the result for numpy arrays is computed at the end (pyspectral/rayleigh.py:209, 240-241), but the zeros are a numpy
array, which has no `compute` (AttributeError), unless the red band makes a dask array of them
(pyspectral/rayleigh.py:232-237). -/
def uncorrected (da : Bool) (h5lut : Content → Option (LutFile α)) (interp : Interp3 α) (p : Path) (wvl : α)
    (sun_zenith sat_zenith azidiff : List α) (redband : Option (List α)) : Eff (List α) := fun w =>
  match adjustedTable h5lut p wvl w with
  | (.error .valueError, w', t) =>
    if da && redband.isNone then (.error .attributeError, w', t)
    else (.ok ((redband.getD sun_zenith).map fun _ => 0), w', t)
  | (.error e, w', t) => (.error e, w', t)
  | (.ok table, w', t) =>
    match (openLut h5lut p w').1 with
    | .error e => (.error e, w', t)
    | .ok lut => (interpByAngles interp lut sun_zenith sat_zenith azidiff table, w', t)

/-- models pyspectral/rayleigh.py:232-239: relaxation over clouds, if a red band is given, and
clipping to 0..100 -/
def finish (redband : Option (List α)) (res : List α) : Py (List α) := do
  let res ← match redband with
    | none => pure res
    | some red => NP.bcast2 relaxCloudy red res
  return res.map fun x => clip x 0 100

/-- models pyspectral/rayleigh.py:205-242 (`get_reflectance`) for numpy arrays; `da`: dask can be imported -/
def getReflectance (da : Bool) (env : Env) (h5open : Content → Option (H5File α)) (h5lut : Content → Option (LutFile α))
    (interp : Interp3 α) (r : RayleighObj) (sun_zenith sat_zenith azidiff : List α) (band : RayleighBand α)
    (redband : Option (List α) := none) : Eff (List α) := do
  let wvl ← effectiveWavelength env h5open r band
  let res ← uncorrected da h5lut interp r.reflectance_lut_filename wvl sun_zenith sat_zenith azidiff redband
  Eff.lift (finish redband res)

end Verif.Model
