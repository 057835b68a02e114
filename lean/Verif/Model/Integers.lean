import Verif.Model.Nir
/-
Arrays of integers.  The other modules model arrays of (double precision) floating point numbers.
numpy arrays made from Python integers, or read from files of counts, have the element type int64,
and the code takes element types from the arguments: pyspectral/blackbody.py:38-40,
pyspectral/radiance_tb_conversion.py:181, pyspectral/near_infrared_reflectance.py:251, 261 and 264.
The numbers of an integer array are given as numbers here; only conversions *to* the element type
differ.  Integer arithmetic that stays among integers (pyspectral/blackbody.py:42, 89) wraps around.
-/
namespace Verif.Model
open PyNum
variable {α : Type} [PyNum α]

/-- element types of arrays -/
inductive Dtype where
  | float64
  | int64
deriving DecidableEq

/-- wrap-around of 64 bit integer arithmetic -/
def wrap64 (i : Int) : Int := (i + 2 ^ 63) % 2 ^ 64 - 2 ^ 63

/-- `x.astype(dtype)` of one element: toward zero; `nanInt` is the platform's integer for NaN and for
numbers outside of the range -/
def asType (nanInt : Int) : Dtype → α → α
  | .float64, x => x
  | .int64, x => match trunc x with
    | some i => if -2 ^ 63 ≤ i ∧ i < 2 ^ 63 then ofInt i else ofInt nanInt
    | none => ofInt nanInt

/-- `dtype.type(x)` of a scalar: ValueError for NaN, OverflowError for infinities (both represented by
ValueError) and for numbers outside of the range -/
def typeCall : Dtype → α → Py α
  | .float64, x => .ok x
  | .int64, x => match trunc x with
    | some i => if -2 ^ 63 ≤ i ∧ i < 2 ^ 63 then .ok (ofInt i) else .error .overflowError
    | none => .error .valueError

/-- models pyspectral/blackbody.py:38-42 for a float wavelength and an array of integers: the wavelength is
made an integer, and its fifth power times the radiance is computed among integers -/
def rad2tempInts (wavelength : α) (radiance : List Int) : Py (List α) :=
  match trunc wavelength with
  | none => .error .valueError
  | some k =>
    if ¬ (-2 ^ 63 ≤ k ∧ k < 2 ^ 63) then .error .overflowError
    else .ok (radiance.map fun r =>
      PLANCK_C1 / (ofInt k * log (PLANCK_C2 / ofInt (wrap64 (r * wrap64 (k ^ 5))) + 1.0)))

/-- models pyspectral/blackbody.py:57-58 for a float wavenumber and an array of integers: all operations are
among floats -/
def wnRad2tempInts (wavenumber : α) (radiance : List Int) : List α :=
  radiance.map fun r => wnRad2tempPoint wavenumber (ofInt r)

/-- models pyspectral/blackbody.py:88-126 by wavenumber for an array of integer wavenumbers: the third power is
computed among integers.  (Empty arrays raise as in `planck`.) -/
def blackbodyWnInts (wavenumber : List Int) (temp : List α) : Py (List (List α)) :=
  let nom := wavenumber.map fun k => PLANCK_C2 * ofInt (wrap64 (k ^ 3))
  let arg1 := wavenumber.map fun k => PLANCK_C1 * ofInt k
  let arg2 := temp.map planckArg2
  if wavenumber.isEmpty || temp.isEmpty then .error .valueError
  else
    let exp_arg := arg2.map fun b => arg1.map fun a => a * b
    .ok (exp_arg.map fun row => List.zipWith (fun n e => n / (exp e - 1)) nom row)

/-- models pyspectral/radiance_tb_conversion.py:181: the radiances of the table in the element type of the
temperatures -/
def castLut (nanInt : Int) (d : Dtype) (lut : Lut α) : Lut α :=
  { lut with radiance := lut.radiance.map (asType nanInt d) }

/-- models pyspectral/radiance_tb_conversion.py:153-207 (`tb2radiance`) for temperatures of the given element
type (pyspectral/blackbody.py:90-92 divides, so the table-free branch is the one of floats) -/
def tb2radianceTyped (c : RadTb α) (nanCast nanInt : Int) (d : Dtype) (tb : List α) (lut : Option (Lut α))
    (normalized : Bool := true) : Py (RadResult α) :=
  c.tb2radiance nanCast tb (lut.map (castLut nanInt d)) normalized

/-- models pyspectral/near_infrared_reflectance.py:137-152, 253-260: the CO2 correction -/
def rad3xCorrection (tb_therm : Arr α) : Option (Arr α) → Py (Arr α)
  | none => .ok (Arr.scalar 1.0)
  | some c => rad39Corr tb_therm c

/-- models pyspectral/near_infrared_reflectance.py:227-238 and 247-282: the reflectances for 3.x micron
temperatures of element type `dn` and thermal temperatures of element type `dt` (the result only; the attributes
set are those of `Nir.retrieve`) -/
def reflectanceTyped (s : Nir α) (nanCast nanInt : Int) (dn dt : Dtype) (lut : Option (Lut α))
    (sun_zenith tb_nir tb_therm : Arr α) (tbco2 : Option (Arr α)) : Py (Arr α) := do
  let t11 ← tb2radianceArr s.conv nanCast tb_therm (lut.map (castLut nanInt dt))
  let r ← tb2radianceArr s.conv nanCast tb_nir (lut.map (castLut nanInt dn))
  let solar := (sun_zenith.map (solarRadiancePoint s.solar_flux s.sunz_threshold)).map (asType nanInt dn)
  let corr ← rad3xCorrection tb_therm tbco2
  let integral ← typeCall dt s.conv.rsr_integral
  r3xOf integral s.masking_limit t11 r (corr.map (asType nanInt dn)) solar sun_zenith tb_nir

end Verif.Model
