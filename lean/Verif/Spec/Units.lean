import Verif.Spec.Curves
import Verif.Spec.Planck
/-
Independent specification: dimensions.  The radiance of a band as a function of the constants of
nature, so that the unit of length can be changed, and the power of length in a unit's text.
-/
namespace Verif.Spec

/-- Planck's law with its constants as arguments, per wavelength or per wavenumber -/
noncomputable def planckG (perWavenumber : Bool) (h c k x T : ℝ) : ℝ :=
  if perWavenumber then 2 * h * c ^ 2 * x ^ 3 / (Real.exp (h * c * x / (k * T)) - 1)
  else 2 * h * c ^ 2 / x ^ 5 / (Real.exp (h * c / (x * k * T)) - 1)

/-- the radiance of a band, integrated over the band or averaged with the response -/
noncomputable def bandG (perWavenumber averaged : Bool) (h c k : ℝ) (w r : List ℝ) (T : ℝ) : ℝ :=
  let v := trap w (List.zipWith (fun x y => y * planckG perWavenumber h c k x T) w r)
  if averaged then v / trap w r else v

/-- The radiance of the same band when lengths are given in a unit `s` times smaller: a wavelength is
then `s` times, a wavenumber `1/s` times the number; Planck's constant (kg m^2/s) and Boltzmann's
(kg m^2/s^2/K) are `s^2` times, the speed of light `s` times the number. -/
noncomputable def bandRescaled (perWavenumber averaged : Bool) (s h c k : ℝ) (w r : List ℝ) (T : ℝ) : ℝ :=
  bandG perWavenumber averaged (h * s ^ 2) (c * s) (k * s ^ 2) (w.map fun x => if perWavenumber then x / s else x * s) r T

/-- the power of length in one factor of a unit; a watt is kg m^2/s^3 -/
def factorPower : List Char → Option ℤ
  | ['W', '/', 'm', '^', '2'] => some 0
  | ['s', 'r', '^', '-', '1'] => some 0
  | ['m', '^', '-', '1'] => some (-1)
  | ['(', 'm', '^', '-', '1', ')', '^', '-', '1'] => some 1
  | _ => none

/-- the power of length in a unit, given the text from some position on and the factor read so far -/
def lengthPowerFrom : List Char → List Char → Option ℤ
  | [], word => factorPower word
  | ' ' :: rest, word => do return (← factorPower word) + (← lengthPowerFrom rest [])
  | x :: rest, word => lengthPowerFrom rest (word ++ [x])

/-- the power of length in a unit -/
def lengthPower (u : String) : Option ℤ := lengthPowerFrom u.toList []

end Verif.Spec
