import Mathlib.Analysis.SpecialFunctions.Log.Basic
/-
Independent specification: Planck's law in SI units.
-/
namespace Verif.Spec

/-- Planck's constant, J s (CODATA 2010) -/
noncomputable def h : ℝ := 6.62606957e-34
/-- Boltzmann's constant, J/K (CODATA 2010) -/
noncomputable def k : ℝ := 1.3806488e-23
/-- speed of light, m/s -/
def c : ℝ := 299792458

/-- Spectral radiance per metre of wavelength of a blackbody, W/m^2/sr/m. -/
noncomputable def planckWavelength (l T : ℝ) : ℝ :=
  2 * h * c ^ 2 / l ^ 5 / (Real.exp (h * c / (l * k * T)) - 1)

/-- Spectral radiance per inverse metre of wavenumber of a blackbody, W/m^2/sr/m^-1. -/
noncomputable def planckWavenumber (n T : ℝ) : ℝ :=
  2 * h * c ^ 2 * n ^ 3 / (Real.exp (h * c * n / (k * T)) - 1)

/-- The temperature at which a blackbody has spectral radiance `L` at wavelength `l`. -/
noncomputable def brightnessTemperature (l L : ℝ) : ℝ :=
  h * c / (l * k * Real.log (2 * h * c ^ 2 / (l ^ 5 * L) + 1))

/-- The same in wavenumber space. -/
noncomputable def brightnessTemperatureWn (n L : ℝ) : ℝ :=
  h * c * n / (k * Real.log (2 * h * c ^ 2 * n ^ 3 / L + 1))

end Verif.Spec
