import Verif.Model.Solar
/-
Model of the plot of a solar spectrum.
-/
namespace Verif.Model
open PyNum
variable {α : Type} [PyNum α]

/-- What a plot of the spectrum shows. -/
structure SolarPlot (α : Type) where
  xs : List α
  ys : List α
  xlabel : String
  ylabel : String
  xlim : α × α
  ylim : α × α
  color : String

/-- models pyspectral/solar.py:241-281 (`plot`) up to the figure; showing or saving it is not modelled,
nor the settings of TeX (261-262).  matplotlib refuses None as data, arrays of different lengths and
limits that are not finite with ValueError, an empty array has no maximum (ValueError). -/
def Solar.plot (s : Solar α) (color : Option String := none) : Py (SolarPlot α) := do
  let (xlabel, ylabel, xlim, axis) ←
    if s.wavespace = "wavelength" then
      pure ("Wavelength ($\\mu m$)", "Irradiance ($W/(m^2 \\mu m$))", ((0, 4.2) : α × α), s.wavelength)
    else if s.wavespace = "wavenumber" then
      pure ("Wavenumber ($cm^{-1}$)", "Irradiance ($mW/m^2 (cm^{-1})^{-1}$))", (0, 35000), s.wavenumber)
    else .error .typeError
  let xs ← match axis with
    | some x => pure x
    | none => .error .valueError
  if xs.length ≠ s.irradiance.length then .error .valueError
  let top ← NP.amax s.irradiance
  if eq (top - top) 0 then
    return { xs, ys := s.irradiance, xlabel, ylabel, xlim, ylim := (0, top), color := color.getD "blue" }
  else .error .valueError

end Verif.Model
