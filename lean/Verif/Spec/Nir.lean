import Verif.Base.XF
/-
Independent specification of the 3.x micron reflectance retrieval.
-/
namespace Verif.Spec

/-- The inputs of one pixel: sun zenith angle (degrees), 3.x micron, thermal and CO2 band
temperatures. -/
structure Pixel (α : Type := XF) where
  zenith : α
  nir : α
  therm : α
  co2 : α

/-- Reflected sunlight for reflectance 1: flux times cosine of the zenith angle (limited to
`[0, threshold]` degrees) over pi. -/
noncomputable def sunlight (flux threshold zenith : ℝ) : ℝ :=
  flux * Real.cos (min (max zenith 0) threshold * Real.pi / 180) / Real.pi

/-- Rosenfeld's CO2 factor. -/
noncomputable def co2Factor (t11 t13 : ℝ) : ℝ := ((3 * t11 + t13) / (4 * t11)) ^ 4

end Verif.Spec
