import Verif.Spec.Planck
/-
Independent specification: the EUMETSAT formula relating SEVIRI effective radiance and
brightness temperature (EUM/OPS-MSG/TEN/08/0024), SI units.
-/
namespace Verif.Spec

/-- effective radiance from temperature: `c1 vc^3 / (exp(c2 vc / (A Tb + B)) - 1)` -/
noncomputable def seviriRadiance (vc A B T : ℝ) : ℝ :=
  2 * h * c ^ 2 * vc ^ 3 / (Real.exp (h * c / k * vc / (A * T + B)) - 1)

/-- temperature from effective radiance: `(c2 vc / ln(c1 vc^3 / L + 1) - B) / A` -/
noncomputable def seviriTemperature (vc A B L : ℝ) : ℝ :=
  (h * c / k * vc / Real.log (2 * h * c ^ 2 * vc ^ 3 / L + 1) - B) / A

/-- the published coefficients: channel, satellite, central wavenumber (1/cm), `A`, `B` (K) -/
noncomputable def seviriCoefficients : List (String × String × ℝ × ℝ × ℝ) := [
  ("IR3.9", "Meteosat-8", 2567.330, 0.9956, 3.410),
  ("IR3.9", "Meteosat-9", 2568.832, 0.9954, 3.438),
  ("WV6.2", "Meteosat-8", 1598.103, 0.9962, 2.218),
  ("WV6.2", "Meteosat-9", 1600.548, 0.9963, 2.185),
  ("WV7.3", "Meteosat-8", 1362.081, 0.9991, 0.478),
  ("WV7.3", "Meteosat-9", 1360.330, 0.9991, 0.470),
  ("IR8.7", "Meteosat-8", 1149.069, 0.9996, 0.179),
  ("IR8.7", "Meteosat-9", 1148.620, 0.9996, 0.179),
  ("IR9.7", "Meteosat-8", 1034.343, 0.9999, 0.060),
  ("IR9.7", "Meteosat-9", 1035.289, 0.9999, 0.056),
  ("IR10.8", "Meteosat-8", 930.647, 0.9983, 0.625),
  ("IR10.8", "Meteosat-9", 931.700, 0.9983, 0.640),
  ("IR12.0", "Meteosat-8", 839.660, 0.9988, 0.397),
  ("IR12.0", "Meteosat-9", 836.445, 0.9988, 0.408),
  ("IR13.4", "Meteosat-8", 752.387, 0.9981, 0.578),
  ("IR13.4", "Meteosat-9", 751.792, 0.9981, 0.561)]

end Verif.Spec
