import Verif.Model.Solar
import Verif.Spec.Curves
import Verif.Lemmas.Trap
/-
Independent specification for the solar spectrum: what is assumed of the interpolation, where
the response of a band is found, and what a resampling grid is.
-/
namespace Verif.Spec
open Model XF Lemmas

/-- On these samples the interpolation is the real function `g`. -/
def Interpolates (spline : Spline XF) (x y : List ℝ) (g : ℝ → ℝ) : Prop :=
  ∃ f, spline (finL x) (finL y) = .ok f ∧ ∀ t, f (fin t) = fin (g t)

/-- The response curve a band argument holds for a detector, in the space of the spectrum. -/
inductive CurveOf (wavespace : String) (detector : Nat) : RsrArg XF → List ℝ → List ℝ → Prop
  | single (d : DetRsr XF) (w r : List ℝ)
      (hw : d.get? (if wavespace = "wavelength" then "wavelength" else "wavenumber") = some (.arr (finL w)))
      (hr : d.get? "response" = some (.arr (finL r))) : CurveOf wavespace detector (.curve d) w r
  | several (b : BandRsr XF) (d : DetRsr XF) (w r : List ℝ) (hd : b.get? ("det-" ++ toString detector) = some d)
      (hw : d.get? (if wavespace = "wavelength" then "wavelength" else "wavenumber") = some (.arr (finL w)))
      (hr : d.get? "response" = some (.arr (finL r))) : CurveOf wavespace detector (.dets b) w r

/-- `G` goes from `a` to `b` in equal steps that differ from `d` by at most half of it. -/
def RegularGrid (G : List ℝ) (a b d : ℝ) : Prop :=
  G.head? = some a ∧ G.getLast? = some b ∧ Increasing G ∧ 2 ≤ G.length ∧
  ∃ h, |h - d| ≤ d / 2 ∧ ∀ i (hi : i + 1 < G.length), G[i + 1] = G[i] + h

end Verif.Spec
