import Mathlib.Data.Real.Basic
/-
Independent specification of integrals over sampled curves.
-/
namespace Verif.Spec

/-- Trapezoid-rule integral of samples `y` at positions `x`. -/
noncomputable def trap : List ℝ → List ℝ → ℝ
  | x₀ :: x₁ :: xs, y₀ :: y₁ :: ys => (x₁ - x₀) * ((y₀ + y₁) / 2) + trap (x₁ :: xs) (y₁ :: ys)
  | _, _ => 0

/-- Positions strictly increase. -/
def Increasing (x : List ℝ) : Prop := x.Pairwise (· < ·)

/-- A sampled curve: list of (position, value) pairs. -/
abbrev Curve := List (ℝ × ℝ)

/-- Integral of `f(position, value)` over the curve. -/
noncomputable def integral (c : Curve) (f : ℝ × ℝ → ℝ) : ℝ := trap (c.map Prod.fst) (c.map f)

/-- Sample `i` is the first one satisfying `P`. -/
def FirstAt {α : Type} (P : α → Prop) (xs : List α) (i : Nat) : Prop :=
  (∃ v, xs[i]? = some v ∧ P v) ∧ ∀ j v, xs[j]? = some v → P v → i ≤ j

/-- Sample `i` is the last one satisfying `P`. -/
def LastAt {α : Type} (P : α → Prop) (xs : List α) (i : Nat) : Prop :=
  (∃ v, xs[i]? = some v ∧ P v) ∧ ∀ j v, xs[j]? = some v → P v → j ≤ i

end Verif.Spec
