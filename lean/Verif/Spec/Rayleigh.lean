import Verif.Lemmas.Trap
/-
Independent specification for the Rayleigh correction: regular grids, linear interpolation in
one and three dimensions, and the contract of the external interpolator.
-/
namespace Verif.Spec
open XF

/-- between `x` (at 0) and `y` (at 1) -/
def lerp (t x y : ℝ) : ℝ := (1 - t) * x + t * y

/-- `n` equally spaced nodes from `lo` to `hi` -/
structure Axis where
  lo : ℝ
  hi : ℝ
  n : Nat
  increasing : lo < hi
  nodes : 2 ≤ n

/-- the point at fraction `a` between node `i` and node `i+1` -/
noncomputable def Axis.pt (A : Axis) (i : Nat) (a : ℝ) : ℝ := A.lo + (i + a) * ((A.hi - A.lo) / ((A.n : ℝ) - 1))

/-- the list of its nodes -/
noncomputable def Axis.list (A : Axis) : List ℝ := (List.range A.n).map fun i : Nat => A.pt i 0

/-- value at node (i, j, k) of a table in C order -/
def cell (V : List ℝ) (n₂ n₃ i j k : Nat) : ℝ := V.getD ((i * n₂ + j) * n₃ + k) 0

/-- trilinear interpolation inside the cell at (i, j, k) -/
def trilinear (v : Nat → Nat → Nat → ℝ) (i j k : Nat) (a b c : ℝ) : ℝ :=
  lerp a (lerp b (lerp c (v i j k) (v i j (k + 1))) (lerp c (v i (j + 1) k) (v i (j + 1) (k + 1))))
    (lerp b (lerp c (v (i + 1) j k) (v (i + 1) j (k + 1)))
      (lerp c (v (i + 1) (j + 1) k) (v (i + 1) (j + 1) (k + 1))))

/-- What is assumed of geotiepoints' `MultilinearInterpolator`: inside the grid it is the
trilinear interpolation.  Nothing is assumed outside. -/
def IsMultilinear
    (interp : XF × XF × XF → XF × XF × XF → Nat × Nat × Nat → List XF → XF × XF × XF → XF) : Prop :=
  ∀ (A B C : Axis) (V : List ℝ), V.length = A.n * B.n * C.n →
    ∀ (i j k : Nat) (a b c : ℝ), i + 1 < A.n → j + 1 < B.n → k + 1 < C.n →
      0 ≤ a → a ≤ 1 → 0 ≤ b → b ≤ 1 → 0 ≤ c → c ≤ 1 →
      interp (fin A.lo, fin B.lo, fin C.lo) (fin A.hi, fin B.hi, fin C.hi) (A.n, B.n, C.n) (V.map fin)
        (fin (A.pt i a), fin (B.pt j b), fin (C.pt k c)) = fin (trilinear (cell V B.n C.n) i j k a b c)

end Verif.Spec
