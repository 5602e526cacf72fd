import Mathlib.Analysis.SpecialFunctions.Trigonometric.Basic
import Mathlib.Algebra.BigOperators.Group.Finset.Basic

/-!
# What the differentiation matrix should do
-/

namespace Qsc.Spec.DiffMat

/-- The real trigonometric polynomial of degree `M` and period `L`. -/
noncomputable def trigPoly (M : Nat) (L : ℝ) (a b : Nat → ℝ) (x : ℝ) : ℝ :=
  ∑ n ∈ Finset.range (M + 1),
    (a n * Real.cos (2 * Real.pi * n * x / L) + b n * Real.sin (2 * Real.pi * n * x / L))

/-- Point `k` of the uniform periodic grid on `[xmin, xmax)`. -/
noncomputable def gridPoint (N : Nat) (xmin xmax : ℝ) (k : Nat) : ℝ :=
  xmin + k * (xmax - xmin) / N

/-- With an even number `2 P` of points: a trigonometric polynomial of degree below `P`, and the cosine that
alternates from point to point. -/
noncomputable def evenPoly (P : Nat) (xmin L : ℝ) (a b : Nat → ℝ) (s : ℝ) (x : ℝ) : ℝ :=
  trigPoly (P - 1) L a b x + s * Real.cos (2 * Real.pi * P * (x - xmin) / L)

end Qsc.Spec.DiffMat
