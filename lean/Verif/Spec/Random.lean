import Mathlib.Analysis.SpecialFunctions.Pow.Real

/-!
Specification vocabulary for the random distributions, independent of the model: weighted
arithmetic and geometric interpolation between the bounds.
-/

namespace Qsc.Spec.Random

/-- `x` lies in the closed interval spanned by `a` and `b`, in either order. -/
def Between (a b x : ℝ) : Prop := (a ≤ x ∧ x ≤ b) ∨ (b ≤ x ∧ x ≤ a)

/-- Arithmetic interpolation. -/
def lerp (a b t : ℝ) : ℝ := (1 - t) * a + t * b

/-- Geometric interpolation of positive numbers. -/
noncomputable def gerp (a b t : ℝ) : ℝ := a ^ (1 - t) * b ^ t

/-- The condition under which bounds are acceptable for a named distribution, as documented
at random.cpp 9-17. -/
def Acceptable (name : String) (a b : ℝ) : Prop :=
  name = "linear" ∨
  (name = "log" ∧ ((0 < a ∧ 0 < b) ∨ (a < 0 ∧ b < 0) ∨ (a = 0 ∧ b = 0))) ∨
  (name = "2 sided log" ∧ ((0 < a ∧ 0 < b) ∨ (a = 0 ∧ b = 0)))

open Classical in
/-- The value that corresponds to the uniform number `t` for non-degenerate bounds. -/
noncomputable def value (name : String) (a b t : ℝ) : ℝ :=
  if name = "linear" then lerp a b t
  else if name = "log" then
    if 0 < a then gerp a b t else -gerp (-a) (-b) t
  else if t ≤ 1 / 2 then gerp a b (1 - 2 * t)
  else -gerp a b (2 * t - 1)

end Qsc.Spec.Random
