import Mathlib.Analysis.SpecialFunctions.Trigonometric.Basic
import Mathlib.Algebra.BigOperators.Group.Finset.Basic

/-!
# First order in the distance from the axis

The sigma equation (Landreman, Sengupta and Plunk 2019, eq. (2.15); Garren and Boozer 1991) on a grid
with a differentiation matrix `D`, and the shape of the cross section.
-/

namespace Qsc.Spec.R1

/-- `d sigma / d varphi + iota_N (etabar^4 / kappa^4 + 1 + sigma^2)
- 2 (etabar^2 / kappa^2) (I2 / B0 - spsi tau) G0 / B0` at grid point `j`. -/
noncomputable def sigmaEq (n : Nat) (D : Nat → Nat → ℝ) (etaBar : ℝ) (kappa tau : Nat → ℝ)
    (spsi G0 B0 I2 iotaN : ℝ) (sigma : Nat → ℝ) (j : Nat) : ℝ :=
  (∑ k ∈ Finset.range n, D j k * sigma k) +
    iotaN * ((etaBar / kappa j) ^ 4 + 1 + sigma j ^ 2) -
    2 * (etaBar / kappa j) ^ 2 * (I2 / B0 - spsi * tau j) * G0 / B0

/-- Squared distance from the axis, per `r^2`, of the point at angle `t` of the cross section
`X = X1c cos t`, `Y = Y1s sin t + Y1c cos t`. -/
noncomputable def distSq (X1c Y1s Y1c t : ℝ) : ℝ :=
  (X1c * Real.cos t) ^ 2 + (Y1s * Real.sin t + Y1c * Real.cos t) ^ 2

/-- `e` is the ratio of the largest to the smallest distance from the axis. -/
def IsElongation (X1c Y1s Y1c e : ℝ) : Prop :=
  ∃ a b : ℝ, 0 < b ∧ e = a / b ∧ 0 ≤ a ∧
    (∀ t, b ^ 2 ≤ distSq X1c Y1s Y1c t ∧ distSq X1c Y1s Y1c t ≤ a ^ 2) ∧
    (∃ t, distSq X1c Y1s Y1c t = b ^ 2) ∧ ∃ t, distSq X1c Y1s Y1c t = a ^ 2

end Qsc.Spec.R1
