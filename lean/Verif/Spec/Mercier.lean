import Mathlib.MeasureTheory.Integral.IntervalIntegral.Basic
import Mathlib.Analysis.SpecialFunctions.Trigonometric.Deriv

/-!
# The Mercier criterion near an axis

Bauer, Betancourt and Garabedian 1984; Landreman and Jorge 2020.  Integrals over a flux surface are
integrals over both Boozer angles; the toroidal one is a sum over the grid, with the length of the axis as
weight.
-/

namespace Qsc.Spec.Mercier

open Real

/-- The cross section of a flux surface at first order, for `r = 1`. -/
noncomputable def px (X1c θ : ℝ) : ℝ := X1c * cos θ
noncomputable def py (Y1s Y1c θ : ℝ) : ℝ := Y1s * sin θ + Y1c * cos θ

/-- `|grad r|^2` where the position is `r (px, py)`: the length of `d position / d theta` over the
Jacobian, squared. -/
noncomputable def gradR2 (X1c Y1s Y1c θ : ℝ) : ℝ :=
  (deriv (px X1c) θ ^ 2 + deriv (py Y1s Y1c) θ ^ 2) /
    (px X1c θ * deriv (py Y1s Y1c) θ - py Y1s Y1c θ * deriv (px X1c) θ) ^ 2

/-- Integral over both angles. -/
noncomputable def surf (n : Nat) (w : Nat → ℝ) (f : Nat → ℝ → ℝ) : ℝ :=
  2 * π * ((∑ j ∈ Finset.range n, w j * ∫ θ in 0..2 * π, f j θ) / ∑ j ∈ Finset.range n, w j)

/-- The geodesic curvature term, from the Jacobian, the field strength, `mu0 J . B` and
`|grad psi|^2`. -/
noncomputable def geod (n : Nat) (w : Nat → ℝ) (sqrtg B : ℝ) (JB gradPsi2 : Nat → ℝ → ℝ) : ℝ :=
  ((surf n w fun j θ => sqrtg * JB j θ / gradPsi2 j θ) ^ 2 -
    (surf n w fun j θ => sqrtg * B ^ 2 / gradPsi2 j θ) *
      surf n w fun j θ => sqrtg * JB j θ ^ 2 / (B ^ 2 * gradPsi2 j θ)) / (2 * π) ^ 6

/-- The magnetic well term, from `mu0 dp/dpsi` and `d^2 V / d psi^2` too. -/
noncomputable def well (n : Nat) (w : Nat → ℝ) (sqrtg B dp d2V : ℝ) (gradPsi2 : Nat → ℝ → ℝ) : ℝ :=
  dp / (2 * π) ^ 6 * (d2V - dp * surf n w fun _ _ => sqrtg / B ^ 2) *
    surf n w fun j θ => sqrtg * B ^ 2 / gradPsi2 j θ

end Qsc.Spec.Mercier
