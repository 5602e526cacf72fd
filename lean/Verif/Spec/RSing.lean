import Verif.Spec.NearAxis
import Verif.Model.RSing
import Mathlib.LinearAlgebra.Matrix.Determinant.Basic
import Mathlib.Data.Complex.Basic

/-!
# Where the coordinates near the axis become singular

Landreman, J. Plasma Phys. 2021, section 4: the smallest radius at which the Jacobian, kept to its first
three orders, vanishes somewhere together with its derivative in theta.
-/

namespace Qsc.Spec.RSing

open Qsc.RSing (G)

/-- The Jacobian of `(r, theta, phi)`, first three orders. -/
noncomputable def sqrtg (g : G ℝ) (r θ : ℝ) : ℝ :=
  r * (g.g0 + r * (g.g1c * Real.cos θ) +
    r ^ 2 * (g.g20 + g.g2s * Real.sin (2 * θ) + g.g2c * Real.cos (2 * θ)))

/-- A singular point. -/
def Singular (g : G ℝ) (r θ : ℝ) : Prop := 0 < r ∧ sqrtg g r θ = 0 ∧ deriv (sqrtg g r) θ = 0

/-- The singular radii. -/
def radii (g : G ℝ) : Set ℝ := {r | ∃ θ, Singular g r θ}

/-- The value of the quartic `c 0 z^4 + ... + c 4`. -/
def quartic {K : Type} [Field K] (c : Nat → K) (z : K) : K :=
  c 0 * z ^ 4 + c 1 * z ^ 3 + c 2 * z ^ 2 + c 3 * z + c 4

end Qsc.Spec.RSing

namespace Qsc.Spec.NearAxis

def dot (u v : Vec) : ℝ := u.n * v.n + u.b * v.b + u.t * v.t

/-- The Jacobian of the position as a function of `(r, theta, phi)`. -/
noncomputable def jacobian (e : Pt) (c d : Coef) (r θ : ℝ) : ℝ :=
  dot (cross (dr c r θ) (dtheta c r θ)) (dphi e c d r θ)

end Qsc.Spec.NearAxis

namespace Qsc.Spec.RSing

/-- The 4 x 4 matrix that LAPACK sees in an array: stored by columns. -/
def stored {K : Type} (a : Nat → K) : Matrix (Fin 4) (Fin 4) K := fun row col => a (row.val + 4 * col.val)

/-- Four numbers, given by real and imaginary parts, are the eigenvalues of a real matrix, counted with
multiplicity. -/
def IsSpectrum (M : Matrix (Fin 4) (Fin 4) ℝ) (w : (Nat → ℝ) × (Nat → ℝ)) : Prop :=
  ∀ z : ℂ, (z • (1 : Matrix (Fin 4) (Fin 4) ℂ) - M.map Complex.ofReal).det =
    (z - ⟨w.1 0, w.2 0⟩) * (z - ⟨w.1 1, w.2 1⟩) * (z - ⟨w.1 2, w.2 2⟩) * (z - ⟨w.1 3, w.2 3⟩)

end Qsc.Spec.RSing
