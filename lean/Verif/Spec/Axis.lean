import Verif.Model.Field
import Mathlib.Analysis.SpecialFunctions.Trigonometric.Deriv
import Mathlib.Analysis.Calculus.Deriv.Basic
import Mathlib.Algebra.BigOperators.Group.Finset.Basic

/-!
# The magnetic axis as a space curve

A curve in Cartesian coordinates with its classical Frenet frame, curvature and torsion, and the
Fourier sums that define the axis.  Nothing here refers to cylindrical components of derivatives.
-/

namespace Qsc.Spec.Axis

open Qsc

/-- `sum_n c_n cos(n nfp phi) + s_n sin(n nfp phi)` over `n < N`. -/
noncomputable def fourier (N nfp : Nat) (c s : Nat → ℝ) (φ : ℝ) : ℝ :=
  ∑ n ∈ Finset.range N,
    (c n * Real.cos (((n : ℝ) * (nfp : ℝ)) * φ) + s n * Real.sin (((n : ℝ) * (nfp : ℝ)) * φ))

/-- The curve with cylindrical coordinates `(R(phi), phi, Z(phi))`. -/
noncomputable def curve (R Z : ℝ → ℝ) (φ : ℝ) : V3 ℝ :=
  ⟨R φ * Real.cos φ, R φ * Real.sin φ, Z φ⟩

/-- Cartesian components of a vector with components in the basis
`(e_R, e_phi, e_Z)` at the angle `phi`. -/
noncomputable def cart (φ : ℝ) (v : V3 ℝ) : V3 ℝ :=
  ⟨v.x * Real.cos φ - v.y * Real.sin φ, v.x * Real.sin φ + v.y * Real.cos φ, v.z⟩

def dot (u v : V3 ℝ) : ℝ := u.x * v.x + u.y * v.y + u.z * v.z

def cross (u v : V3 ℝ) : V3 ℝ :=
  ⟨u.y * v.z - u.z * v.y, u.z * v.x - u.x * v.z, u.x * v.y - u.y * v.x⟩

def smul (a : ℝ) (v : V3 ℝ) : V3 ℝ := ⟨a * v.x, a * v.y, a * v.z⟩

noncomputable def len (v : V3 ℝ) : ℝ := Real.sqrt (dot v v)

/-- Derivative of a vector valued function. -/
noncomputable def d3 (f : ℝ → V3 ℝ) (φ : ℝ) : V3 ℝ :=
  ⟨deriv (fun s => (f s).x) φ, deriv (fun s => (f s).y) φ, deriv (fun s => (f s).z) φ⟩

/-- Arc length per parameter. -/
noncomputable def speed (f : ℝ → V3 ℝ) (φ : ℝ) : ℝ := len (d3 f φ)

/-- Unit tangent. -/
noncomputable def tangent (f : ℝ → V3 ℝ) (φ : ℝ) : V3 ℝ := smul (1 / speed f φ) (d3 f φ)

/-- Unit binormal. -/
noncomputable def binormal (f : ℝ → V3 ℝ) (φ : ℝ) : V3 ℝ :=
  smul (1 / len (cross (d3 f φ) (d3 (d3 f) φ))) (cross (d3 f φ) (d3 (d3 f) φ))

/-- Principal normal. -/
noncomputable def normal (f : ℝ → V3 ℝ) (φ : ℝ) : V3 ℝ := cross (binormal f φ) (tangent f φ)

noncomputable def curvature (f : ℝ → V3 ℝ) (φ : ℝ) : ℝ :=
  len (cross (d3 f φ) (d3 (d3 f) φ)) / speed f φ ^ 3

noncomputable def torsion (f : ℝ → V3 ℝ) (φ : ℝ) : ℝ :=
  dot (d3 f φ) (cross (d3 (d3 f) φ) (d3 (d3 (d3 f)) φ)) /
    len (cross (d3 f φ) (d3 (d3 f) φ)) ^ 2

end Qsc.Spec.Axis
