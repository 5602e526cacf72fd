import Verif.Spec.NearAxis
import Mathlib.Analysis.Calculus.Deriv.Basic

/-!
# Derivatives of the magnetic field on the axis

The field is `B = (B^2 / (G + iota_N I)) (x_phi + iota_N x_theta)` in Boozer coordinates.  Components are
along normal (0), binormal (1) and tangent (2).
-/

namespace Qsc.Spec.NearAxis

def comp (v : Vec) : Nat → ℝ
  | 0 => v.n
  | 1 => v.b
  | _ => v.t

/-- Displacement from the axis. -/
noncomputable def position (c : Coef) (r θ : ℝ) : Vec := ⟨X c r θ, Y c r θ, Z c r θ⟩

/-- The magnetic field vector. -/
noncomputable def fieldVec (e : Pt) (c d : Coef) (r θ : ℝ) : Vec :=
  let f := B e r θ ^ 2 / (G e r + e.iotaN * I e r)
  ⟨f * (contra e c d r θ).n, f * (contra e c d r θ).b, f * (contra e c d r θ).t⟩

/-- Taylor polynomials of a vector field at a point: `b` is the value, `M i k` the derivative in
direction `i` of component `k`, and `T i j k` the second derivative in directions `i` and `j`. -/
noncomputable def taylor1 (b : Nat → ℝ) (M : Nat → Nat → ℝ) (p : Vec) (k : Nat) : ℝ :=
  b k + ∑ i ∈ Finset.range 3, M i k * comp p i

noncomputable def taylor2 (b : Nat → ℝ) (M : Nat → Nat → ℝ) (T : Nat → Nat → Nat → ℝ) (p : Vec) (k : Nat) : ℝ :=
  taylor1 b M p k + 1 / 2 * ∑ i ∈ Finset.range 3, ∑ j ∈ Finset.range 3, T i j k * comp p i * comp p j

/-- The field on the axis is along the tangent. -/
def onAxis (b : ℝ) (k : Nat) : ℝ := if k = 2 then b else 0

/-- The frame turns along the axis: `e_m' = sum_j turn m j e_j`, per unit length. -/
def turn (kappa tau : ℝ) : Nat → Nat → ℝ
  | 0, 1 => tau
  | 0, 2 => -kappa
  | 1, 0 => -tau
  | 2, 0 => kappa
  | _, _ => 0

/-- A tensor field along the axis with components `A j k` in the frame; `A' j k` are the derivatives of the
components in `phi`, and `l` is the length per unit `phi`.  These are the components of the derivative of
the tensor with respect to length. -/
noncomputable def along (l kappa tau : ℝ) (A A' : Nat → Nat → ℝ) (j k : Nat) : ℝ :=
  A' j k / l + ∑ m ∈ Finset.range 3, (A m k * turn kappa tau m j + A j m * turn kappa tau m k)

/-- The current (times `mu0`): the curl of `beta grad psi + I grad theta + G grad phi`, which is
`(B^2 / (G + iota_N I)) ((d beta/d phi - G') x_theta + (I' - d beta/d theta) x_phi)`; a prime is a
derivative in `psi = spsi B0 r^2 / 2`, and `beta` does not depend on `phi`. -/
noncomputable def current (e : Pt) (c d : Coef) (r θ : ℝ) : Vec :=
  let f := B e r θ ^ 2 / (G e r + e.iotaN * I e r)
  let u := -(deriv (G e) r / (e.spsi * e.B0 * r))
  let v := deriv (I e) r / (e.spsi * e.B0 * r) - deriv (beta e r) θ
  ⟨f * (u * (dtheta c r θ).n + v * (dphi e c d r θ).n),
   f * (u * (dtheta c r θ).b + v * (dphi e c d r θ).b),
   f * (u * (dtheta c r θ).t + v * (dphi e c d r θ).t)⟩

/-- The curl over the last two indices. -/
def curl (T : Nat → Nat → Nat → ℝ) (m : Nat) : Nat → ℝ
  | 0 => T m 1 2 - T m 2 1
  | 1 => T m 2 0 - T m 0 2
  | _ => T m 0 1 - T m 1 0

/-- Second derivatives of the field of a wire: the magnetic field of a straight wire is
`(-y, x, 0) / (x^2 + y^2)`. -/
noncomputable def wire (x y : ℝ) : Vec := ⟨-y / (x ^ 2 + y ^ 2), x / (x ^ 2 + y ^ 2), 0⟩

end Qsc.Spec.NearAxis
