import Mathlib.Analysis.SpecialFunctions.Trigonometric.Deriv
import Mathlib.Analysis.Asymptotics.Defs

/-!
# Magnetic fields near an axis, as an expansion in the distance `r`

Garren and Boozer 1991; Landreman and Sengupta 2019.  The position is
`axis + X n + Y b + Z t` with the Frenet frame of the axis, and the field with nested flux surfaces is
`B = grad psi x grad theta + iota_N grad phi x grad psi = beta grad psi + I grad theta + G grad phi`,
`psi = spsi B0 r^2 / 2`, in Boozer angles.  All statements are at a fixed `phi`; derivatives in `phi` of
the coefficients are given as separate numbers.
-/

namespace Qsc.Spec.NearAxis

/-- Coefficients of the expansion of the position at one `phi`. -/
structure Coef where
  X1c : ℝ
  Y1s : ℝ
  Y1c : ℝ
  X20 : ℝ
  X2s : ℝ
  X2c : ℝ
  Y20 : ℝ
  Y2s : ℝ
  Y2c : ℝ
  Z20 : ℝ
  Z2s : ℝ
  Z2c : ℝ
  X3c1 : ℝ
  Y3s1 : ℝ
  Y3c1 : ℝ
  Z3s1 : ℝ
  Z3c1 : ℝ
  Z3s3 : ℝ
  Z3c3 : ℝ

/-- Component along the normal. -/
noncomputable def X (c : Coef) (r θ : ℝ) : ℝ :=
  r * (c.X1c * Real.cos θ) + r ^ 2 * (c.X20 + c.X2s * Real.sin (2 * θ) + c.X2c * Real.cos (2 * θ)) +
    r ^ 3 * (c.X3c1 * Real.cos θ)

/-- Component along the binormal. -/
noncomputable def Y (c : Coef) (r θ : ℝ) : ℝ :=
  r * (c.Y1s * Real.sin θ + c.Y1c * Real.cos θ) +
    r ^ 2 * (c.Y20 + c.Y2s * Real.sin (2 * θ) + c.Y2c * Real.cos (2 * θ)) +
    r ^ 3 * (c.Y3s1 * Real.sin θ + c.Y3c1 * Real.cos θ)

/-- Component along the tangent. -/
noncomputable def Z (c : Coef) (r θ : ℝ) : ℝ :=
  r ^ 2 * (c.Z20 + c.Z2s * Real.sin (2 * θ) + c.Z2c * Real.cos (2 * θ)) +
    r ^ 3 * (c.Z3s1 * Real.sin θ + c.Z3c1 * Real.cos θ + c.Z3s3 * Real.sin (3 * θ) +
      c.Z3c3 * Real.cos (3 * θ))

/-- The other quantities at one `phi`.  `l` is the length of the axis per unit `phi`. -/
structure Pt where
  kappa : ℝ
  tau : ℝ
  l : ℝ
  iotaN : ℝ
  spsi : ℝ
  B0 : ℝ
  etaBar : ℝ
  B20 : ℝ
  B2s : ℝ
  B2c : ℝ
  G0 : ℝ
  G2 : ℝ
  I2 : ℝ
  beta1s : ℝ
  p2mu0 : ℝ

/-- Vectors in the Frenet frame: normal, binormal, tangent. -/
structure Vec where
  n : ℝ
  b : ℝ
  t : ℝ

/-- The frame (n, b, t) is right handed. -/
def cross (u v : Vec) : Vec := ⟨u.b * v.t - u.t * v.b, u.t * v.n - u.n * v.t, u.n * v.b - u.b * v.n⟩

def normSq (u : Vec) : ℝ := u.n ^ 2 + u.b ^ 2 + u.t ^ 2

/-- `d position / d r`. -/
noncomputable def dr (c : Coef) (r θ : ℝ) : Vec :=
  ⟨deriv (fun s => X c s θ) r, deriv (fun s => Y c s θ) r, deriv (fun s => Z c s θ) r⟩

/-- `d position / d theta`. -/
noncomputable def dtheta (c : Coef) (r θ : ℝ) : Vec :=
  ⟨deriv (X c r) θ, deriv (Y c r) θ, deriv (Z c r) θ⟩

/-- `d position / d phi`: `d` holds the derivatives of the coefficients, and the frame moves by
`t' = l kappa n`, `n' = l (tau b - kappa t)`, `b' = - l tau n`. -/
noncomputable def dphi (e : Pt) (c d : Coef) (r θ : ℝ) : Vec :=
  ⟨X d r θ - e.l * e.tau * Y c r θ + e.l * e.kappa * Z c r θ,
   Y d r θ + e.l * e.tau * X c r θ,
   e.l + Z d r θ - e.l * e.kappa * X c r θ⟩

/-- `r d r / d psi`, where `psi = spsi B0 r^2 / 2`: `d position / d psi = dpsi / r`. -/
noncomputable def rdpsi (e : Pt) (c : Coef) (r θ : ℝ) : Vec :=
  ⟨(dr c r θ).n / (e.spsi * e.B0), (dr c r θ).b / (e.spsi * e.B0), (dr c r θ).t / (e.spsi * e.B0)⟩

/-- The profiles. -/
noncomputable def G (e : Pt) (r : ℝ) : ℝ := e.G0 + e.G2 * r ^ 2
noncomputable def I (e : Pt) (r : ℝ) : ℝ := e.I2 * r ^ 2
noncomputable def beta (e : Pt) (r θ : ℝ) : ℝ := r * e.beta1s * Real.sin θ
noncomputable def B (e : Pt) (r θ : ℝ) : ℝ :=
  e.B0 * (1 + r * e.etaBar * Real.cos θ) +
    r ^ 2 * (e.B20 + e.B2s * Real.sin (2 * θ) + e.B2c * Real.cos (2 * θ))

/-- Both sides of `B` times the Jacobian: `x_phi + iota_N x_theta`. -/
noncomputable def contra (e : Pt) (c d : Coef) (r θ : ℝ) : Vec :=
  ⟨(dphi e c d r θ).n + e.iotaN * (dtheta c r θ).n, (dphi e c d r θ).b + e.iotaN * (dtheta c r θ).b,
   (dphi e c d r θ).t + e.iotaN * (dtheta c r θ).t⟩

/-- `beta x_theta x x_phi + I x_phi x x_psi + G x_psi x x_theta`. -/
noncomputable def co (e : Pt) (c d : Coef) (r θ : ℝ) : Vec :=
  let a := cross (dtheta c r θ) (dphi e c d r θ)
  let u := cross (dphi e c d r θ) (rdpsi e c r θ)
  let v := cross (rdpsi e c r θ) (dtheta c r θ)
  ⟨beta e r θ * a.n + I e r * (u.n / r) + G e r * (v.n / r),
   beta e r θ * a.b + I e r * (u.b / r) + G e r * (v.b / r),
   beta e r θ * a.t + I e r * (u.t / r) + G e r * (v.t / r)⟩

/-- Small as `r ^ n` when `r` tends to zero. -/
def Order (n : Nat) (f : ℝ → ℝ) : Prop :=
  Asymptotics.IsBigO (nhdsWithin (0 : ℝ) {0}ᶜ) f fun r => r ^ n

/-- The field strength: `|x_phi + iota_N x_theta|^2 B^2 = (G + iota_N I)^2`. -/
noncomputable def strength (e : Pt) (c d : Coef) (r θ : ℝ) : ℝ :=
  normSq (contra e c d r θ) * B e r θ ^ 2 - (G e r + e.iotaN * I e r) ^ 2

/-- Force balance, `mu0 J x B = grad p` with `p = p(0) + p2 r^2`, in these coordinates:
`(d/dphi + iota_N d/dtheta) beta = mu0 p' (G + iota_N I) / B^2 + G' + iota_N I'`, where a prime is a
derivative in `psi`. -/
noncomputable def force (e : Pt) (r θ : ℝ) : ℝ :=
  e.iotaN * deriv (beta e r) θ * B e r θ ^ 2 -
    (deriv (fun s => e.p2mu0 * s ^ 2) r * (G e r + e.iotaN * I e r) +
      (deriv (G e) r + e.iotaN * deriv (I e) r) * B e r θ ^ 2) / (e.spsi * e.B0 * r)

/-! ## The second-order equations of Landreman and Sengupta (2019)

`f` is what the third-order `Z` has to balance: normal and binormal components of the field equation at
second order, for the harmonics `1`, `sin 2 theta`, `cos 2 theta`. -/

noncomputable def fX0 (e : Pt) (c d : Coef) : ℝ :=
  d.X20 - e.tau * e.l * c.Y20 + e.kappa * e.l * c.Z20 -
    4 * (e.G0 / (e.spsi * e.B0)) * (c.Y2c * c.Z2s - c.Y2s * c.Z2c) -
    e.I2 / (e.spsi * e.B0) * e.l * (e.kappa * c.X1c * c.Y1c / 2 - 2 * c.Y20) +
    e.l * e.beta1s * c.Y1c / 2

noncomputable def fXs (e : Pt) (c d : Coef) : ℝ :=
  d.X2s - 2 * e.iotaN * c.X2c - e.tau * e.l * c.Y2s + e.kappa * e.l * c.Z2s -
    4 * (e.G0 / (e.spsi * e.B0)) * (c.Y2c * c.Z20 - c.Y20 * c.Z2c) -
    e.I2 / (e.spsi * e.B0) * e.l * (e.kappa * c.X1c * c.Y1s / 2 - 2 * c.Y2s) -
    e.l * e.beta1s * c.Y1s / 2

noncomputable def fXc (e : Pt) (c d : Coef) : ℝ :=
  d.X2c + 2 * e.iotaN * c.X2s - e.tau * e.l * c.Y2c + e.kappa * e.l * c.Z2c -
    4 * (e.G0 / (e.spsi * e.B0)) * (c.Y20 * c.Z2s - c.Y2s * c.Z20) -
    e.I2 / (e.spsi * e.B0) * e.l * (e.kappa * c.X1c * c.Y1c / 2 - 2 * c.Y2c) -
    e.l * e.beta1s * c.Y1c / 2

noncomputable def fY0 (e : Pt) (c d : Coef) : ℝ :=
  d.Y20 + e.tau * e.l * c.X20 -
    4 * (e.G0 / (e.spsi * e.B0)) * (c.X2s * c.Z2c - c.X2c * c.Z2s) -
    e.I2 / (e.spsi * e.B0) * e.l * (2 * c.X20 - e.kappa * c.X1c ^ 2 / 2) -
    e.l * e.beta1s * c.X1c / 2

noncomputable def fYs (e : Pt) (c d : Coef) : ℝ :=
  d.Y2s - 2 * e.iotaN * c.Y2c + e.tau * e.l * c.X2s -
    4 * (e.G0 / (e.spsi * e.B0)) * (c.X20 * c.Z2c - c.X2c * c.Z20) -
    e.I2 / (e.spsi * e.B0) * e.l * (2 * c.X2s)

noncomputable def fYc (e : Pt) (c d : Coef) : ℝ :=
  d.Y2c + 2 * e.iotaN * c.Y2s + e.tau * e.l * c.X2c -
    4 * (e.G0 / (e.spsi * e.B0)) * (c.X2s * c.Z20 - c.X20 * c.Z2s) -
    e.I2 / (e.spsi * e.B0) * e.l * (2 * c.X2c - e.kappa * c.X1c ^ 2 / 2) +
    e.l * e.beta1s * c.X1c / 2

/-- The two conditions under which some third-order `Z` balances the `f`. -/
def Solvable (e : Pt) (c d : Coef) : Prop :=
  c.X1c * fXs e c d - c.Y1s * fY0 e c d + c.Y1c * fYs e c d - c.Y1s * fYc e c d = 0 ∧
  -c.X1c * fX0 e c d + c.X1c * fXc e c d - c.Y1c * fY0 e c d + c.Y1s * fYs e c d +
    c.Y1c * fYc e c d = 0

/-- The tangential component at first order: two relations between the second-order coefficients. -/
def Area (e : Pt) (c : Coef) : Prop :=
  -c.X1c * c.Y2c + c.X1c * c.Y20 + c.X2s * c.Y1s + c.X2c * c.Y1c - c.X20 * c.Y1c = 0 ∧
  c.X1c * c.Y2s + c.X2c * c.Y1s - c.X2s * c.Y1c + c.X20 * c.Y1s +
    c.X1c * c.Y1s * (e.kappa * c.X1c) / 2 = 0

end Qsc.Spec.NearAxis
