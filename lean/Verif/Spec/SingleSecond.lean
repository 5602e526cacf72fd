import Verif.Spec.Single
import Verif.Spec.GradGradB
import Verif.Spec.Mercier
import Verif.Spec.NearAxis
import Verif.Spec.RSing

/-!
# Specification of a single run: second and third order

The numbers that a reader takes from the output file are collected in `Tables`.
-/

namespace Qsc.Spec.Single
open Qsc.Netcdf Qsc.Toml Qsc.Spec.NearAxis

/-- Numbers from the file: profiles along the axis, the differentiation matrix, and scalars. -/
structure Tables where
  sigma : Nat → ℝ
  X20 : Nat → ℝ
  X2s : Nat → ℝ
  X2c : Nat → ℝ
  Y20 : Nat → ℝ
  Y2s : Nat → ℝ
  Y2c : Nat → ℝ
  Z20 : Nat → ℝ
  Z2s : Nat → ℝ
  Z2c : Nat → ℝ
  B20 : Nat → ℝ
  D : Nat → Nat → ℝ
  iota : ℝ
  iotaN : ℝ
  G2 : ℝ
  beta1s : ℝ

/-- Profiles with their names. -/
def Tables.xy (t : Tables) : List (String × (Nat → ℝ)) :=
  [("X20", t.X20), ("X2s", t.X2s), ("X2c", t.X2c), ("Y20", t.Y20), ("Y2s", t.Y2s), ("Y2c", t.Y2c)]

def Tables.z (t : Tables) : List (String × (Nat → ℝ)) := [("Z20", t.Z20), ("Z2s", t.Z2s), ("Z2c", t.Z2c)]

/-- A profile, and its first and second derivatives along the axis. -/
structure Smoothly (f : File ℝ) (n : Nat) (D : Nat → Nat → ℝ) (p : String × (Nat → ℝ)) : Prop where
  value : Profile f p.1 n p.2
  first : Profile f ("d_" ++ p.1 ++ "_d_varphi") n (apply n D p.2)
  second : Profile f ("d2_" ++ p.1 ++ "_d_varphi2") n (apply n D (apply n D p.2))

/-- The numbers stand in the file. -/
structure Tables.In (t : Tables) (f : File ℝ) (n : Nat) : Prop where
  sigma : Profile f "sigma" n t.sigma
  positions : ∀ p ∈ t.xy ++ t.z, Smoothly f n t.D p
  B20 : Profile f "B20" n t.B20
  D : Square f "d_d_varphi" n t.D
  iota : Scalar f "iota" t.iota
  iotaN : Scalar f "iota_N" t.iotaN
  G2 : Scalar f "G2" t.G2
  beta1s : Scalar f "beta_1s" t.beta1s

/-- Length per unit Boozer angle. -/
noncomputable def perAngle (q : QscIn ℝ) (n : Nat) : ℝ := length q n / (2 * Real.pi)

/-- `Y1c = Y1s sigma`. -/
noncomputable def Y1c (q : QscIn ℝ) (n : Nat) (t : Tables) (j : Nat) : ℝ := Y1s q n j * t.sigma j

/-- The position near the axis, from the file. -/
noncomputable def coefs (q : QscIn ℝ) (n : Nat) (t : Tables) (j : Nat) : Coef :=
  { X1c := X1c q n j, Y1s := Y1s q n j, Y1c := Y1c q n t j
    X20 := t.X20 j, X2s := t.X2s j, X2c := t.X2c j, Y20 := t.Y20 j, Y2s := t.Y2s j, Y2c := t.Y2c j
    Z20 := t.Z20 j, Z2s := t.Z2s j, Z2c := t.Z2c j
    X3c1 := 0, Y3s1 := 0, Y3c1 := 0, Z3s1 := 0, Z3c1 := 0, Z3s3 := 0, Z3c3 := 0 }

/-- Its derivatives along the axis. -/
noncomputable def dcoefs (q : QscIn ℝ) (n : Nat) (t : Tables) (j : Nat) : Coef :=
  { X1c := apply n t.D (X1c q n) j, Y1s := apply n t.D (Y1s q n) j, Y1c := apply n t.D (Y1c q n t) j
    X20 := apply n t.D t.X20 j, X2s := apply n t.D t.X2s j, X2c := apply n t.D t.X2c j
    Y20 := apply n t.D t.Y20 j, Y2s := apply n t.D t.Y2s j, Y2c := apply n t.D t.Y2c j
    Z20 := apply n t.D t.Z20 j, Z2s := apply n t.D t.Z2s j, Z2c := apply n t.D t.Z2c j
    X3c1 := 0, Y3s1 := 0, Y3c1 := 0, Z3s1 := 0, Z3c1 := 0, Z3s3 := 0, Z3c3 := 0 }

/-- The other quantities.  `p2mu0` is the coefficient of `r^2` in the pressure, times `mu0 = 4 pi 10^-7`.  With
`theta` the angle in which the field strength is symmetric, the coefficient of `grad phi` is `G + N I` where
`iota_N = iota - N`. -/
noncomputable def point (q : QscIn ℝ) (n : Nat) (t : Tables) (j : Nat) : Pt :=
  { kappa := Axis.curvature (axis q) (grid q n j), tau := Axis.torsion (axis q) (grid q n j), l := perAngle q n
    iotaN := t.iotaN, spsi := q.spsi, B0 := q.B0, etaBar := q.eta_bar, B20 := t.B20 j, B2s := q.B2s, B2c := q.B2c
    G0 := q.sG * q.B0 * perAngle q n, G2 := t.G2 + (t.iota - t.iotaN) * q.I2, I2 := q.I2, beta1s := t.beta1s
    p2mu0 := 4 / 10 ^ 7 * Real.pi * q.p2 }

/-- Equal up to second order. -/
structure Same2 (c e : Coef) : Prop where
  X1c : c.X1c = e.X1c
  Y1s : c.Y1s = e.Y1s
  Y1c : c.Y1c = e.Y1c
  X20 : c.X20 = e.X20
  X2s : c.X2s = e.X2s
  X2c : c.X2c = e.X2c
  Y20 : c.Y20 = e.Y20
  Y2s : c.Y2s = e.Y2s
  Y2c : c.Y2c = e.Y2c
  Z20 : c.Z20 = e.Z20
  Z2s : c.Z2s = e.Z2s
  Z2c : c.Z2c = e.Z2c

/-- The largest absolute value of several profiles. -/
def IsLargest (n : Nat) (l : List (String × (Nat → ℝ))) (g : (Nat → ℝ) → Nat → ℝ) (x : ℝ) : Prop :=
  IsGreatest {y | ∃ p ∈ l, ∃ j < n, y = |g p.2 j|} x

/-- `|grad psi|^2` at first order. -/
noncomputable def gradPsi2 (q : QscIn ℝ) (n : Nat) (t : Tables) (r : ℝ) (j : Nat) (θ : ℝ) : ℝ :=
  (q.B0 * r) ^ 2 * Mercier.gradR2 (X1c q n j) (Y1s q n j) (Y1c q n t j) θ

/-- The weights along the axis. -/
noncomputable def weight (q : QscIn ℝ) (n j : Nat) : ℝ := Axis.speed (axis q) (grid q n j)

/-- Positions and field strength of second order. -/
structure SecondVars (f : File ℝ) (q : QscIn ℝ) (n : Nat) (t : Tables) : Prop where
  tables : t.In f n
  /-- The component along the axis makes the surfaces of constant Boozer angle perpendicular to the field. -/
  Z20 : ∀ j < n, 8 * perAngle q n * t.Z20 j =
    -apply n t.D (fun k => X1c q n k ^ 2 + Y1c q n t k ^ 2 + Y1s q n k ^ 2) j
  Z2s : ∀ j < n, 8 * perAngle q n * t.Z2s j = -(apply n t.D (fun k => 2 * Y1s q n k * Y1c q n t k) j -
    2 * t.iotaN * (X1c q n j ^ 2 + Y1c q n t j ^ 2 - Y1s q n j ^ 2))
  Z2c : ∀ j < n, 8 * perAngle q n * t.Z2c j =
    -(apply n t.D (fun k => X1c q n k ^ 2 + Y1c q n t k ^ 2 - Y1s q n k ^ 2) j +
      2 * t.iotaN * (2 * Y1s q n j * Y1c q n t j))
  area : ∀ j < n, Area (point q n t j) (coefs q n t j)
  /-- The strength of the field is `B0 (1 + r etaBar cos theta) + r^2 (B20 + B2s sin 2 theta + B2c cos 2 theta)` up
  to third order. -/
  strength : ∀ j < n, ∀ c d, Same2 c (coefs q n t j) → Same2 d (dcoefs q n t j) → ∀ θ,
    Order 3 fun r => strength (point q n t j) c d r θ
  force : t.iotaN ≠ 0 → ∀ j < n, ∀ θ, Order 2 fun r => force (point q n t j) r θ
  B20_mean : Scalar f "B20_mean" (mean q n t.B20)
  B20_anomaly : Profile f "B20_anomaly" n fun j => t.B20 j - mean q n t.B20
  B20_residual : Scalar f "B20_residual" (Real.sqrt (mean q n fun j => (t.B20 j - mean q n t.B20) ^ 2) / q.B0)
  B20_grid_variation : ∃ x, Scalar f "B20_grid_variation" x ∧
    IsGreatest {y | ∃ j < n, ∃ k < n, y = t.B20 j - t.B20 k} x
  grid_max_XY2 : ∃ x, Scalar f "grid_max_XY2" x ∧ IsLargest n t.xy id x
  grid_max_Z2 : ∃ x, Scalar f "grid_max_Z2" x ∧ IsLargest n t.z id x
  grid_max_d_XY2_d_varphi : ∃ x, Scalar f "grid_max_d_XY2_d_varphi" x ∧ IsLargest n t.xy (apply n t.D) x
  grid_max_d_Z2_d_varphi : ∃ x, Scalar f "grid_max_d_Z2_d_varphi" x ∧ IsLargest n t.z (apply n t.D) x
  grid_max_d2_XY2_d_varphi2 : ∃ x, Scalar f "grid_max_d2_XY2_d_varphi2" x ∧
    IsLargest n t.xy (fun g => apply n t.D (apply n t.D g)) x

/-- Mercier's criterion. -/
structure MercierVars (f : File ℝ) (q : QscIn ℝ) (n : Nat) (t : Tables) : Prop where
  /-- The second derivative of the volume as a function of `psi`, up to the sign of `psi`: `dV/d|psi|` is an
  integral of the Jacobian over both angles. -/
  volume : ∃ v, Scalar f "d2_volume_d_psi2" v ∧
    let dV := fun r => Mercier.surf n (weight q n) fun j θ =>
      |G (point q n t j) r + t.iotaN * I (point q n t j) r| / B (point q n t j) r θ ^ 2
    Order 3 (fun r => dV r - (dV 0 + v * (q.B0 * r ^ 2 / 2))) ∧
    ∃ w g, Scalar f "DWell_times_r2" w ∧ Scalar f "DGeod_times_r2" g ∧ Scalar f "DMerc_times_r2" (w + g) ∧
      let sqrtg := |q.sG * q.B0 * perAngle q n| / q.B0 ^ 2
      (∀ r, r ≠ 0 → w = r ^ 2 * Mercier.well n (weight q n) sqrtg q.B0 (2 * (4 / 10 ^ 7 * Real.pi * q.p2) / q.B0) v
        (gradPsi2 q n t r)) ∧
      (t.iotaN ≠ 0 → ∀ c0 r, r ≠ 0 → g = r ^ 2 * Mercier.geod n (weight q n) sqrtg q.B0
        (fun _ θ => q.B0 ^ 2 * (c0 - r * t.beta1s * Real.cos θ)) (gradPsi2 q n t r))

/-- The second derivatives of the field on the axis. -/
structure TensorVars (f : File ℝ) (q : QscIn ℝ) (n : Nat) (t : Tables) : Prop where
  tensor : ∃ (M : Nat → Nat → Nat → ℝ) (T : Nat → Nat → Nat → Nat → ℝ) (L : Nat → ℝ),
    Tensor f "grad_B_tensor" n M ∧ Tensor3 f "grad_grad_B_tensor" n T ∧
    Profile f "L_grad_grad_B" n L ∧ Profile f "L_grad_grad_B_inverse" n (fun j => 1 / L j) ∧
    /- The field is its Taylor polynomial, if the matrix obeys the product rule for the constant `X1c Y1s`. -/
    (∀ j < n, apply n t.D (X1c q n) j * Y1s q n j + X1c q n j * apply n t.D (Y1s q n) j = 0 →
      ∀ c d, Same2 c (coefs q n t j) → Same2 d (dcoefs q n t j) → ∀ θ, ∀ k < 3, Order 3 fun r =>
        comp (fieldVec (point q n t j) c d r θ) k -
          taylor2 (onAxis (q.sG * q.B0)) (M j) (T j) (position c r θ) k) ∧
    (0 < q.B0 → ∀ j < n, 0 < L j ∧ L j ^ 2 * Real.sqrt (∑ l ∈ Finset.range 3, ∑ m ∈ Finset.range 3,
      ∑ k ∈ Finset.range 3, T j l m k ^ 2) = 4 * q.B0) ∧
    ∃ m, Scalar f "grid_min_L_grad_grad_B" m ∧ IsLeast {y | ∃ j < n, y = L j} m

/-- Where the coordinates become singular.  `tol` is the tolerance of the search. -/
structure SingularVars (f : File ℝ) (q : QscIn ℝ) (n : Nat) (t : Tables) (tol : ℝ) : Prop where
  radius : ∃ (g : Nat → Qsc.RSing.G ℝ) (ρ : Nat → ℝ) (m : ℝ),
    (∀ j < n, ∀ θ, Order 4 fun r =>
      jacobian (point q n t j) (coefs q n t j) (dcoefs q n t j) r θ - RSing.sqrtg (g j) r θ) ∧
    Profile f "r_hat_singularity_robust" n ρ ∧
    (∀ j < n, ρ j ≤ 10 ^ 30 ∧ (ρ j ≠ 10 ^ 30 → 0 < ρ j ∧
      ∃ θ, RSing.sqrtg (g j) (ρ j) θ = 0 ∧ |deriv (RSing.sqrtg (g j) (ρ j)) θ| < ρ j ^ 2 * tol)) ∧
    Scalar f "r_singularity_robust" m ∧ IsLeast {y | ∃ j < n, y = ρ j} m ∧
    Scalar f "beta" (min (-(4 / 10 ^ 7 * Real.pi * q.p2 * m ^ 2) / q.B0 ^ 2) (10 ^ 30))

/-- A profile of a product. -/
def Product (n : Nat) (D : Nat → Nat → ℝ) (g h : Nat → ℝ) (j : Nat) : Prop :=
  apply n D (fun k => g k * h k) j = g j * apply n D h j + h j * apply n D g j

/-- At this grid point the matrix obeys the product rule for the profiles of first order, and the sigma equation
holds. -/
structure Exact (q : QscIn ℝ) (n : Nat) (t : Tables) (j : Nat) : Prop where
  xx : Product n t.D (X1c q n) (X1c q n) j
  ss : Product n t.D (Y1s q n) (Y1s q n) j
  cc : Product n t.D (Y1c q n t) (Y1c q n t) j
  sc : Product n t.D (Y1s q n) (Y1c q n t) j
  product : Product n t.D (Y1s q n) t.sigma j
  sigma : R1.sigmaEq n t.D q.eta_bar (fun j => Axis.curvature (axis q) (grid q n j))
    (fun j => Axis.torsion (axis q) (grid q n j)) q.spsi (q.sG * q.B0 * perAngle q n) q.B0 q.I2 t.iotaN t.sigma j = 0

/-- Both forms of the field agree up to second order across the axis and up to first order along it, for some `Z`
of third order. -/
def Agree (q : QscIn ℝ) (n : Nat) (t : Tables) (j : Nat) : Prop :=
  ∃ s1 c1 s3 c3 : ℝ, ∀ c d : Coef, Same2 c (coefs q n t j) → Same2 d (dcoefs q n t j) →
    c.Z3s1 = s1 → c.Z3c1 = c1 → c.Z3s3 = s3 → c.Z3c3 = c3 → ∀ θ,
    (Order 3 fun r => (contra (point q n t j) c d r θ).n - (co (point q n t j) c d r θ).n) ∧
    (Order 3 fun r => (contra (point q n t j) c d r θ).b - (co (point q n t j) c d r θ).b) ∧
    (Order 2 fun r => (contra (point q n t j) c d r θ).t - (co (point q n t j) c d r θ).t)

/-- The part of third order: an area change of the first-order ellipse, such that both forms of the field along the
axis agree to second order in the average over `theta`. -/
structure ThirdVars (f : File ℝ) (q : QscIn ℝ) (n : Nat) (t : Tables) : Prop where
  lambda : ∃ l : Nat → ℝ, Profile f "lambda_for_XY3" n l ∧
    let X3c1 := fun j => X1c q n j * l j
    let Y3s1 := fun j => Y1s q n j * l j
    let Y3c1 := fun j => Y1c q n t j * l j
    let xy := [("X3c1", X3c1), ("Y3s1", Y3s1), ("Y3c1", Y3c1)]
    (∀ p ∈ xy, Smoothly f n t.D p) ∧
    (∀ j < n, Exact q n t j → ∀ c d, Same2 c (coefs q n t j) → Same2 d (dcoefs q n t j) → c.X3c1 = X3c1 j →
      c.Y3s1 = Y3s1 j → ∃ s k : ℝ, ∀ θ, Order 3 fun r =>
        (contra (point q n t j) c d r θ).t - (co (point q n t j) c d r θ).t -
          r ^ 2 * (s * Real.sin (2 * θ) + k * Real.cos (2 * θ))) ∧
    (∃ x, Scalar f "grid_max_XY3" x ∧ IsLargest n xy id x) ∧
    (∃ x, Scalar f "grid_max_d_XY3_d_varphi" x ∧ IsLargest n xy (apply n t.D) x) ∧
    ∃ x, Scalar f "grid_max_d2_XY3_d_varphi2" x ∧ IsLargest n xy (fun g => apply n t.D (apply n t.D g)) x
  /-- The other harmonics are written as zero. -/
  zeros : ∀ a ∈ ["X3s1", "X3s3", "X3c3", "Y3s3", "Y3c3"], Smoothly f n t.D (a, fun _ => 0)
  tangential : ∀ a ∈ ["Z3s1", "Z3s3", "Z3c1", "Z3c3"], Profile f a n fun _ => 0

end Qsc.Spec.Single
