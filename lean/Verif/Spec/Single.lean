import Verif.Spec.Netcdf
import Verif.Spec.Toml
import Verif.Model.Toml
import Verif.Spec.Axis
import Verif.Spec.DiffMat
import Verif.Spec.R1

/-!
# Specification of a single run

What a reader of the output file finds under a name, and what the input file says.  The dimensions of an array
are listed as netCDF lists them: the last one varies fastest.
-/

namespace Qsc.Spec.Single
open Qsc.Netcdf Qsc.Spec.Netcdf Qsc.Toml Qsc.Spec.Toml

variable {F : Type}

/-- The variable has these dimensions and these data. -/
def Holds (f : File F) (a : String) (dims : List (String × Nat)) (d : Data F) : Prop :=
  ∃ e ∈ contents f, e.name = a ∧ e.dims = dims ∧ e.data = some d

def Scalar (f : File F) (a : String) (x : F) : Prop := Holds f a [] (.flts [x])

def Integer (f : File F) (a : String) (x : Int) : Prop := Holds f a [] (.ints [x])

def Text (f : File F) (a : String) (s : String) : Prop := ∃ dims, Holds f a dims (.chars s.toList)

/-- One number per grid point. -/
def Profile (f : File F) (a : String) (n : Nat) (v : Nat → F) : Prop :=
  ∃ l, Holds f a [("nphi", n)] (.flts l) ∧ l.length = n ∧ ∀ j, j < n → l[j]? = some (v j)

/-- The coefficients of a Fourier series. -/
def Coefs (f : File F) (a : String) (l : List F) : Prop := Holds f a [("axis_nmax_plus_1", l.length)] (.flts l)

/-- A square matrix. -/
def Square (f : File F) (a : String) (n : Nat) (m : Nat → Nat → F) : Prop :=
  ∃ l, Holds f a [("nphi", n), ("nphi", n)] (.flts l) ∧ l.length = n * n ∧
    ∀ j k, j < n → k < n → l[j + n * k]? = some (m j k)

/-- A tensor with two indices at every grid point. -/
def Tensor (f : File F) (a : String) (n : Nat) (m : Nat → Nat → Nat → F) : Prop :=
  ∃ l, Holds f a [("normal_binormal_tangent", 3), ("normal_binormal_tangent", 3), ("nphi", n)] (.flts l) ∧
    l.length = n * 9 ∧ ∀ j b c, j < n → b < 3 → c < 3 → l[j + n * (b + 3 * c)]? = some (m j b c)

/-- A tensor with three indices at every grid point. -/
def Tensor3 (f : File F) (a : String) (n : Nat) (m : Nat → Nat → Nat → Nat → F) : Prop :=
  ∃ l, Holds f a [("normal_binormal_tangent", 3), ("normal_binormal_tangent", 3), ("normal_binormal_tangent", 3),
      ("nphi", n)] (.flts l) ∧
    l.length = n * 27 ∧
      ∀ j b c d, j < n → b < 3 → c < 3 → d < 3 → l[j + n * (b + 3 * (c + 3 * d))]? = some (m j b c d)

/-- The section `t` of the input file describes the configuration `r`, where `d` holds what is used for keys
that are not given. -/
def Describes (ofInt : Int → F) (zero : F) (t : Table F) (d r : QscIn F) : Prop :=
  (∀ k x, (k, x) ∈ t → k ∈ ["nphi", "nfp", "eta_bar", "spsi", "sG", "B0", "I2", "sigma0", "B2s", "B2c", "p2",
    "max_newton_iterations", "max_linesearch_iterations", "newton_tolerance", "verbose", "order_r_option", "R0c",
    "R0s", "Z0c", "Z0s"]) ∧
  Reads IsInt t "nphi" d.nphi r.nphi ∧ Reads IsInt t "nfp" d.nfp r.nfp ∧
  Reads (IsFloat ofInt) t "eta_bar" d.eta_bar r.eta_bar ∧ Reads IsInt t "spsi" d.spsi r.spsi ∧
  Reads IsInt t "sG" d.sG r.sG ∧ Reads (IsFloat ofInt) t "B0" d.B0 r.B0 ∧
  Reads (IsFloat ofInt) t "I2" d.I2 r.I2 ∧ Reads (IsFloat ofInt) t "sigma0" d.sigma0 r.sigma0 ∧
  Reads (IsFloat ofInt) t "B2s" d.B2s r.B2s ∧ Reads (IsFloat ofInt) t "B2c" d.B2c r.B2c ∧
  Reads (IsFloat ofInt) t "p2" d.p2 r.p2 ∧
  Reads IsInt t "max_newton_iterations" d.max_newton_iterations r.max_newton_iterations ∧
  Reads IsInt t "max_linesearch_iterations" d.max_linesearch_iterations r.max_linesearch_iterations ∧
  Reads (IsFloat ofInt) t "newton_tolerance" d.newton_tolerance r.newton_tolerance ∧
  Reads IsInt t "verbose" d.verbose r.verbose ∧
  Reads IsStr t "order_r_option" d.order_r_option r.order_r_option ∧
  ∃ R0c R0s Z0c Z0s : List F,
    Reads IsVector t "R0c" d.R0c R0c ∧ Reads IsVector t "R0s" d.R0s R0s ∧
    Reads IsVector t "Z0c" d.Z0c Z0c ∧ Reads IsVector t "Z0s" d.Z0s Z0s ∧
    let n := max (max R0c.length R0s.length) (max Z0c.length Z0s.length)
    PaddedTo zero n R0c r.R0c ∧ PaddedTo zero n R0s r.R0s ∧ PaddedTo zero n Z0c r.Z0c ∧ PaddedTo zero n Z0s r.Z0s

/-- The decimal literals that occur have their values. -/
def Literals (lit : String → ℝ) : Prop :=
  lit "-1.0" = -1 ∧ lit "0.0" = 0 ∧ lit "1.0" = 1 ∧ lit "1.0e-5" = 1 / 10 ^ 5 ∧ lit "1.0e-12" = 1 / 10 ^ 12

/-- The defaults: a circular axis of radius 1 with three field periods, calculated to first order. -/
noncomputable def defaults (single : Bool) : QscIn ℝ where
  nphi := 15
  nfp := 3
  eta_bar := -1
  spsi := 1
  sG := 1
  B0 := 1
  I2 := 0
  sigma0 := 0
  B2s := 0
  B2c := 0
  p2 := 0
  max_newton_iterations := 12
  max_linesearch_iterations := 4
  newton_tolerance := if single then 1 / 10 ^ 5 else 1 / 10 ^ 12
  verbose := 1
  order_r_option := "r1"
  R0c := [1]
  R0s := [0]
  Z0c := [0]
  Z0s := [0]

/-- The input file describes the configuration. -/
def Input (single : Bool) (file : List (String × Table ℝ)) (q : QscIn ℝ) : Prop :=
  ∃ t, ("qsc", t) ∈ file ∧ Describes (fun i => (i : ℝ)) 0 t (defaults single) q

/-- The configuration can be calculated: a known order, a grid, a positive number of field periods, and an
axis. -/
def Sound (q : QscIn ℝ) : Prop :=
  q.order_r_option ∈ ["r1", "r2", "r2.1"] ∧ 0 ≤ q.nphi ∧ 0 < q.nfp ∧ q.R0c ≠ []

/-- The number of grid points: that of the input, or one more to make it odd. -/
def Points (q : QscIn ℝ) (n : Nat) : Prop := (n : Int) = q.nphi ∧ n % 2 = 1 ∨ (n : Int) = q.nphi + 1 ∧ n % 2 = 1

/-! ## The axis -/

open Qsc.Spec.Axis

/-- `R` of the axis. -/
noncomputable def axisR (q : QscIn ℝ) : ℝ → ℝ :=
  fourier q.R0c.length q.nfp.toNat (fun n => q.R0c.getD n 0) fun n => q.R0s.getD n 0

/-- `Z` of the axis. -/
noncomputable def axisZ (q : QscIn ℝ) : ℝ → ℝ :=
  fourier q.R0c.length q.nfp.toNat (fun n => q.Z0c.getD n 0) fun n => q.Z0s.getD n 0

/-- The axis, in Cartesian coordinates. -/
noncomputable def axis (q : QscIn ℝ) : ℝ → V3 ℝ := curve (axisR q) (axisZ q)

/-- The grid. -/
noncomputable def grid (q : QscIn ℝ) (n j : Nat) : ℝ := 2 * Real.pi * j / (q.nfp * n)

/-- Average along the arc. -/
noncomputable def mean (q : QscIn ℝ) (n : Nat) (g : Nat → ℝ) : ℝ :=
  (∑ j ∈ Finset.range n, g j * speed (axis q) (grid q n j)) / ∑ j ∈ Finset.range n, speed (axis q) (grid q n j)

/-- The length of the axis, by the trapezoid rule. -/
noncomputable def length (q : QscIn ℝ) (n : Nat) : ℝ :=
  (∑ j ∈ Finset.range n, speed (axis q) (grid q n j)) * (2 * Real.pi / n)

/-- The radial direction. -/
noncomputable def eR (φ : ℝ) : V3 ℝ := ⟨Real.cos φ, Real.sin φ, 0⟩

/-- The variables of the output file that describe any axis. -/
structure AxisVars (f : File ℝ) (q : QscIn ℝ) (n : Nat) : Prop where
  phi : Profile f "phi" n (grid q n)
  d_phi : Scalar f "d_phi" (2 * Real.pi / (q.nfp * n))
  R0 : Profile f "R0" n fun j => axisR q (grid q n j)
  Z0 : Profile f "Z0" n fun j => axisZ q (grid q n j)
  R0p : Profile f "R0p" n fun j => deriv (axisR q) (grid q n j)
  Z0p : Profile f "Z0p" n fun j => deriv (axisZ q) (grid q n j)
  R0pp : Profile f "R0pp" n fun j => deriv (deriv (axisR q)) (grid q n j)
  Z0pp : Profile f "Z0pp" n fun j => deriv (deriv (axisZ q)) (grid q n j)
  R0ppp : Profile f "R0ppp" n fun j => deriv (deriv (deriv (axisR q))) (grid q n j)
  Z0ppp : Profile f "Z0ppp" n fun j => deriv (deriv (deriv (axisZ q))) (grid q n j)
  d_l_d_phi : Profile f "d_l_d_phi" n fun j => speed (axis q) (grid q n j)
  axis_length : Scalar f "axis_length" (length q n)
  grid_min_R0 : ∃ x, Scalar f "grid_min_R0" x ∧ IsLeast {y | ∃ j < n, y = axisR q (grid q n j)} x
  /-- The matrix differentiates every trigonometric polynomial that the grid resolves. -/
  d_d_phi : ∃ D : Nat → Nat → ℝ, Square f "d_d_phi" n D ∧ ∀ (a b : Nat → ℝ), ∀ j < n,
    let w := Spec.DiffMat.trigPoly (n / 2) (2 * Real.pi / q.nfp) a b
    HasDerivAt w (∑ k ∈ Finset.range n, D j k * w (grid q n k)) (grid q n j)

/-- The variables that describe an axis that does not meet the axis of symmetry. -/
structure RegularVars (f : File ℝ) (q : QscIn ℝ) (n : Nat) : Prop where
  d2_l_d_phi2 : Profile f "d2_l_d_phi2" n fun j => deriv (speed (axis q)) (grid q n j)
  curvature : Profile f "curvature" n fun j => curvature (axis q) (grid q n j)
  grid_max_curvature : ∃ x, Scalar f "grid_max_curvature" x ∧
    IsGreatest {y | ∃ j < n, y = Axis.curvature (axis q) (grid q n j)} x
  rms_curvature : Scalar f "rms_curvature" (Real.sqrt (mean q n fun j => Axis.curvature (axis q) (grid q n j) ^ 2))
  /-- The angle is the arc length, by the trapezoid rule, in units in which the whole axis measures `2 pi`. -/
  Boozer_toroidal_angle : Profile f "Boozer_toroidal_angle" n fun j => 2 * Real.pi / length q n *
    ∑ k ∈ Finset.range j, (grid q n (k + 1) - grid q n k) *
      ((speed (axis q) (grid q n k) + speed (axis q) (grid q n (k + 1))) / 2)
  d_l_d_varphi : Scalar f "d_l_d_varphi" (length q n / (2 * Real.pi))
  abs_G0_over_B0 : Scalar f "abs_G0_over_B0" (length q n / (2 * Real.pi))
  B0_over_abs_G0 : Scalar f "B0_over_abs_G0" (2 * Real.pi / length q n)
  G0 : Scalar f "G0" (q.sG * q.B0 * (length q n / (2 * Real.pi)))
  mean_R : Scalar f "mean_R" (mean q n fun j => axisR q (grid q n j))
  mean_Z : Scalar f "mean_Z" (mean q n fun j => axisZ q (grid q n j))
  standard_deviation_of_R : Scalar f "standard_deviation_of_R"
    (Real.sqrt (mean q n fun j => (axisR q (grid q n j) - mean q n fun j => axisR q (grid q n j)) ^ 2))
  standard_deviation_of_Z : Scalar f "standard_deviation_of_Z"
    (Real.sqrt (mean q n fun j => (axisZ q (grid q n j) - mean q n fun j => axisZ q (grid q n j)) ^ 2))
  /-- The matrix differentiates with respect to an angle `nu` that grows in proportion to the arc length. -/
  d_d_varphi : ∃ D : Nat → Nat → ℝ, Square f "d_d_varphi" n D ∧ ∀ (w nu : ℝ → ℝ) (a b : Nat → ℝ),
    (∀ φ, w (nu φ) = Spec.DiffMat.trigPoly (n / 2) (2 * Real.pi / q.nfp) a b φ) → ∀ j < n,
    HasDerivAt nu (2 * Real.pi / length q n * speed (axis q) (grid q n j)) (grid q n j) →
    DifferentiableAt ℝ w (nu (grid q n j)) →
    HasDerivAt w (∑ k ∈ Finset.range n, D j k * w (nu (grid q n k))) (nu (grid q n j))

/-- The variables that describe an axis that is nowhere straight. -/
structure CurvedVars (f : File ℝ) (q : QscIn ℝ) (n : Nat) : Prop where
  torsion : Profile f "torsion" n fun j => torsion (axis q) (grid q n j)
  /-- The helicity is the number of turns `w` of the normal about the axis, if it turns by less than a quarter
  between grid points. -/
  helicity : ∀ (ρ α : Nat → ℝ) (w : Int), (∀ j, 0 < ρ j) → (∀ j < n, |α (j + 1) - α j| < Real.pi / 2) →
    α n = α 0 + 2 * Real.pi * w →
    (∀ j < n, dot (normal (axis q) (grid q n j)) (eR (grid q n j)) = ρ j * Real.cos (α j) ∧
      (normal (axis q) (grid q n j)).z = ρ j * Real.sin (α j)) →
    Integer f "helicity" (w * (q.spsi * q.sG))

/-- The settings are repeated in the output file. -/
structure InputVars (f : File ℝ) (q : QscIn ℝ) (n : Nat) : Prop where
  nphi : Integer f "nphi" n
  nfp : Integer f "nfp" q.nfp
  sG : Integer f "sG" q.sG
  spsi : Integer f "spsi" q.spsi
  max_newton_iterations : Integer f "max_newton_iterations" q.max_newton_iterations
  max_linesearch_iterations : Integer f "max_linesearch_iterations" q.max_linesearch_iterations
  eta_bar : Scalar f "eta_bar" q.eta_bar
  sigma0 : Scalar f "sigma0" q.sigma0
  I2 : Scalar f "I2" q.I2
  B0 : Scalar f "B0" q.B0
  newton_tolerance : Scalar f "newton_tolerance" q.newton_tolerance
  second : q.order_r_option ≠ "r1" → Scalar f "B2c" q.B2c ∧ Scalar f "B2s" q.B2s ∧ Scalar f "p2" q.p2
  R0c : Coefs f "R0c" q.R0c
  R0s : Coefs f "R0s" q.R0s
  Z0c : Coefs f "Z0c" q.Z0c
  Z0s : Coefs f "Z0s" q.Z0s
  at_least_order_r2 : Integer f "at_least_order_r2" (if q.order_r_option = "r1" then 0 else 1)
  order_r2p1 : Integer f "order_r2.1" (if q.order_r_option = "r2.1" then 1 else 0)
  order_r3 : Integer f "order_r3" (if q.order_r_option = "r2.1" then 1 else 0)
  order_r_option : Text f "order_r_option" q.order_r_option
  general_option : Text f "general_option" "single"

/-! ## First order -/

/-- `X1c = etabar / kappa`. -/
noncomputable def X1c (q : QscIn ℝ) (n j : Nat) : ℝ := q.eta_bar / Axis.curvature (axis q) (grid q n j)

/-- `Y1s = sG spsi kappa / etabar`. -/
noncomputable def Y1s (q : QscIn ℝ) (n j : Nat) : ℝ := q.sG * q.spsi * Axis.curvature (axis q) (grid q n j) / q.eta_bar

/-- A matrix applied to the values at the grid points. -/
def apply (n : Nat) (D : Nat → Nat → ℝ) (g : Nat → ℝ) (j : Nat) : ℝ := ∑ k ∈ Finset.range n, D j k * g k

/-- The gradient of the field on the axis (Landreman 2021, eq. (3.12)), indices in the order normal, binormal,
tangent.  `dl` is `d l / d varphi`, `g` stands for `sG B0`, primes are derivatives with respect to `varphi`. -/
structure GradB (g : ℝ) (spsi B0 dl kappa tau iotaN X1c Y1s Y1c X1c' Y1s' Y1c' : ℝ) (T : Nat → Nat → ℝ) : Prop where
  nn : T 0 0 = spsi * B0 / dl * (X1c' * Y1s + iotaN * X1c * Y1c)
  bb : T 1 1 = spsi * B0 / dl * (X1c * Y1s' - iotaN * X1c * Y1c)
  nb : T 0 1 = spsi * B0 / dl * (Y1c' * Y1s - Y1s' * Y1c + iotaN * (Y1s ^ 2 + Y1c ^ 2)) + g * spsi ^ 2 * tau
  bn : T 1 0 = -(spsi * B0 / dl * (iotaN * X1c ^ 2)) - g * spsi ^ 2 * tau
  nt : T 0 2 = g * kappa
  tn : T 2 0 = g * kappa
  bt : T 1 2 = 0
  tb : T 2 1 = 0
  tt : T 2 2 = 0

/-- Sum of the squares of the components. -/
def normSq (T : Nat → Nat → ℝ) : ℝ := ∑ b ∈ Finset.range 3, ∑ c ∈ Finset.range 3, T b c ^ 2

/-- The variables of first order. -/
def FirstVars (f : File ℝ) (q : QscIn ℝ) (n : Nat) : Prop :=
  ∃ (sigma : Nat → ℝ) (iota : ℝ) (h : Int) (D : Nat → Nat → ℝ),
    Profile f "sigma" n sigma ∧ sigma 0 = q.sigma0 ∧ Scalar f "iota" iota ∧ Integer f "helicity" h ∧
    Square f "d_d_varphi" n D ∧
    let iotaN := iota + h * q.nfp
    let Y1c := fun j => Y1s q n j * sigma j
    Scalar f "iota_N" iotaN ∧ Profile f "X1c" n (X1c q n) ∧ Profile f "Y1s" n (Y1s q n) ∧ Profile f "Y1c" n Y1c ∧
    Profile f "d_X1c_d_varphi" n (apply n D (X1c q n)) ∧ Profile f "d_Y1s_d_varphi" n (apply n D (Y1s q n)) ∧
    Profile f "d_Y1c_d_varphi" n (apply n D Y1c) ∧
    (∃ e, Profile f "elongation" n e ∧ (∀ j < n, R1.IsElongation (X1c q n j) (Y1s q n j) (Y1c j) (e j)) ∧
      (∃ m, Scalar f "grid_max_elongation" m ∧ IsGreatest {y | ∃ j < n, y = e j} m) ∧
      Scalar f "mean_elongation" (mean q n e)) ∧
    ∃ T L : Nat → _, Tensor f "grad_B_tensor" n T ∧
      (∀ j < n, GradB (q.sG * q.B0) q.spsi q.B0 (length q n / (2 * Real.pi)) (Axis.curvature (axis q) (grid q n j))
        (Axis.torsion (axis q) (grid q n j)) iotaN (X1c q n j) (Y1s q n j) (Y1c j) (apply n D (X1c q n) j)
        (apply n D (Y1s q n) j) (apply n D Y1c j) (T j)) ∧
      Profile f "L_grad_B" n L ∧ (∀ j < n, L j = q.B0 * Real.sqrt (2 / normSq (T j))) ∧
      Profile f "L_grad_B_inverse" n (fun j => 1 / L j) ∧
      ∃ m, Scalar f "grid_min_L_grad_B" m ∧ IsLeast {y | ∃ j < n, y = L j} m

/-- Sum of the squares of the residuals of the sigma equation. -/
noncomputable def sigmaSum (q : QscIn ℝ) (n : Nat) (D : Nat → Nat → ℝ) (iotaN : ℝ) (sigma : Nat → ℝ) : ℝ :=
  ∑ j ∈ Finset.range n, R1.sigmaEq n D q.eta_bar (fun j => Axis.curvature (axis q) (grid q n j))
    (fun j => Axis.torsion (axis q) (grid q n j)) q.spsi (q.sG * q.B0 * (length q n / (2 * Real.pi))) q.B0 q.I2 iotaN
    sigma j ^ 2

end Qsc.Spec.Single
