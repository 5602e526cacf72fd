import Verif.Spec.Single

/-!
# Specification of a change of units

The unit of length is divided by `a`, the unit of the field strength by `b`: lengths are multiplied by `a`, field
strengths by `b`.  The vacuum permeability keeps its value, so pressures are multiplied by `b ^ 2`, and currents,
which the code multiplies by the permeability, by `a * b`.
-/

namespace Qsc.Spec.Scaling
open Qsc.Netcdf Qsc.Toml Qsc.Spec.Single

/-- The configuration `q` in the other units.  `eta_bar` is an inverse length; `I2`, `p2`, `B2c`, `B2s` are
coefficients of the square of the distance to the axis.  `sigma0`, the numbers of points and periods, the signs and
the settings of the solver have no unit; `verbose` is free. -/
def InUnits (a b : ℝ) (q q' : QscIn ℝ) : Prop :=
  q' = { q with
    R0c := q.R0c.map (a * ·), R0s := q.R0s.map (a * ·), Z0c := q.Z0c.map (a * ·), Z0s := q.Z0s.map (a * ·)
    eta_bar := q.eta_bar / a, B0 := b * q.B0, I2 := b / a * q.I2, p2 := (b / a) ^ 2 * q.p2
    B2c := b / a ^ 2 * q.B2c, B2s := b / a ^ 2 * q.B2s, verbose := q'.verbose }

/-- A linear solver whose answer is multiplied by the same number as the right-hand side.  So does elimination in
exact arithmetic, as its pivots depend on the matrix only. -/
def Homogeneous (gesv : Nat → (Nat → Nat → ℝ) → (Nat → ℝ) → Option (Nat → ℝ)) : Prop :=
  ∀ c > 0, ∀ n m y x, gesv n m y = some x → gesv n m (fun j => c * y j) = some fun j => c * x j

/-- The numbers of the variable in the second file are `c` times those in the first file; the dimensions are the
same. -/
def Multiplied (f f' : File ℝ) (c : ℝ) (v : String) : Prop :=
  ∃ dims l, Holds f v dims (.flts l) ∧ Holds f' v dims (.flts (l.map (c * ·)))

/-- The variable is the same in both files. -/
def Unchanged (f f' : File ℝ) (v : String) : Prop :=
  (∃ x, Integer f v x ∧ Integer f' v x) ∨ ∃ s, Text f v s ∧ Text f' v s

/-- Variables of every file, with the powers of the unit of length and of the unit of field strength. -/
def units1 : List (String × Int × Int) :=
  [("eta_bar", -1, 0), ("sigma0", 0, 0), ("I2", -1, 1), ("B0", 0, 1), ("newton_tolerance", 0, 0),
   ("R0c", 1, 0), ("R0s", 1, 0), ("Z0c", 1, 0), ("Z0s", 1, 0),
   ("d_phi", 0, 0), ("B0_over_abs_G0", -1, 0), ("abs_G0_over_B0", 1, 0), ("d_l_d_varphi", 1, 0), ("G0", 1, 1),
   ("grid_min_R0", 1, 0), ("axis_length", 1, 0), ("grid_max_curvature", -1, 0), ("rms_curvature", -1, 0),
   ("mean_R", 1, 0), ("mean_Z", 1, 0), ("standard_deviation_of_R", 1, 0), ("standard_deviation_of_Z", 1, 0),
   ("iota", 0, 0), ("iota_N", 0, 0), ("grid_max_elongation", 0, 0), ("mean_elongation", 0, 0),
   ("grid_min_L_grad_B", 1, 0),
   ("phi", 0, 0), ("R0", 1, 0), ("Z0", 1, 0), ("R0p", 1, 0), ("Z0p", 1, 0), ("R0pp", 1, 0), ("Z0pp", 1, 0),
   ("R0ppp", 1, 0), ("Z0ppp", 1, 0), ("d_l_d_phi", 1, 0), ("d2_l_d_phi2", 1, 0), ("curvature", -1, 0),
   ("torsion", -1, 0), ("Boozer_toroidal_angle", 0, 0), ("sigma", 0, 0), ("X1c", 0, 0), ("Y1s", 0, 0), ("Y1c", 0, 0),
   ("elongation", 0, 0), ("d_X1c_d_varphi", 0, 0), ("d_Y1s_d_varphi", 0, 0), ("d_Y1c_d_varphi", 0, 0),
   ("L_grad_B", 1, 0), ("L_grad_B_inverse", -1, 0),
   ("d_d_phi", 0, 0), ("d_d_varphi", 0, 0), ("grad_B_tensor", -1, 1)]

/-- Variables that a file of second order has in addition, without the results of the search for singularities. -/
def units2 : List (String × Int × Int) :=
  [("B2c", -2, 1), ("B2s", -2, 1), ("p2", -2, 2),
   ("G2", -1, 1), ("beta_1s", -2, 0), ("B20_mean", -2, 1), ("B20_residual", -2, 0), ("B20_grid_variation", -2, 1),
   ("d2_volume_d_psi2", -1, -2), ("DGeod_times_r2", -2, -2), ("DWell_times_r2", -2, -2), ("DMerc_times_r2", -2, -2),
   ("grid_min_L_grad_grad_B", 1, 0), ("grid_max_XY2", -1, 0), ("grid_max_Z2", -1, 0),
   ("grid_max_d_XY2_d_varphi", -1, 0), ("grid_max_d_Z2_d_varphi", -1, 0), ("grid_max_d2_XY2_d_varphi2", -1, 0),
   ("X20", -1, 0), ("X2s", -1, 0), ("X2c", -1, 0), ("Y20", -1, 0), ("Y2s", -1, 0), ("Y2c", -1, 0), ("Z20", -1, 0),
   ("Z2s", -1, 0), ("Z2c", -1, 0), ("B20", -2, 1), ("B20_anomaly", -2, 1),
   ("d_X20_d_varphi", -1, 0), ("d_X2s_d_varphi", -1, 0), ("d_X2c_d_varphi", -1, 0), ("d_Y20_d_varphi", -1, 0),
   ("d_Y2s_d_varphi", -1, 0), ("d_Y2c_d_varphi", -1, 0), ("d_Z20_d_varphi", -1, 0), ("d_Z2s_d_varphi", -1, 0),
   ("d_Z2c_d_varphi", -1, 0), ("d2_X20_d_varphi2", -1, 0), ("d2_X2s_d_varphi2", -1, 0), ("d2_X2c_d_varphi2", -1, 0),
   ("d2_Y20_d_varphi2", -1, 0), ("d2_Y2s_d_varphi2", -1, 0), ("d2_Y2c_d_varphi2", -1, 0),
   ("d2_Z20_d_varphi2", -1, 0), ("d2_Z2s_d_varphi2", -1, 0), ("d2_Z2c_d_varphi2", -1, 0),
   ("L_grad_grad_B", 1, 0), ("L_grad_grad_B_inverse", -1, 0), ("grad_grad_B_tensor", -2, 1)]

/-- The results of the search for singularities. -/
def singular : List String := ["r_singularity_robust", "beta", "r_hat_singularity_robust"]

/-- Variables that a file of order r2.1 has in addition. -/
def units3 : List (String × Int × Int) :=
  [("grid_max_XY3", -2, 0), ("grid_max_d_XY3_d_varphi", -2, 0), ("grid_max_d2_XY3_d_varphi2", -2, 0),
   ("lambda_for_XY3", -2, 0), ("X3c1", -2, 0), ("Y3c1", -2, 0), ("Y3s1", -2, 0),
   ("d_X3c1_d_varphi", -2, 0), ("d_Y3c1_d_varphi", -2, 0), ("d_Y3s1_d_varphi", -2, 0),
   ("d2_X3c1_d_varphi2", -2, 0), ("d2_Y3c1_d_varphi2", -2, 0), ("d2_Y3s1_d_varphi2", -2, 0)]

/-- Variables that are no physical quantities. -/
def labels : List String :=
  ["nphi", "nfp", "sG", "spsi", "max_newton_iterations", "max_linesearch_iterations", "helicity",
   "at_least_order_r2", "order_r2.1", "order_r3", "order_r_option", "general_option"]

/-- The second file is the first one in the other units. -/
structure SameInUnits (a b : ℝ) (order : String) (f f' : File ℝ) : Prop where
  labels : ∀ v ∈ labels, Unchanged f f' v
  first : ∀ u ∈ units1, Multiplied f f' (a ^ u.2.1 * b ^ u.2.2) u.1
  second : order ≠ "r1" → ∀ u ∈ units2, Multiplied f f' (a ^ u.2.1 * b ^ u.2.2) u.1
  third : order = "r2.1" → ∀ u ∈ units3, Multiplied f f' (a ^ u.2.1 * b ^ u.2.2) u.1
  singular : order ≠ "r1" → a = 1 → ∀ v ∈ singular, Multiplied f f' 1 v

end Qsc.Spec.Scaling
