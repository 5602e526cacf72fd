import Verif.Model.Output
import Verif.Spec.Netcdf

/-!
# What the output files hold, and what reading one back restores

The members of each class with their types and sizes, and which C++ expression a variable of a file is named
after.
-/

namespace Qsc.Spec.Output
open Qsc.Netcdf Qsc.Output Qsc.Spec.Netcdf

variable {F : Type}

/-- The type and size of a member.  Sizes are products of numbered dimensions. -/
inductive Shape where
  | int
  | flt
  | str
  | ints (ds : List Nat)
  | flts (ds : List Nat)
  | atLeast (ds : List Nat)
  | intsAtLeast (ds : List Nat)
  deriving DecidableEq

/-- The member has that type and size; `len` gives the lengths of the dimensions.  Strings are not empty. -/
def Fits (m : Mem F) (len : Nat → Nat) (a : String) : Shape → Prop
  | .int => ∃ x, m a = .ints [x]
  | .flt => ∃ x, m a = .flts [x]
  | .str => ∃ l, m a = .chars l ∧ l ≠ []
  | .ints ds => ∃ l, m a = .ints l ∧ l.length = (ds.map len).prod
  | .flts ds => ∃ l, m a = .flts l ∧ l.length = (ds.map len).prod
  | .atLeast ds => ∃ l, m a = .flts l ∧ (ds.map len).prod ≤ l.length
  | .intsAtLeast ds => ∃ l, m a = .ints l ∧ (ds.map len).prod ≤ l.length

def all (s : Shape) (l : List String) : List (String × Shape) := l.map fun a => (a, s)

/-- The members of a `Qsc` (qsc.hpp): dimensions are 0 `nphi`, 1 the number of axis coefficients, 2 three. -/
def qscMembers (fl : Flags) : List (String × Shape) :=
  all .int
    ["nphi", "nfp", "sG", "spsi", "helicity", "max_newton_iterations", "max_linesearch_iterations"] ++
  all .flt
    ["eta_bar", "sigma0", "B2c", "B2s", "I2", "p2", "d_phi", "B0", "G0", "B0_over_abs_G0", "abs_G0_over_B0",
     "d_l_d_varphi", "axis_length", "rms_curvature", "mean_R", "mean_Z", "standard_deviation_of_R",
     "standard_deviation_of_Z", "newton_tolerance", "grid_min_R0", "G2", "I2_over_B0", "iota", "iota_N",
     "grid_max_curvature", "grid_max_elongation", "mean_elongation", "grid_min_L_grad_B",
     "grid_min_L_grad_grad_B", "beta_1s", "B20_mean", "B20_residual", "B20_grid_variation",
     "d2_volume_d_psi2", "DGeod_times_r2", "DWell_times_r2", "DMerc_times_r2", "r_singularity_robust",
     "beta", "grid_max_XY2", "grid_max_Z2", "grid_max_XY3", "grid_max_d_XY2_d_varphi",
     "grid_max_d_Z2_d_varphi", "grid_max_d_XY3_d_varphi", "grid_max_d2_XY2_d_varphi2",
     "grid_max_d2_XY3_d_varphi2"] ++
  all .str
    ["order_r_option"] ++
  all (.flts [0])
    ["phi", "R0", "Z0", "R0p", "Z0p", "R0pp", "Z0pp", "R0ppp", "Z0ppp", "curvature", "torsion", "sinangle",
     "cosangle", "d_l_d_phi", "d2_l_d_phi2", "tangent_cylindrical1", "tangent_cylindrical2",
     "tangent_cylindrical3", "normal_cylindrical1", "normal_cylindrical2", "normal_cylindrical3",
     "binormal_cylindrical1", "binormal_cylindrical2", "binormal_cylindrical3",
     "d_tangent_d_l_cylindrical1", "d_tangent_d_l_cylindrical2", "d_tangent_d_l_cylindrical3", "tempvec",
     "tempvec1", "tempvec2", "tempvec3", "torsion_numerator", "torsion_denominator",
     "Boozer_toroidal_angle", "etabar_squared_over_curvature_squared", "X1s", "X1c", "Y1s", "Y1c", "sigma",
     "elongation", "state", "residual", "work1", "work2", "d_X1c_d_varphi", "d_Y1s_d_varphi",
     "d_Y1c_d_varphi", "L_grad_B", "L_grad_B_inverse"] ++
  (if fl.r2 then all (.flts [0])
    ["B20", "B20_anomaly", "X20", "X2s", "X2c", "Y20", "Y2s", "Y2c", "Z20", "Z2s", "Z2c", "V1", "V2", "V3",
     "rs", "rc", "qs", "qc", "Y2s_from_X20", "Y2s_inhomogeneous", "Y2c_from_X20", "Y2c_inhomogeneous",
     "fX0_from_X20", "fX0_from_Y20", "fX0_inhomogeneous", "fXs_from_X20", "fXs_from_Y20",
     "fXs_inhomogeneous", "fXc_from_X20", "fXc_from_Y20", "fXc_inhomogeneous", "fY0_from_X20",
     "fY0_from_Y20", "fY0_inhomogeneous", "fYs_from_X20", "fYs_from_Y20", "fYs_inhomogeneous",
     "fYc_from_X20", "fYc_from_Y20", "fYc_inhomogeneous", "d_curvature_d_varphi", "d_torsion_d_varphi",
     "d_X20_d_varphi", "d_X2s_d_varphi", "d_X2c_d_varphi", "d_Y20_d_varphi", "d_Y2s_d_varphi",
     "d_Y2c_d_varphi", "d_Z20_d_varphi", "d_Z2s_d_varphi", "d_Z2c_d_varphi", "d2_X1c_d_varphi2",
     "d2_Y1c_d_varphi2", "d2_Y1s_d_varphi2", "d2_X20_d_varphi2", "d2_X2s_d_varphi2", "d2_X2c_d_varphi2",
     "d2_Y20_d_varphi2", "d2_Y2s_d_varphi2", "d2_Y2c_d_varphi2", "d2_Z20_d_varphi2", "d2_Z2s_d_varphi2",
     "d2_Z2c_d_varphi2", "L_grad_grad_B", "L_grad_grad_B_inverse", "r_hat_singularity_robust"] else []) ++
  (if fl.r2p1 then all (.flts [0])
    ["lambda_for_XY3"] else []) ++
  (if fl.r3 then all (.flts [0])
    ["X3c1", "X3c3", "X3s1", "X3s3", "Y3c1", "Y3c3", "Y3s1", "Y3s3", "Z3c1", "Z3c3", "Z3s1", "Z3s3",
     "d_X3c1_d_varphi", "d_X3c3_d_varphi", "d_X3s1_d_varphi", "d_X3s3_d_varphi", "d_Y3c1_d_varphi",
     "d_Y3c3_d_varphi", "d_Y3s1_d_varphi", "d_Y3s3_d_varphi", "d2_X3c1_d_varphi2", "d2_X3c3_d_varphi2",
     "d2_X3s1_d_varphi2", "d2_X3s3_d_varphi2", "d2_Y3c1_d_varphi2", "d2_Y3c3_d_varphi2",
     "d2_Y3s1_d_varphi2", "d2_Y3s3_d_varphi2"] else []) ++
  all (.flts [1])
    ["R0c"] ++
  all (.atLeast [1])
    ["R0s", "Z0c", "Z0s"] ++
  all (.flts [0, 0])
    ["d_d_phi", "d_d_varphi"] ++
  all (.flts [0, 2, 2])
    ["grad_B_tensor"] ++
  (if fl.r2 then all (.flts [0, 2, 2, 2])
    ["grad_grad_B_tensor"] else [])

/-- The members of an `Opt` (opt.hpp): dimensions are 0 the number of axis coefficients, 1 the number of
iterations; the arrays are allocated with room for `max_iter` iterations. -/
def optMembers : List (String × Shape) :=
  all .int
    ["n_iter", "n_evals"] ++
  all .flt
    ["weight_B20", "weight_iota", "target_iota", "weight_elongation", "weight_curvature", "weight_R0",
     "min_R0", "weight_d2_volume_d_psi2", "max_d2_volume_d_psi2", "weight_DMerc_times_r2",
     "min_DMerc_times_r2", "weight_XY2", "weight_XY2Prime", "weight_XY2PrimePrime", "weight_Z2",
     "weight_Z2Prime", "weight_XY3", "weight_XY3Prime", "weight_XY3PrimePrime", "weight_grad_B",
     "weight_grad_grad_B", "weight_r_singularity", "weight_axis_length", "target_axis_length",
     "weight_standard_deviation_of_R", "weight_B20_mean"] ++
  all (.intsAtLeast [1])
    ["iter_fourier_refine_step"] ++
  all (.atLeast [1])
    ["iter_objective_function", "iter_B20_term", "iter_iota_term", "iter_elongation_term",
     "iter_curvature_term", "iter_R0_term", "iter_d2_volume_d_psi2_term", "iter_DMerc_times_r2_term",
     "iter_XY2_term", "iter_XY2Prime_term", "iter_XY2PrimePrime_term", "iter_Z2_term", "iter_Z2Prime_term",
     "iter_XY3_term", "iter_XY3Prime_term", "iter_XY3PrimePrime_term", "iter_grad_B_term",
     "iter_grad_grad_B_term", "iter_r_singularity_term", "iter_axis_length_term",
     "iter_standard_deviation_of_R_term", "iter_B20_mean_term", "iter_eta_bar", "iter_sigma0", "iter_B2s",
     "iter_B2c", "iter_min_R0", "iter_max_curvature", "iter_iota", "iter_max_elongation",
     "iter_min_L_grad_B", "iter_min_L_grad_grad_B", "iter_r_singularity", "iter_B20_variation",
     "iter_B20_residual", "iter_d2_volume_d_psi2", "iter_DMerc_times_r2", "iter_standard_deviation_of_R",
     "iter_standard_deviation_of_Z", "iter_axis_length"] ++
  all (.atLeast [0, 1])
    ["iter_R0c", "iter_R0s", "iter_Z0c", "iter_Z0s"]

/-- The members of a `Scan` (scan.hpp) and of its `q`: dimensions are 0 `nphi`, 1 the number of axis
coefficients, 2 the number of configurations kept. -/
def scanMembers : List (String × Shape) :=
  all .int
    ["q.nfp", "q.nphi", "q.sG", "q.spsi", "q.max_newton_iterations", "q.max_linesearch_iterations",
     "helicity_to_keep"] ++
  all .flt
    ["eta_bar_min", "eta_bar_max", "sigma0_min", "sigma0_max", "B2s_min", "B2s_max", "B2c_min", "B2c_max",
     "p2_min", "p2_max", "max_seconds", "save_period", "min_R0_to_keep", "min_iota_to_keep",
     "max_elongation_to_keep", "min_L_grad_B_to_keep", "min_L_grad_grad_B_to_keep",
     "max_B20_variation_to_keep", "min_r_singularity_to_keep", "max_d2_volume_d_psi2_to_keep",
     "min_DMerc_times_r2_to_keep", "min_beta_to_keep", "q.newton_tolerance", "q.I2", "q.d_phi", "q.B0",
     "q.p2"] ++
  all .flt
    ["filter_fractions[ATTEMPTS]", "filter_fractions[KEPT]", "filter_fractions[REJECTED_DUE_TO_R0_CRUDE]",
     "filter_fractions[REJECTED_DUE_TO_R0]", "filter_fractions[REJECTED_DUE_TO_HELICITY]",
     "filter_fractions[REJECTED_DUE_TO_CURVATURE]", "filter_fractions[REJECTED_DUE_TO_IOTA]",
     "filter_fractions[REJECTED_DUE_TO_ELONGATION]", "filter_fractions[REJECTED_DUE_TO_L_GRAD_B]",
     "filter_fractions[REJECTED_DUE_TO_B20_VARIATION]", "filter_fractions[REJECTED_DUE_TO_L_GRAD_GRAD_B]",
     "filter_fractions[REJECTED_DUE_TO_D2_VOLUME_D_PSI2]", "filter_fractions[REJECTED_DUE_TO_DMERC]",
     "filter_fractions[REJECTED_DUE_TO_R_SINGULARITY]", "filter_fractions[REJECTED_DUE_TO_BETA]",
     "filter_fractions[N_SIGMA_EQ_SOLVES]", "filter_fractions[N_R2_SOLVES]"] ++
  all .str
    ["eta_bar_scan_option", "sigma0_scan_option", "B2s_scan_option", "B2c_scan_option",
     "fourier_scan_option", "p2_scan_option", "q.order_r_option"] ++
  all (.flts [0])
    ["q.phi"] ++
  all (.flts [1])
    ["R0c_min", "R0c_max", "R0s_min", "R0s_max", "Z0c_min", "Z0c_max", "Z0s_min", "Z0s_max"] ++
  all (.flts [2])
    ["scan_eta_bar", "scan_sigma0", "scan_B2c", "scan_B2s", "scan_p2", "scan_axis_length", "scan_min_R0",
     "scan_max_curvature", "scan_iota", "scan_max_elongation", "scan_min_L_grad_B",
     "scan_min_L_grad_grad_B", "scan_r_singularity", "scan_d2_volume_d_psi2", "scan_DMerc_times_r2",
     "scan_B20_variation", "scan_B20_residual", "scan_standard_deviation_of_R",
     "scan_standard_deviation_of_Z", "scan_beta"] ++
  all (.ints [2])
    ["scan_helicity"] ++
  all (.flts [1, 2])
    ["scan_R0c", "scan_R0s", "scan_Z0c", "scan_Z0s"]

/-- The members of a `MultiOptScan` (multiopt_scan.hpp) and of its first reference configuration: dimensions
are 0 the number of axis coefficients, 1 the number of configurations kept. -/
def multioptMembers : List (String × Shape) :=
  all .int
    ["mo_ref.opts[0].q.nfp", "mo_ref.opts[0].q.sG", "mo_ref.opts[0].q.spsi",
     "mo_ref.opts[0].q.max_newton_iterations", "mo_ref.opts[0].q.max_linesearch_iterations",
     "axis_nmax_plus_1", "n_scan"] ++
  all .int
    ["filters[ATTEMPTS]", "filters[KEPT]", "filters[REJECTED_DUE_TO_R0]", "filters[REJECTED_DUE_TO_IOTA]",
     "filters[REJECTED_DUE_TO_ELONGATION]", "filters[REJECTED_DUE_TO_L_GRAD_B]",
     "filters[REJECTED_DUE_TO_B20_VARIATION]", "filters[REJECTED_DUE_TO_L_GRAD_GRAD_B]",
     "filters[REJECTED_DUE_TO_D2_VOLUME_D_PSI2]", "filters[REJECTED_DUE_TO_DMERC]",
     "filters[REJECTED_DUE_TO_R_SINGULARITY]", "filters[REJECTED_DUE_TO_MAX_XY2]",
     "filters[REJECTED_DUE_TO_MAX_Z2]", "filters[REJECTED_DUE_TO_MAX_XY3]",
     "filters[REJECTED_DUE_TO_MAX_D_XY2_D_VARPHI]", "filters[REJECTED_DUE_TO_MAX_D_Z2_D_VARPHI]",
     "filters[REJECTED_DUE_TO_MAX_D_XY3_D_VARPHI]"] ++
  all .flt
    ["max_seconds", "print_status_period", "save_period", "min_R0_to_keep", "min_iota_to_keep",
     "max_elongation_to_keep", "min_L_grad_B_to_keep", "min_L_grad_grad_B_to_keep",
     "max_B20_variation_to_keep", "min_r_singularity_to_keep", "max_d2_volume_d_psi2_to_keep",
     "min_DMerc_times_r2_to_keep", "max_XY2_to_keep", "max_Z2_to_keep", "max_XY3_to_keep",
     "max_d_XY2_d_varphi_to_keep", "max_d_Z2_d_varphi_to_keep", "max_d_XY3_d_varphi_to_keep",
     "total_cpu_seconds", "mo_ref.opts[0].q.newton_tolerance", "mo_ref.opts[0].q.I2", "mo_ref.opts[0].q.B0",
     "mo_ref.opts[0].q.p2"] ++
  all .flt
    ["filter_fractions[ATTEMPTS]", "filter_fractions[KEPT]", "filter_fractions[REJECTED_DUE_TO_R0]",
     "filter_fractions[REJECTED_DUE_TO_IOTA]", "filter_fractions[REJECTED_DUE_TO_ELONGATION]",
     "filter_fractions[REJECTED_DUE_TO_L_GRAD_B]", "filter_fractions[REJECTED_DUE_TO_B20_VARIATION]",
     "filter_fractions[REJECTED_DUE_TO_L_GRAD_GRAD_B]",
     "filter_fractions[REJECTED_DUE_TO_D2_VOLUME_D_PSI2]", "filter_fractions[REJECTED_DUE_TO_DMERC]",
     "filter_fractions[REJECTED_DUE_TO_R_SINGULARITY]", "filter_fractions[REJECTED_DUE_TO_MAX_XY2]",
     "filter_fractions[REJECTED_DUE_TO_MAX_Z2]", "filter_fractions[REJECTED_DUE_TO_MAX_XY3]",
     "filter_fractions[REJECTED_DUE_TO_MAX_D_XY2_D_VARPHI]",
     "filter_fractions[REJECTED_DUE_TO_MAX_D_Z2_D_VARPHI]",
     "filter_fractions[REJECTED_DUE_TO_MAX_D_XY3_D_VARPHI]"] ++
  all (.flts [1])
    ["scan_eta_bar", "scan_sigma0", "scan_B2c", "scan_B2s", "scan_min_R0", "scan_max_curvature",
     "scan_iota", "scan_max_elongation", "scan_min_L_grad_B", "scan_min_L_grad_grad_B",
     "scan_r_singularity", "scan_d2_volume_d_psi2", "scan_DMerc_times_r2", "scan_B20_variation",
     "scan_B20_residual", "scan_B20_mean", "scan_standard_deviation_of_R", "scan_standard_deviation_of_Z",
     "scan_max_XY2", "scan_max_Z2", "scan_max_XY3", "scan_max_d_XY2_d_varphi", "scan_max_d_Z2_d_varphi",
     "scan_max_d_XY3_d_varphi", "scan_max_d2_XY2_d_varphi2", "scan_max_d2_XY3_d_varphi2",
     "scan_axis_length", "scan_p2", "scan_initial_eta_bar", "scan_initial_B2c", "scan_initial_B2s",
     "scan_weight_B20", "scan_weight_iota", "scan_target_iota", "scan_weight_elongation",
     "scan_weight_curvature", "scan_weight_R0", "scan_target_min_R0", "scan_weight_d2_volume_d_psi2",
     "scan_max_d2_volume_d_psi2", "scan_weight_DMerc_times_r2", "scan_min_DMerc_times_r2",
     "scan_weight_XY2", "scan_weight_XY2Prime", "scan_weight_XY2PrimePrime", "scan_weight_Z2",
     "scan_weight_Z2Prime", "scan_weight_XY3", "scan_weight_XY3Prime", "scan_weight_XY3PrimePrime",
     "scan_weight_grad_B", "scan_weight_grad_grad_B", "scan_weight_r_singularity",
     "scan_weight_axis_length", "scan_target_axis_length", "scan_weight_standard_deviation_of_R",
     "scan_weight_B20_mean"] ++
  all (.ints [1])
    ["scan_helicity", "scan_n_evals"] ++
  all (.flts [0, 1])
    ["scan_R0c", "scan_R0s", "scan_Z0c", "scan_Z0s", "scan_initial_R0c", "scan_initial_R0s",
     "scan_initial_Z0c", "scan_initial_Z0s"]

/-- The members that reading a file restores, besides `nphi` and the three flags. -/
def restored (fl : Flags) : List String :=
  ["nfp", "eta_bar", "sigma0", "I2", "d_phi", "B0", "G0", "sG", "spsi", "axis_length", "d_l_d_varphi",
   "B0_over_abs_G0", "abs_G0_over_B0", "helicity", "rms_curvature", "grid_max_curvature",
   "grid_max_elongation", "grid_min_R0", "grid_min_L_grad_B", "mean_elongation", "mean_R", "mean_Z",
   "standard_deviation_of_R", "standard_deviation_of_Z", "max_newton_iterations",
   "max_linesearch_iterations", "newton_tolerance", "iota", "iota_N"] ++
  (if fl.r2 then
    ["B2c", "B2s", "p2", "G2", "beta_1s", "B20_mean", "B20_residual", "B20_grid_variation",
     "d2_volume_d_psi2", "DWell_times_r2", "DGeod_times_r2", "DMerc_times_r2", "grid_min_L_grad_grad_B",
     "r_singularity_robust"]
  else []) ++
  ["phi", "curvature", "torsion", "sigma", "X1c", "Y1c", "Y1s", "R0", "Z0", "d_l_d_phi", "d2_l_d_phi2",
   "elongation", "Boozer_toroidal_angle", "L_grad_B", "L_grad_B_inverse", "d_X1c_d_varphi",
   "d_Y1c_d_varphi", "d_Y1s_d_varphi"] ++
  (if fl.r2 then
    ["X20", "X2s", "X2c", "Y20", "Y2s", "Y2c", "Z20", "Z2s", "Z2c", "B20", "B20_anomaly", "d_X20_d_varphi",
     "d_X2s_d_varphi", "d_X2c_d_varphi", "d_Y20_d_varphi", "d_Y2s_d_varphi", "d_Y2c_d_varphi",
     "d_Z20_d_varphi", "d_Z2s_d_varphi", "d_Z2c_d_varphi", "L_grad_grad_B", "L_grad_grad_B_inverse",
     "r_hat_singularity_robust"]
  else []) ++
  (if fl.r3 then
    ["X3s1", "X3s3", "X3c1", "X3c3", "Y3s1", "Y3s3", "Y3c1", "Y3c3"]
  else [])

/-! ## Names -/

def upper (s : List Char) : String := String.ofList (s.map Char.toUpper)

/-- The counter or fraction `x[NAME]`, or `x[N_NAME]`. -/
def item (x : String) (name : List Char) (addr : String) : Bool :=
  addr == x ++ "[" ++ upper name ++ "]" || addr == x ++ "[N_" ++ upper name ++ "]"

/-- The expression carries the name of the variable: the member itself, its value as an integer, a member of
the configuration, or the counter or fraction with that name. -/
def Bears (name addr : String) : Bool :=
  addr == name || addr == name ++ "_int" || addr == "q." ++ name || addr == "mo_ref.opts[0].q." ++ name ||
  (name == "order_r2.1" && addr == "order_r2p1_int") || item "filters" name.toList addr ||
  (name.toList.take 9 == "fraction_".toList && item "filter_fractions" (name.toList.drop 9) addr)

/-- Members together with local variables. -/
def withLocals (m : Mem F) (locals : List (String × Data F)) : Mem F := fun a => (locals.lookup a).getD (m a)

/-- 1 for true and 0 for false. -/
def bit (b : Bool) : Data F := .ints [if b then 1 else 0]

/-- The lengths of numbered dimensions. -/
def sizes (l : List Nat) : Nat → Nat := fun k => l.getD k 0

/-- The entry of a file holds what it is named after: the elements of an expression with its name, as many as
its dimensions say, with the type they have in memory; or a counter of type `big`, converted. -/
def Faithful (toF : Nat → F) (bigs : List String) (val : String → Nat) (m : Mem F) (e : Entry F) : Prop :=
  ∃ a, Bears e.name a = true ∧
    ((e.data = some (first (e.dims.map (·.2)).prod (m a)) ∧ e.ty = tyOf (m a)) ∨
      (a ∈ bigs ∧ e.data = some (.flts [toF (val a)]) ∧ e.ty = .flt ∧ e.dims = []))

/-- A file has a variable with all elements of a member, under the name of the member. -/
def Has (f : File F) (m : Mem F) (a : String) : Prop :=
  ∃ e ∈ contents f, e.name = a ∧ e.ty = tyOf (m a) ∧ e.data = some (m a)

/-- The expressions of type `big` (scan.hpp, multiopt_scan.hpp). -/
def scanBigs : List String := ["filters[ATTEMPTS]", "filters[KEPT]", "filters[REJECTED_DUE_TO_R0_CRUDE]", "filters[REJECTED_DUE_TO_R0]",
   "filters[REJECTED_DUE_TO_HELICITY]", "filters[REJECTED_DUE_TO_CURVATURE]",
   "filters[REJECTED_DUE_TO_IOTA]", "filters[REJECTED_DUE_TO_ELONGATION]",
   "filters[REJECTED_DUE_TO_L_GRAD_B]", "filters[REJECTED_DUE_TO_B20_VARIATION]",
   "filters[REJECTED_DUE_TO_L_GRAD_GRAD_B]", "filters[REJECTED_DUE_TO_D2_VOLUME_D_PSI2]",
   "filters[REJECTED_DUE_TO_DMERC]", "filters[REJECTED_DUE_TO_R_SINGULARITY]",
   "filters[REJECTED_DUE_TO_BETA]", "filters[N_SIGMA_EQ_SOLVES]", "filters[N_R2_SOLVES]"]

def multioptBigs : List String := ["n_evals"]

/-- Members of a configuration that are in its file besides those in `restored`. -/
def alsoSaved : List String := ["order_r_option", "R0c", "d_d_phi", "d_d_varphi", "grad_B_tensor"]

/-- Results of a scan that only exist when the second order is solved. -/
def secondOrder : List String :=
  ["scan_B2c", "scan_B2s", "scan_p2", "scan_min_L_grad_grad_B", "scan_B20_variation", "scan_B20_residual",
   "scan_r_singularity", "scan_d2_volume_d_psi2", "scan_DMerc_times_r2", "scan_beta"]

end Qsc.Spec.Output
