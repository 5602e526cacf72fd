import Verif.Model.Netcdf

/-!
# The output files and reading one back

`Qsc::write_netcdf`, `Opt::write_netcdf`, `Scan::write_netcdf` and `MultiOptScan::write_netcdf` as lists of
calls on a `NetCDFWriter`, `Qsc::allocate`, and `Qsc::read_netcdf` for files of the C++ version.

An object is a map from the names of its members to their contents; a local variable of a writer appears
under its own name.  The descriptions and units given in the calls are left out.  `verbose` output and timing are left out.
-/

namespace Qsc.Output
open Qsc.Netcdf

variable {F : Type}

/-- `at_least_order_r2`, `order_r2p1`, `order_r3`. -/
structure Flags where
  r2 : Bool
  r2p1 : Bool
  r3 : Bool
  deriving DecidableEq, Repr

/-- A `Qsc` object as the writer sees it (qsc.hpp lines 59-105, netcdf_writer.hpp lines 47-55): the
values of the members by name. -/
structure Obj (F : Type) where
  fl : Flags
  mem : Mem F

/-- A call of `put`; a `big` is passed by value, so its expression is evaluated at the call
(netcdf_writer.hpp lines 47-55). -/
inductive Call where
  | op (o : Op)
  | big (name addr : String)
  deriving DecidableEq

/-- `eval` gives the values of the expressions of type `big` (netcdf_writer.cpp lines 95-108). -/
def Call.toOp (eval : String → Nat) : Call → Op
  | .op o => o
  | .big name a => .big name (eval a) "" ""

/-! Short forms: variable and expression, or a list of members written under their own names. -/

/-- A call `nc.put("name", x, ...)` with an `int` (netcdf_writer.hpp line 47). -/
def int (name addr : String) : Call := .op (.int name addr "" "")
/-- A call `nc.put("name", x, ...)` with a `qscfloat` (netcdf_writer.hpp line 48). -/
def flt (name addr : String) : Call := .op (.flt name addr "" "")
/-- A call `nc.put("name", x, ...)` with a string (netcdf_writer.hpp line 50). -/
def str (name addr : String) : Call := .op (.str name addr "")
/-- A call `nc.put("name", x, ...)` with a `big` (netcdf_writer.hpp line 49). -/
def big (name addr : String) : Call := .big name addr
/-- A call `nc.put(dim, "name", x, ...)` with a `Vector` (netcdf_writer.hpp line 53). -/
def vec (d : Nat) (name addr : String) : Call := .op (.fltVec d name addr "" "")
/-- Several calls with an `int`, each named like its member (netcdf_writer.hpp line 47). -/
def ints (l : List String) : List Call := l.map fun n => int n n
/-- Several calls with a `qscfloat`, each named like its member (netcdf_writer.hpp line 48). -/
def flts (l : List String) : List Call := l.map fun n => flt n n
/-- Several calls with a string, each named like its member (netcdf_writer.hpp line 50). -/
def strs (l : List String) : List Call := l.map fun n => str n n
/-- Several calls with a `Vector`, each named like its member (netcdf_writer.hpp line 53). -/
def vecs (d : Nat) (l : List String) : List Call := l.map fun n => vec d n n
/-- Several calls with a `std::valarray<int>`, each named like its member (netcdf_writer.hpp line
52). -/
def intVecs (d : Nat) (l : List String) : List Call := l.map fun n => .op (.intVec d n n "" "")
/-- Several calls with an array of more dimensions, each named like its member (netcdf_writer.hpp
line 55). -/
def arrays (ds : List Nat) (l : List String) : List Call := l.map fun n => .op (.nd ds n n "" "")

/-- The calls of qsc_write_netcdf.cpp 21-230.  Dimension 0 is `nphi`, 1 `axis_nmax_plus_1`, 2
`normal_binormal_tangent`. -/
def qscCalls (fl : Flags) : List Call :=
  strs ["general_option"] ++
  [int "at_least_order_r2" "at_least_order_r2_int",
   int "order_r2.1" "order_r2p1_int",
   int "order_r3" "order_r3_int"] ++
  strs ["order_r_option"] ++
  ints ["nfp", "nphi"] ++
  flts ["eta_bar", "sigma0", "I2", "d_phi", "B0", "G0"] ++
  ints ["sG", "spsi"] ++
  flts ["axis_length", "d_l_d_varphi", "B0_over_abs_G0", "abs_G0_over_B0"] ++
  ints ["helicity"] ++
  flts ["rms_curvature", "grid_max_curvature", "grid_max_elongation", "grid_min_R0", "grid_min_L_grad_B",
       "mean_elongation", "mean_R", "mean_Z", "standard_deviation_of_R", "standard_deviation_of_Z"] ++
  ints ["max_newton_iterations", "max_linesearch_iterations"] ++
  flts ["newton_tolerance", "iota", "iota_N"] ++
  (if fl.r2 then
    flts ["B2c", "B2s", "p2", "G2", "beta_1s", "B20_mean", "B20_residual", "B20_grid_variation",
           "d2_volume_d_psi2", "DGeod_times_r2", "DWell_times_r2", "DMerc_times_r2",
           "grid_min_L_grad_grad_B", "r_singularity_robust", "beta", "grid_max_XY2", "grid_max_Z2",
           "grid_max_d_XY2_d_varphi", "grid_max_d_Z2_d_varphi", "grid_max_d2_XY2_d_varphi2"]
  else []) ++
  (if fl.r2p1 then
    flts ["grid_max_XY3", "grid_max_d_XY3_d_varphi", "grid_max_d2_XY3_d_varphi2"]
  else []) ++
  vecs 0 ["phi", "curvature", "torsion", "sigma", "X1c", "Y1s", "Y1c"] ++
  vecs 1 ["R0c", "R0s", "Z0c", "Z0s"] ++
  vecs 0 ["R0", "Z0", "R0p", "Z0p", "R0pp", "Z0pp", "R0ppp", "Z0ppp", "d_l_d_phi", "d2_l_d_phi2",
         "elongation", "Boozer_toroidal_angle", "L_grad_B", "L_grad_B_inverse", "d_X1c_d_varphi",
         "d_Y1c_d_varphi", "d_Y1s_d_varphi"] ++
  (if fl.r2 then
    vecs 0 ["X20", "X2s", "X2c", "Y20", "Y2s", "Y2c", "Z20", "Z2s", "Z2c", "B20", "B20_anomaly",
             "d_X20_d_varphi", "d_X2s_d_varphi", "d_X2c_d_varphi", "d_Y20_d_varphi", "d_Y2s_d_varphi",
             "d_Y2c_d_varphi", "d_Z20_d_varphi", "d_Z2s_d_varphi", "d_Z2c_d_varphi", "d2_X20_d_varphi2",
             "d2_X2s_d_varphi2", "d2_X2c_d_varphi2", "d2_Y20_d_varphi2", "d2_Y2s_d_varphi2",
             "d2_Y2c_d_varphi2", "d2_Z20_d_varphi2", "d2_Z2s_d_varphi2", "d2_Z2c_d_varphi2",
             "L_grad_grad_B", "L_grad_grad_B_inverse", "r_hat_singularity_robust"]
  else []) ++
  (if fl.r2p1 then
    vecs 0 ["lambda_for_XY3"]
  else []) ++
  (if fl.r3 then
    vecs 0 ["X3s1", "X3s3", "X3c1", "X3c3", "Y3s1", "Y3s3", "Y3c1", "Y3c3", "Z3s1", "Z3s3", "Z3c1", "Z3c3",
             "d_X3s1_d_varphi", "d_X3s3_d_varphi", "d_X3c1_d_varphi", "d_X3c3_d_varphi", "d_Y3s1_d_varphi",
             "d_Y3s3_d_varphi", "d_Y3c1_d_varphi", "d_Y3c3_d_varphi", "d2_X3s1_d_varphi2",
             "d2_X3s3_d_varphi2", "d2_X3c1_d_varphi2", "d2_X3c3_d_varphi2", "d2_Y3s1_d_varphi2",
             "d2_Y3s3_d_varphi2", "d2_Y3c1_d_varphi2", "d2_Y3c3_d_varphi2"]
  else []) ++
  arrays [0, 0] ["d_d_phi", "d_d_varphi"] ++
  arrays [0, 2, 2] ["grad_B_tensor"] ++
  (if fl.r2 then
    arrays [0, 2, 2, 2] ["grad_grad_B_tensor"]
  else [])

/-- The calls of opt_write_netcdf.cpp 18-91; `ax` and `it` are the numbers of the dimensions
`axis_nmax_plus_1` and `n_iter`. -/
def optCalls (ax it : Nat) : List Call :=
  ints ["n_iter", "n_evals"] ++
  flts ["weight_B20", "weight_iota", "weight_elongation", "weight_curvature", "weight_R0",
       "weight_d2_volume_d_psi2", "max_d2_volume_d_psi2", "weight_DMerc_times_r2", "min_DMerc_times_r2",
       "weight_XY2", "weight_XY2Prime", "weight_XY2PrimePrime", "weight_Z2", "weight_Z2Prime", "weight_XY3",
       "weight_XY3Prime", "weight_XY3PrimePrime", "weight_grad_B", "weight_grad_grad_B",
       "weight_r_singularity", "weight_axis_length", "weight_standard_deviation_of_R", "weight_B20_mean",
       "target_iota", "min_R0", "target_axis_length"] ++
  intVecs it ["iter_fourier_refine_step"] ++
  vecs it ["iter_objective_function", "iter_B20_term", "iter_iota_term", "iter_elongation_term"] ++
  [vec it "iter_curvature_term" "iter_elongation_term"] ++
  vecs it ["iter_R0_term", "iter_d2_volume_d_psi2_term", "iter_DMerc_times_r2_term", "iter_XY2_term",
         "iter_XY2Prime_term", "iter_XY2PrimePrime_term", "iter_Z2_term", "iter_Z2Prime_term",
         "iter_XY3_term", "iter_XY3Prime_term", "iter_XY3PrimePrime_term", "iter_grad_B_term",
         "iter_grad_grad_B_term", "iter_r_singularity_term", "iter_axis_length_term",
         "iter_standard_deviation_of_R_term", "iter_B20_mean_term", "iter_eta_bar", "iter_sigma0",
         "iter_B2c", "iter_B2s", "iter_min_R0", "iter_max_curvature", "iter_iota", "iter_max_elongation",
         "iter_min_L_grad_B", "iter_min_L_grad_grad_B", "iter_r_singularity", "iter_B20_variation",
         "iter_B20_residual", "iter_d2_volume_d_psi2", "iter_DMerc_times_r2",
         "iter_standard_deviation_of_R", "iter_standard_deviation_of_Z", "iter_axis_length"] ++
  arrays [ax, it] ["iter_R0c", "iter_R0s", "iter_Z0c", "iter_Z0s"]

/-- The calls of scan_write_netcdf.cpp 28-168.  Dimension 0 is `nphi`, 1 `axis_nmax_plus_1`, 2 `n_scan`. -/
def scanCalls (r2 keepAll : Bool) : List Call :=
  strs ["general_option"] ++
  [int "at_least_order_r2" "at_least_order_r2_int",
   str "order_r_option" "q.order_r_option",
   int "nfp" "q.nfp",
   int "nphi" "q.nphi"] ++
  strs ["eta_bar_scan_option", "sigma0_scan_option", "fourier_scan_option"] ++
  (if r2 then
    strs ["B2c_scan_option", "B2s_scan_option", "p2_scan_option"]
  else []) ++
  flts ["eta_bar_min", "eta_bar_max", "sigma0_min", "sigma0_max"] ++
  (if r2 then
    flts ["B2c_min", "B2c_max", "B2s_min", "B2s_max", "p2_min", "p2_max"]
  else []) ++
  [int "n_scan" "n_scan_int",
   big "attempts" "filters[ATTEMPTS]",
   big "n_sigma_eq_solves" "filters[N_SIGMA_EQ_SOLVES]",
   big "n_r2_solves" "filters[N_R2_SOLVES]",
   big "rejected_due_to_R0_crude" "filters[REJECTED_DUE_TO_R0_CRUDE]",
   big "rejected_due_to_R0" "filters[REJECTED_DUE_TO_R0]",
   big "rejected_due_to_helicity" "filters[REJECTED_DUE_TO_HELICITY]",
   big "rejected_due_to_curvature" "filters[REJECTED_DUE_TO_CURVATURE]",
   big "rejected_due_to_iota" "filters[REJECTED_DUE_TO_IOTA]",
   big "rejected_due_to_elongation" "filters[REJECTED_DUE_TO_ELONGATION]",
   big "rejected_due_to_L_grad_B" "filters[REJECTED_DUE_TO_L_GRAD_B]",
   big "rejected_due_to_B20_variation" "filters[REJECTED_DUE_TO_B20_VARIATION]",
   big "rejected_due_to_L_grad_grad_B" "filters[REJECTED_DUE_TO_L_GRAD_GRAD_B]",
   big "rejected_due_to_d2_volume_d_psi2" "filters[REJECTED_DUE_TO_D2_VOLUME_D_PSI2]",
   big "rejected_due_to_DMerc" "filters[REJECTED_DUE_TO_DMERC]",
   big "rejected_due_to_r_singularity" "filters[REJECTED_DUE_TO_R_SINGULARITY]",
   big "rejected_due_to_beta" "filters[REJECTED_DUE_TO_BETA]",
   flt "fraction_kept" "filter_fractions[KEPT]",
   flt "fraction_sigma_eq_solves" "filter_fractions[N_SIGMA_EQ_SOLVES]",
   flt "fraction_r2_solves" "filter_fractions[N_R2_SOLVES]",
   flt "fraction_rejected_due_to_R0_crude" "filter_fractions[REJECTED_DUE_TO_R0_CRUDE]",
   flt "fraction_rejected_due_to_R0" "filter_fractions[REJECTED_DUE_TO_R0]",
   flt "fraction_rejected_due_to_curvature" "filter_fractions[REJECTED_DUE_TO_CURVATURE]",
   flt "fraction_rejected_due_to_iota" "filter_fractions[REJECTED_DUE_TO_IOTA]",
   flt "fraction_rejected_due_to_elongation" "filter_fractions[REJECTED_DUE_TO_ELONGATION]",
   flt "fraction_rejected_due_to_L_grad_B" "filter_fractions[REJECTED_DUE_TO_L_GRAD_B]",
   flt "fraction_rejected_due_to_B20_variation" "filter_fractions[REJECTED_DUE_TO_B20_VARIATION]",
   flt "fraction_rejected_due_to_L_grad_grad_B" "filter_fractions[REJECTED_DUE_TO_L_GRAD_GRAD_B]",
   flt "fraction_rejected_due_to_d2_volume_d_psi2" "filter_fractions[REJECTED_DUE_TO_D2_VOLUME_D_PSI2]",
   flt "fraction_rejected_due_to_DMerc" "filter_fractions[REJECTED_DUE_TO_DMERC]",
   flt "fraction_rejected_due_to_r_singularity" "filter_fractions[REJECTED_DUE_TO_R_SINGULARITY]",
   int "keep_all" "keep_all_int",
   int "deterministic" "deterministic_int"] ++
  (if !keepAll then
    flts ["min_R0_to_keep"] ++
      ints ["helicity_to_keep"] ++
      flts ["min_iota_to_keep", "max_elongation_to_keep", "min_L_grad_B_to_keep"] ++
      (if r2 then
        flts ["min_L_grad_grad_B_to_keep", "max_B20_variation_to_keep", "min_r_singularity_to_keep",
               "max_d2_volume_d_psi2_to_keep", "min_DMerc_times_r2_to_keep"]
      else [])
  else []) ++
  [int "max_newton_iterations" "q.max_newton_iterations",
   int "max_linesearch_iterations" "q.max_linesearch_iterations",
   flt "newton_tolerance" "q.newton_tolerance",
   flt "I2" "q.I2",
   flt "d_phi" "q.d_phi",
   flt "B0" "q.B0",
   int "sG" "q.sG",
   int "spsi" "q.spsi"] ++
  (if r2 then
    [flt "p2" "q.p2"]
  else []) ++
  vecs 1 ["R0c_min", "R0c_max", "R0s_min", "R0s_max", "Z0c_min", "Z0c_max", "Z0s_min", "Z0s_max"] ++
  [vec 0 "phi" "q.phi"] ++
  vecs 2 ["scan_eta_bar", "scan_sigma0"] ++
  (if r2 then
    vecs 2 ["scan_B2c", "scan_B2s", "scan_p2"]
  else []) ++
  vecs 2 ["scan_axis_length", "scan_iota", "scan_min_R0", "scan_max_curvature", "scan_max_elongation",
         "scan_min_L_grad_B"] ++
  intVecs 2 ["scan_helicity"] ++
  vecs 2 ["scan_standard_deviation_of_R", "scan_standard_deviation_of_Z"] ++
  (if r2 then
    vecs 2 ["scan_min_L_grad_grad_B", "scan_B20_variation", "scan_B20_residual", "scan_r_singularity",
             "scan_d2_volume_d_psi2", "scan_DMerc_times_r2", "scan_beta"]
  else []) ++
  arrays [1, 2] ["scan_R0c", "scan_R0s", "scan_Z0c", "scan_Z0s"]

/-- The calls of multiopt_scan_write_netcdf.cpp 28-178.  Dimension 0 is `axis_nmax_plus_1`, 1 `n_scan`. -/
def multioptCalls (keepAll : Bool) : List Call :=
  strs ["general_option"] ++
  [int "nfp" "mo_ref.opts[0].q.nfp",
   int "n_scan" "n_scan_int",
   big "n_evals" "n_evals",
   int "attempts" "filters[ATTEMPTS]",
   int "rejected_due_to_R0" "filters[REJECTED_DUE_TO_R0]",
   int "rejected_due_to_iota" "filters[REJECTED_DUE_TO_IOTA]",
   int "rejected_due_to_elongation" "filters[REJECTED_DUE_TO_ELONGATION]",
   int "rejected_due_to_L_grad_B" "filters[REJECTED_DUE_TO_L_GRAD_B]",
   int "rejected_due_to_B20_variation" "filters[REJECTED_DUE_TO_B20_VARIATION]",
   int "rejected_due_to_L_grad_grad_B" "filters[REJECTED_DUE_TO_L_GRAD_GRAD_B]",
   int "rejected_due_to_d2_volume_d_psi2" "filters[REJECTED_DUE_TO_D2_VOLUME_D_PSI2]",
   int "rejected_due_to_DMerc" "filters[REJECTED_DUE_TO_DMERC]",
   int "rejected_due_to_r_singularity" "filters[REJECTED_DUE_TO_R_SINGULARITY]",
   int "rejected_due_to_max_XY2" "filters[REJECTED_DUE_TO_MAX_XY2]",
   int "rejected_due_to_max_Z2" "filters[REJECTED_DUE_TO_MAX_Z2]",
   int "rejected_due_to_max_XY3" "filters[REJECTED_DUE_TO_MAX_XY3]",
   int "rejected_due_to_max_d_XY2_d_varphi" "filters[REJECTED_DUE_TO_MAX_D_XY2_D_VARPHI]",
   int "rejected_due_to_max_d_Z2_d_varphi" "filters[REJECTED_DUE_TO_MAX_D_Z2_D_VARPHI]",
   int "rejected_due_to_max_d_XY3_d_varphi" "filters[REJECTED_DUE_TO_MAX_D_XY3_D_VARPHI]",
   flt "fraction_kept" "filter_fractions[KEPT]",
   flt "fraction_rejected_due_to_R0" "filter_fractions[REJECTED_DUE_TO_R0]",
   flt "fraction_rejected_due_to_iota" "filter_fractions[REJECTED_DUE_TO_IOTA]",
   flt "fraction_rejected_due_to_elongation" "filter_fractions[REJECTED_DUE_TO_ELONGATION]",
   flt "fraction_rejected_due_to_L_grad_B" "filter_fractions[REJECTED_DUE_TO_L_GRAD_B]",
   flt "fraction_rejected_due_to_B20_variation" "filter_fractions[REJECTED_DUE_TO_B20_VARIATION]",
   flt "fraction_rejected_due_to_L_grad_grad_B" "filter_fractions[REJECTED_DUE_TO_L_GRAD_GRAD_B]",
   flt "fraction_rejected_due_to_d2_volume_d_psi2" "filter_fractions[REJECTED_DUE_TO_D2_VOLUME_D_PSI2]",
   flt "fraction_rejected_due_to_DMerc" "filter_fractions[REJECTED_DUE_TO_DMERC]",
   flt "fraction_rejected_due_to_r_singularity" "filter_fractions[REJECTED_DUE_TO_R_SINGULARITY]",
   flt "fraction_rejected_due_to_max_XY2" "filter_fractions[REJECTED_DUE_TO_MAX_XY2]",
   flt "fraction_rejected_due_to_max_Z2" "filter_fractions[REJECTED_DUE_TO_MAX_Z2]",
   flt "fraction_rejected_due_to_max_XY3" "filter_fractions[REJECTED_DUE_TO_MAX_XY3]",
   flt "fraction_rejected_due_to_max_d_XY2_d_varphi" "filter_fractions[REJECTED_DUE_TO_MAX_D_XY2_D_VARPHI]",
   flt "fraction_rejected_due_to_max_d_Z2_d_varphi" "filter_fractions[REJECTED_DUE_TO_MAX_D_Z2_D_VARPHI]",
   flt "fraction_rejected_due_to_max_d_XY3_d_varphi" "filter_fractions[REJECTED_DUE_TO_MAX_D_XY3_D_VARPHI]",
   int "keep_all" "keep_all_int"] ++
  (if !keepAll then
    flts ["min_R0_to_keep", "min_iota_to_keep", "max_elongation_to_keep", "min_L_grad_B_to_keep",
           "min_L_grad_grad_B_to_keep", "max_B20_variation_to_keep", "min_r_singularity_to_keep",
           "max_d2_volume_d_psi2_to_keep", "min_DMerc_times_r2_to_keep", "max_XY2_to_keep",
           "max_Z2_to_keep", "max_XY3_to_keep", "max_d_XY2_d_varphi_to_keep", "max_d_Z2_d_varphi_to_keep",
           "max_d_XY3_d_varphi_to_keep"]
  else []) ++
  [int "max_newton_iterations" "mo_ref.opts[0].q.max_newton_iterations",
   int "max_linesearch_iterations" "mo_ref.opts[0].q.max_linesearch_iterations",
   flt "newton_tolerance" "mo_ref.opts[0].q.newton_tolerance",
   flt "I2" "mo_ref.opts[0].q.I2",
   flt "B0" "mo_ref.opts[0].q.B0",
   int "sG" "mo_ref.opts[0].q.sG",
   int "spsi" "mo_ref.opts[0].q.spsi",
   flt "p2" "mo_ref.opts[0].q.p2"] ++
  vecs 1 ["scan_eta_bar", "scan_sigma0", "scan_B2c", "scan_B2s", "scan_iota", "scan_min_R0",
         "scan_max_curvature", "scan_max_elongation", "scan_min_L_grad_B"] ++
  intVecs 1 ["scan_helicity", "scan_n_evals"] ++
  vecs 1 ["scan_standard_deviation_of_R", "scan_standard_deviation_of_Z", "scan_min_L_grad_grad_B",
         "scan_B20_variation", "scan_B20_residual", "scan_B20_mean", "scan_r_singularity",
         "scan_d2_volume_d_psi2", "scan_DMerc_times_r2", "scan_max_XY2", "scan_max_Z2",
         "scan_max_d_XY2_d_varphi", "scan_max_d2_XY2_d_varphi2", "scan_max_d_Z2_d_varphi", "scan_max_XY3",
         "scan_max_d_XY3_d_varphi", "scan_max_d2_XY3_d_varphi2", "scan_axis_length", "scan_p2",
         "scan_initial_eta_bar", "scan_initial_B2c", "scan_initial_B2s", "scan_weight_B20",
         "scan_weight_iota", "scan_target_iota", "scan_weight_elongation", "scan_weight_curvature",
         "scan_weight_R0", "scan_target_min_R0", "scan_weight_d2_volume_d_psi2",
         "scan_max_d2_volume_d_psi2", "scan_weight_DMerc_times_r2", "scan_min_DMerc_times_r2",
         "scan_weight_XY2", "scan_weight_XY2Prime", "scan_weight_XY2PrimePrime", "scan_weight_Z2",
         "scan_weight_Z2Prime", "scan_weight_XY3", "scan_weight_XY3Prime", "scan_weight_XY3PrimePrime",
         "scan_weight_grad_B", "scan_weight_grad_grad_B", "scan_weight_r_singularity",
         "scan_weight_axis_length", "scan_target_axis_length", "scan_weight_standard_deviation_of_R",
         "scan_weight_B20_mean"] ++
  arrays [0, 1] ["scan_R0c", "scan_R0s", "scan_Z0c", "scan_Z0s", "scan_initial_R0c", "scan_initial_R0s",
           "scan_initial_Z0c", "scan_initial_Z0s"]

/-- The members read by the C++ branch of read_netcdf.cpp 215-312, each from the variable of that name. -/
def readNames (fl : Flags) : List String :=
  ["nfp", "eta_bar", "sigma0", "I2", "d_phi", "B0", "G0", "sG", "spsi", "axis_length", "d_l_d_varphi",
   "B0_over_abs_G0", "abs_G0_over_B0", "helicity", "rms_curvature", "grid_max_curvature",
   "grid_max_elongation", "grid_min_R0", "grid_min_L_grad_B", "mean_elongation", "mean_R", "mean_Z",
   "standard_deviation_of_R", "standard_deviation_of_Z", "max_newton_iterations",
   "max_linesearch_iterations", "newton_tolerance", "iota", "iota_N"] ++
  (if fl.r2 then ["B2c", "B2s", "p2", "G2", "beta_1s", "B20_mean", "B20_residual", "B20_grid_variation",
                   "d2_volume_d_psi2", "DWell_times_r2", "DGeod_times_r2", "DMerc_times_r2",
                   "grid_min_L_grad_grad_B", "r_singularity_robust"] else []) ++
  ["phi", "curvature", "torsion", "sigma", "X1c", "Y1c", "Y1s", "R0", "Z0", "d_l_d_phi", "d2_l_d_phi2",
   "elongation", "Boozer_toroidal_angle", "L_grad_B", "L_grad_B_inverse", "d_X1c_d_varphi",
   "d_Y1c_d_varphi", "d_Y1s_d_varphi"] ++
  (if fl.r2 then ["X20", "X2s", "X2c", "Y20", "Y2s", "Y2c", "Z20", "Z2s", "Z2c", "B20", "B20_anomaly",
                   "d_X20_d_varphi", "d_X2s_d_varphi", "d_X2c_d_varphi", "d_Y20_d_varphi", "d_Y2s_d_varphi",
                   "d_Y2c_d_varphi", "d_Z20_d_varphi", "d_Z2s_d_varphi", "d_Z2c_d_varphi", "L_grad_grad_B",
                   "L_grad_grad_B_inverse", "r_hat_singularity_robust"] else []) ++
  (if fl.r3 then ["X3s1", "X3s3", "X3c1", "X3c3", "Y3s1", "Y3s3", "Y3c1", "Y3c3"] else [])

/-- The vectors of allocate.cpp 15-218 that get length `nphi`. -/
def gridVectors (fl : Flags) : List String :=
  ["phi", "R0", "Z0", "R0p", "Z0p", "R0pp", "Z0pp", "R0ppp", "Z0ppp", "curvature", "torsion", "sinangle",
   "cosangle", "d_l_d_phi", "d2_l_d_phi2", "tangent_cylindrical1", "tangent_cylindrical2",
   "tangent_cylindrical3", "normal_cylindrical1", "normal_cylindrical2", "normal_cylindrical3",
   "binormal_cylindrical1", "binormal_cylindrical2", "binormal_cylindrical3", "d_tangent_d_l_cylindrical1",
   "d_tangent_d_l_cylindrical2", "d_tangent_d_l_cylindrical3", "tempvec", "tempvec1", "tempvec2",
   "tempvec3", "torsion_numerator", "torsion_denominator", "Boozer_toroidal_angle",
   "etabar_squared_over_curvature_squared", "X1s", "X1c", "Y1s", "Y1c", "sigma", "elongation", "state",
   "residual", "work1", "work2", "d_X1c_d_varphi", "d_Y1s_d_varphi", "d_Y1c_d_varphi", "L_grad_B",
   "L_grad_B_inverse"] ++
  (if fl.r2 then ["B20", "B20_anomaly", "X20", "X2s", "X2c", "Y20", "Y2s", "Y2c", "Z20", "Z2s", "Z2c",
                   "V1", "V2", "V3", "rs", "rc", "qs", "qc", "Y2s_from_X20", "Y2s_inhomogeneous",
                   "Y2c_from_X20", "Y2c_inhomogeneous", "fX0_from_X20", "fX0_from_Y20", "fX0_inhomogeneous",
                   "fXs_from_X20", "fXs_from_Y20", "fXs_inhomogeneous", "fXc_from_X20", "fXc_from_Y20",
                   "fXc_inhomogeneous", "fY0_from_X20", "fY0_from_Y20", "fY0_inhomogeneous", "fYs_from_X20",
                   "fYs_from_Y20", "fYs_inhomogeneous", "fYc_from_X20", "fYc_from_Y20", "fYc_inhomogeneous",
                   "d_curvature_d_varphi", "d_torsion_d_varphi", "d_X20_d_varphi", "d_X2s_d_varphi",
                   "d_X2c_d_varphi", "d_Y20_d_varphi", "d_Y2s_d_varphi", "d_Y2c_d_varphi", "d_Z20_d_varphi",
                   "d_Z2s_d_varphi", "d_Z2c_d_varphi", "d2_X1c_d_varphi2", "d2_Y1c_d_varphi2",
                   "d2_Y1s_d_varphi2", "d2_X20_d_varphi2", "d2_X2s_d_varphi2", "d2_X2c_d_varphi2",
                   "d2_Y20_d_varphi2", "d2_Y2s_d_varphi2", "d2_Y2c_d_varphi2", "d2_Z20_d_varphi2",
                   "d2_Z2s_d_varphi2", "d2_Z2c_d_varphi2", "L_grad_grad_B", "L_grad_grad_B_inverse",
                   "r_hat_singularity_robust"] else []) ++
  (if fl.r2p1 then ["lambda_for_XY3"] else []) ++
  (if fl.r3 then ["X3c1", "X3c3", "X3s1", "X3s3", "Y3c1", "Y3c3", "Y3s1", "Y3s3", "Z3c1", "Z3c3", "Z3s1",
                   "Z3s3", "d_X3c1_d_varphi", "d_X3c3_d_varphi", "d_X3s1_d_varphi", "d_X3s3_d_varphi",
                   "d_Y3c1_d_varphi", "d_Y3c3_d_varphi", "d_Y3s1_d_varphi", "d_Y3s3_d_varphi",
                   "d2_X3c1_d_varphi2", "d2_X3c3_d_varphi2", "d2_X3s1_d_varphi2", "d2_X3s3_d_varphi2",
                   "d2_Y3c1_d_varphi2", "d2_Y3c3_d_varphi2", "d2_Y3s1_d_varphi2", "d2_Y3s3_d_varphi2"] else [])

/-- The other arrays of floats, with their numbers of elements (allocate.cpp 58-60, 80, 109-110, 173). -/
def floatArrays (fl : Flags) (n : Nat) : List (String × Nat) :=
  (gridVectors fl).map (fun a => (a, n)) ++
  [("d_d_phi", n * n), ("d_d_varphi", n * n), ("work_matrix", n * n), ("grad_B_tensor", n * 3 * 3)] ++
  (if fl.r2 then
    [("r2_matrix", 2 * n * (2 * n)), ("r2_rhs", 2 * n), ("grad_grad_B_tensor", n * 3 * 3 * 3)]
  else [])

/-- The arrays of integers (allocate.cpp 69, 74, 111). -/
def intArrays (fl : Flags) (n : Nat) : List (String × Nat) :=
  [("quadrant", n + 1), ("ipiv", n)] ++ (if fl.r2 then [("r2_ipiv", 2 * n)] else [])

/-! ## Members -/

/-- Assignment to a member. Helper of the model; no counterpart in the code. -/
def set (m : Mem F) (a : String) (d : Data F) : Mem F := fun b => if b = a then d else m b

/-- An `int` (read in qsc_write_netcdf.cpp, opt_write_netcdf.cpp, scan_write_netcdf.cpp; types in
qsc.hpp lines 60-78). -/
def intMember (m : Mem F) (a : String) : Except Err Int :=
  match m a with
  | .ints [x] => .ok x
  | _ => .error (.undefined "not an int")

/-- `size()` of a `Vector` (qsc_write_netcdf.cpp lines 8-30). -/
def vectorSize (m : Mem F) (a : String) : Except Err Nat :=
  match m a with
  | .flts l => .ok l.length
  | _ => .error (.undefined "not a vector")

/-- An `int` passed as the length of a dimension; a negative one becomes a length no file can have
(netcdf_writer.cpp lines 39-44). -/
def dimLength (x : Int) : Except Err Nat := if x < 0 then .error (.nc "NC_EDIMSIZE") else .ok x.toNat

/-- A `bool` copied into an `int` before it is written (qsc_write_netcdf.cpp lines 8-70). -/
def flag (b : Bool) : Data F := .ints [if b then 1 else 0]

/-- `allocate` (allocate.cpp 8-227); `resize` discards the old elements. -/
def allocate (zero : F) (o : Obj F) : Except Err (Obj F) :=
  match intMember o.mem "nphi" with
  | .error e => .error e
  | .ok n =>
    let n := if n % 2 = 0 then n + 1 else n
    if n < 0 then .error (.nc "std::bad_alloc")
    else
      let m := set o.mem "nphi" (.ints [n])
      let m := (floatArrays o.fl n.toNat).foldl (fun m a => set m a.1 (.flts (List.replicate a.2 zero))) m
      .ok { o with mem := (intArrays o.fl n.toNat).foldl (fun m a => set m a.1 (.ints (List.replicate a.2 0))) m }

/-! ## Writing -/

/-- The members and locals seen by `Qsc::write_netcdf` (qsc_write_netcdf.cpp 21-30). -/
def qscScope (o : Obj F) : Mem F :=
  let m := set o.mem "general_option" (.chars "single".toList)
  let m := set m "at_least_order_r2_int" (flag o.fl.r2)
  let m := set m "order_r2p1_int" (flag o.fl.r2p1)
  set m "order_r3_int" (flag o.fl.r3)

/-- `Qsc::write_netcdf` (qsc_write_netcdf.cpp 8-234). -/
def writeQsc (toF : Nat → F) (o : Obj F) : Except Err (File F) :=
  match intMember o.mem "nphi", vectorSize o.mem "R0c" with
  | .error e, _ => .error e
  | _, .error e => .error e
  | .ok n, .ok ax =>
    match dimLength n with
    | .error e => .error e
    | .ok n =>
      run toF (qscScope o) ⟨[], []⟩
        ([.dim "nphi" n, .dim "axis_nmax_plus_1" ax, .dim "normal_binormal_tangent" 3] ++
          (qscCalls o.fl).map (Call.toOp fun _ => 0))

/-- An `Opt` as its writer sees it (opt.hpp lines 23-105, opt_write_netcdf.cpp lines 6-237): the
members of `q` have names beginning with `q.`. -/
structure OptObj (F : Type) where
  q : Obj F
  mem : Mem F

/-- `Opt::write_netcdf` (opt_write_netcdf.cpp 6-237): write the configuration, then append to its file. -/
def writeOpt (toF : Nat → F) (o : OptObj F) : Except Err (File F) :=
  match writeQsc toF o.q with
  | .error e => .error e
  | .ok f =>
    match inqDim f "axis_nmax_plus_1" with
    | none => .error (.nc "NC_EBADDIM")
    | some ax =>
      match intMember o.mem "n_iter" with
      | .error e => .error e
      | .ok n =>
        match dimLength n with
        | .error e => .error e
        | .ok n =>
          run toF o.mem f ([.dim "n_iter" n] ++ (optCalls ax f.dims.length).map (Call.toOp fun _ => 0))

/-- A `Scan`: members of `q` have names beginning with `q.`; `n_scan` and the counters are in
`bigs` (scan.hpp lines 52-101). -/
structure ScanObj (F : Type) where
  r2 : Bool
  keepAll : Bool
  deterministic : Bool
  bigs : String → Nat
  mem : Mem F

/-- scan_write_netcdf.cpp 29-32, 61, 95-97.  The cast of `n_scan` to `int` is taken to be exact. -/
def scanScope (o : ScanObj F) : Mem F :=
  let m := set o.mem "general_option" (.chars "random".toList)
  let m := set m "at_least_order_r2_int" (flag o.r2)
  let m := set m "n_scan_int" (.ints [(o.bigs "n_scan" : Int)])
  let m := set m "keep_all_int" (flag o.keepAll)
  set m "deterministic_int" (flag o.deterministic)

/-- `Scan::write_netcdf` (scan_write_netcdf.cpp 9-179). -/
def writeScan (toF : Nat → F) (o : ScanObj F) : Except Err (File F) :=
  match intMember o.mem "q.nphi", vectorSize o.mem "R0c_max" with
  | .error e, _ => .error e
  | _, .error e => .error e
  | .ok n, .ok ax =>
    match dimLength n with
    | .error e => .error e
    | .ok n =>
      run toF (scanScope o) ⟨[], []⟩
        ([.dim "nphi" n, .dim "axis_nmax_plus_1" ax, .dim "n_scan" (o.bigs "n_scan")] ++
          (scanCalls o.r2 o.keepAll).map (Call.toOp o.bigs))

/-- A `MultiOptScan` on process 0. -/
structure MultioptObj (F : Type) where
  keepAll : Bool
  bigs : String → Nat
  mem : Mem F

/-- multiopt_scan_write_netcdf.cpp 29, 36, 73.  `n` is `n_scan`. -/
def multioptScope (o : MultioptObj F) (n : Int) : Mem F :=
  let m := set o.mem "general_option" (.chars "multiopt_scan".toList)
  let m := set m "n_scan_int" (.ints [n])
  set m "keep_all_int" (flag o.keepAll)

/-- `MultiOptScan::write_netcdf` (multiopt_scan_write_netcdf.cpp 9-186). -/
def writeMultiopt (toF : Nat → F) (o : MultioptObj F) : Except Err (File F) :=
  match intMember o.mem "axis_nmax_plus_1", intMember o.mem "n_scan" with
  | .error e, _ => .error e
  | _, .error e => .error e
  | .ok ax, .ok n =>
    match dimLength ax, dimLength n with
    | .error e, _ => .error e
    | _, .error e => .error e
    | .ok ax', .ok n' =>
      run toF (multioptScope o n) ⟨[], []⟩
        ([.dim "axis_nmax_plus_1" ax', .dim "n_scan" n'] ++
          (multioptCalls o.keepAll).map (Call.toOp o.bigs))

/-! ## Reading -/

/-- `nc_get_var_int` or `nc_get_var_double` into an object of memory: the elements of the variable replace
the first elements of the object (read_netcdf.cpp 52-77).  Conversion between integers and floats and the
fill values of a variable that was never written are left out. -/
def getVar (f : File F) (name : String) (target : Data F) : Except Err (Data F) :=
  match f.vars.find? fun v => v.name == name with
  | none => .error (.nc "NC_ENOTVAR")
  | some v =>
    match v.data, target with
    | none, _ => .error (.undefined "fill values are not modelled")
    | some (.ints l), .ints t =>
      if t = [] ∨ t.length < l.length then .error (.undefined "past the end")
      else .ok (.ints (l ++ t.drop l.length))
    | some (.flts l), .flts t =>
      if t = [] ∨ t.length < l.length then .error (.undefined "past the end")
      else .ok (.flts (l ++ t.drop l.length))
    | some (.chars _), _ => .error (.nc "NC_ECHAR")
    | _, _ => .error (.undefined "conversion is not modelled")

/-- `nc.get("x", x)` (read_netcdf.cpp lines 54-76). -/
def getMember (f : File F) (m : Mem F) (a : String) : Except Err (Mem F) :=
  match getVar f a (m a) with
  | .error e => .error e
  | .ok d => .ok (set m a d)

/-- `nc.get("x", tempint)` and the cast to `bool` (read_netcdf.cpp 200-206). -/
def getFlag (f : File F) (name : String) : Except Err Bool :=
  match getVar f name (.ints [0] : Data F) with
  | .error e => .error e
  | .ok (.ints [x]) => .ok (x != 0)
  | .ok _ => .error (.undefined "not an int")

/-- `Qsc::read_netcdf(filename, 'C')` (read_netcdf.cpp 107-113, 196-318). -/
def readC (zero : F) (f : File F) (o : Obj F) : Except Err (Obj F) :=
  match getMember f o.mem "nphi" with
  | .error e => .error e
  | .ok m =>
    match getFlag f "at_least_order_r2", getFlag f "order_r2.1", getFlag f "order_r3" with
    | .ok r2, .ok r2p1, .ok r3 =>
      match allocate zero ⟨⟨r2, r2p1, r3⟩, m⟩ with
      | .error e => .error e
      | .ok o =>
        match (readNames o.fl).foldlM (getMember f) o.mem with
        | .error e => .error e
        | .ok m => .ok { o with mem := m }
    | .error e, _, _ => .error e
    | _, .error e, _ => .error e
    | _, _, .error e => .error e

end Qsc.Output
