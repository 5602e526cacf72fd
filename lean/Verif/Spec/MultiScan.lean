import Verif.Model.MultiScan

/-!
# What the outputs of a multiopt scan mean

Written from the variable names and descriptions of the output file
(multiopt_scan_write_netcdf.cpp 105-175), independently of row numbers.
-/

namespace Qsc.Spec.MultiScan
open Qsc.MultiScan

/-- Scalar output variable and the quantity it stands for (alphabetical). `iter_x` is the value of
`x` at iteration 0 of the first stage. -/
def meaning : List (String × String) :=
  [("scan_B20_mean", "q.B20_mean"), ("scan_B20_residual", "q.B20_residual"),
   ("scan_B20_variation", "q.B20_grid_variation"), ("scan_B2c", "q.B2c"),
   ("scan_B2s", "q.B2s"), ("scan_DMerc_times_r2", "q.DMerc_times_r2"),
   ("scan_axis_length", "q.axis_length"), ("scan_d2_volume_d_psi2", "q.d2_volume_d_psi2"),
   ("scan_eta_bar", "q.eta_bar"), ("scan_initial_B2c", "iter_B2c"),
   ("scan_initial_B2s", "iter_B2s"), ("scan_initial_eta_bar", "iter_eta_bar"),
   ("scan_iota", "q.iota"), ("scan_max_XY2", "q.grid_max_XY2"),
   ("scan_max_XY3", "q.grid_max_XY3"), ("scan_max_Z2", "q.grid_max_Z2"),
   ("scan_max_curvature", "q.grid_max_curvature"), ("scan_max_d2_XY2_d_varphi2", "q.grid_max_d2_XY2_d_varphi2"),
   ("scan_max_d2_XY3_d_varphi2", "q.grid_max_d2_XY3_d_varphi2"), ("scan_max_d2_volume_d_psi2", "max_d2_volume_d_psi2"),
   ("scan_max_d_XY2_d_varphi", "q.grid_max_d_XY2_d_varphi"), ("scan_max_d_XY3_d_varphi", "q.grid_max_d_XY3_d_varphi"),
   ("scan_max_d_Z2_d_varphi", "q.grid_max_d_Z2_d_varphi"), ("scan_max_elongation", "q.grid_max_elongation"),
   ("scan_min_DMerc_times_r2", "min_DMerc_times_r2"), ("scan_min_L_grad_B", "q.grid_min_L_grad_B"),
   ("scan_min_L_grad_grad_B", "q.grid_min_L_grad_grad_B"), ("scan_min_R0", "q.grid_min_R0"),
   ("scan_p2", "q.p2"), ("scan_r_singularity", "q.r_singularity_robust"),
   ("scan_sigma0", "q.sigma0"), ("scan_standard_deviation_of_R", "q.standard_deviation_of_R"),
   ("scan_standard_deviation_of_Z", "q.standard_deviation_of_Z"), ("scan_target_axis_length", "target_axis_length"),
   ("scan_target_iota", "target_iota"), ("scan_target_min_R0", "min_R0"),
   ("scan_weight_B20", "weight_B20"), ("scan_weight_B20_mean", "weight_B20_mean"),
   ("scan_weight_DMerc_times_r2", "weight_DMerc_times_r2"), ("scan_weight_R0", "weight_R0"),
   ("scan_weight_XY2", "weight_XY2"), ("scan_weight_XY2Prime", "weight_XY2Prime"),
   ("scan_weight_XY2PrimePrime", "weight_XY2PrimePrime"), ("scan_weight_XY3", "weight_XY3"),
   ("scan_weight_XY3Prime", "weight_XY3Prime"), ("scan_weight_XY3PrimePrime", "weight_XY3PrimePrime"),
   ("scan_weight_Z2", "weight_Z2"), ("scan_weight_Z2Prime", "weight_Z2Prime"),
   ("scan_weight_axis_length", "weight_axis_length"), ("scan_weight_curvature", "weight_curvature"),
   ("scan_weight_d2_volume_d_psi2", "weight_d2_volume_d_psi2"), ("scan_weight_elongation", "weight_elongation"),
   ("scan_weight_grad_B", "weight_grad_B"), ("scan_weight_grad_grad_B", "weight_grad_grad_B"),
   ("scan_weight_iota", "weight_iota"), ("scan_weight_r_singularity", "weight_r_singularity"),
   ("scan_weight_standard_deviation_of_R", "weight_standard_deviation_of_R")]

/-- Fourier output variable and the array it stands for. -/
def modeMeaning : List (String × String) :=
  [("scan_R0c", "q.R0c"), ("scan_R0s", "q.R0s"), ("scan_Z0c", "q.Z0c"), ("scan_Z0s", "q.Z0s"),
   ("scan_initial_R0c", "iter_R0c"), ("scan_initial_R0s", "iter_R0s"),
   ("scan_initial_Z0c", "iter_Z0c"), ("scan_initial_Z0s", "iter_Z0s")]

variable {F : Type}

/-- A configuration satisfies all the thresholds: no comparison rejects it. -/
structure Satisfies (o : Ops F) (cfg : Cfg F) (r : Final F) : Prop where
  minR0 : o.lt (r.get "q.grid_min_R0") (cfg.thr "min_R0_to_keep") = false
  minIota : o.lt (o.abs (r.get "q.iota")) (cfg.thr "min_iota_to_keep") = false
  maxElongation : o.lt (cfg.thr "max_elongation_to_keep") (r.get "q.grid_max_elongation") = false
  minLGradB : o.lt (r.get "q.grid_min_L_grad_B") (cfg.thr "min_L_grad_B_to_keep") = false
  minLGradGradB :
    o.lt (r.get "q.grid_min_L_grad_grad_B") (cfg.thr "min_L_grad_grad_B_to_keep") = false
  maxB20Variation :
    o.lt (cfg.thr "max_B20_variation_to_keep") (r.get "q.B20_grid_variation") = false
  maxD2Volume :
    o.lt (cfg.thr "max_d2_volume_d_psi2_to_keep") (r.get "q.d2_volume_d_psi2") = false
  minDMerc : o.lt (r.get "q.DMerc_times_r2") (cfg.thr "min_DMerc_times_r2_to_keep") = false
  minRSingularity :
    o.lt (r.get "q.r_singularity_robust") (cfg.thr "min_r_singularity_to_keep") = false
  maxXY2 : o.lt (cfg.thr "max_XY2_to_keep") (r.get "q.grid_max_XY2") = false
  maxZ2 : o.lt (cfg.thr "max_Z2_to_keep") (r.get "q.grid_max_Z2") = false
  maxXY3 : o.lt (cfg.thr "max_XY3_to_keep") (r.get "q.grid_max_XY3") = false
  maxDXY2 : o.lt (cfg.thr "max_d_XY2_d_varphi_to_keep") (r.get "q.grid_max_d_XY2_d_varphi") = false
  maxDZ2 : o.lt (cfg.thr "max_d_Z2_d_varphi_to_keep") (r.get "q.grid_max_d_Z2_d_varphi") = false
  maxDXY3 : o.lt (cfg.thr "max_d_XY3_d_varphi_to_keep") (r.get "q.grid_max_d_XY3_d_varphi") = false

/-- A result is to be saved. -/
def Keep (o : Ops F) (cfg : Cfg F) (r : Final F) : Prop :=
  cfg.keepAll = true ∨ Satisfies o cfg r

/-- What each rejection counter counts, by its place in the `enum` (multiopt_scan.hpp 20-37). -/
def counterMeaning (o : Ops F) (cfg : Cfg F) : List (Nat × (Final F → Bool)) :=
  [(2, fun r => o.lt (r.get "q.grid_min_R0") (cfg.thr "min_R0_to_keep")),
   (3, fun r => o.lt (o.abs (r.get "q.iota")) (cfg.thr "min_iota_to_keep")),
   (4, fun r => o.lt (cfg.thr "max_elongation_to_keep") (r.get "q.grid_max_elongation")),
   (5, fun r => o.lt (r.get "q.grid_min_L_grad_B") (cfg.thr "min_L_grad_B_to_keep")),
   (6, fun r => o.lt (cfg.thr "max_B20_variation_to_keep") (r.get "q.B20_grid_variation")),
   (7, fun r => o.lt (r.get "q.grid_min_L_grad_grad_B") (cfg.thr "min_L_grad_grad_B_to_keep")),
   (8, fun r => o.lt (cfg.thr "max_d2_volume_d_psi2_to_keep") (r.get "q.d2_volume_d_psi2")),
   (9, fun r => o.lt (r.get "q.DMerc_times_r2") (cfg.thr "min_DMerc_times_r2_to_keep")),
   (10, fun r => o.lt (r.get "q.r_singularity_robust") (cfg.thr "min_r_singularity_to_keep")),
   (11, fun r => o.lt (cfg.thr "max_XY2_to_keep") (r.get "q.grid_max_XY2")),
   (12, fun r => o.lt (cfg.thr "max_Z2_to_keep") (r.get "q.grid_max_Z2")),
   (13, fun r => o.lt (cfg.thr "max_XY3_to_keep") (r.get "q.grid_max_XY3")),
   (14, fun r => o.lt (cfg.thr "max_d_XY2_d_varphi_to_keep") (r.get "q.grid_max_d_XY2_d_varphi")),
   (15, fun r => o.lt (cfg.thr "max_d_Z2_d_varphi_to_keep") (r.get "q.grid_max_d_Z2_d_varphi")),
   (16, fun r => o.lt (cfg.thr "max_d_XY3_d_varphi_to_keep") (r.get "q.grid_max_d_XY3_d_varphi"))]

/-- Sizes of the arrays read when packing: the four arrays of the last stage have `nm` entries,
those of the first stage at most `nm`. -/
structure Sized (nm : Nat) (r : Final F) : Prop where
  last : ∀ v ∈ ["q.R0c", "q.R0s", "q.Z0c", "q.Z0s"], (r.vec v).length = nm
  first : ∀ v ∈ ["iter_R0c", "iter_R0s", "iter_Z0c", "iter_Z0s"], (r.vec v).length ≤ nm

open Classical in
/-- The counters after the results for the indices `l`: how many there were, how many are to be saved, how many each
threshold rejects, and the number of evaluations. -/
structure Counted (o : Ops F) (cfg : Cfg F) (res : Nat → Final F) (l : List Nat) (m : Master F) : Prop where
  size : m.filters.length = 17
  attempts : m.filters.getD 0 0 = l.length
  kept : m.filters.getD 1 0 = l.countP fun i => decide (Keep o cfg (res i))
  rejected : ∀ c ∈ counterMeaning o cfg, m.filters.getD c.1 0 = l.countP fun i => !cfg.keepAll && c.2 (res i)
  evals : m.nEvals = (l.map fun i => (res i).nEvals).sum

end Qsc.Spec.MultiScan
