import Verif.Model.OptRun
import Verif.Spec.MultiOptRun
import Verif.Spec.MultiScanPipeline
import Verif.Spec.ScanRun

/-!
# Specification of a scan of multi-stage optimizations from the input file to the output file

What a reader finds in the output file, and which variables of the output file of a single run it repeats.
-/

namespace Qsc.Spec.MultiScanRun
open Qsc.Netcdf Qsc.Spec.Single Qsc.Toml Qsc.OptState Qsc.Spec.OptLoop Qsc.Spec.Pipeline
open Qsc.Spec.OptRun hiding Column IntColumn AxisColumn
open Qsc.Spec.MultiOptRun Qsc.Spec.MultiScanPipeline
open Qsc.Spec.ScanRun (Column IntColumn AxisColumn Below Above)

/-- Arrays of the scan that repeat a variable of the output file of a single run. -/
def resultRows : List (String × String) :=
  [("scan_iota", "iota"), ("scan_min_R0", "grid_min_R0"), ("scan_max_curvature", "grid_max_curvature"),
   ("scan_max_elongation", "grid_max_elongation"), ("scan_min_L_grad_B", "grid_min_L_grad_B"),
   ("scan_min_L_grad_grad_B", "grid_min_L_grad_grad_B"), ("scan_r_singularity", "r_singularity_robust"),
   ("scan_d2_volume_d_psi2", "d2_volume_d_psi2"), ("scan_DMerc_times_r2", "DMerc_times_r2"),
   ("scan_B20_variation", "B20_grid_variation"), ("scan_B20_residual", "B20_residual"), ("scan_B20_mean", "B20_mean"),
   ("scan_standard_deviation_of_R", "standard_deviation_of_R"),
   ("scan_standard_deviation_of_Z", "standard_deviation_of_Z"), ("scan_axis_length", "axis_length"),
   ("scan_max_XY2", "grid_max_XY2"), ("scan_max_Z2", "grid_max_Z2"), ("scan_max_XY3", "grid_max_XY3"),
   ("scan_max_d_XY2_d_varphi", "grid_max_d_XY2_d_varphi"), ("scan_max_d_Z2_d_varphi", "grid_max_d_Z2_d_varphi"),
   ("scan_max_d_XY3_d_varphi", "grid_max_d_XY3_d_varphi"),
   ("scan_max_d2_XY2_d_varphi2", "grid_max_d2_XY2_d_varphi2"),
   ("scan_max_d2_XY3_d_varphi2", "grid_max_d2_XY3_d_varphi2")]

/-- Arrays of the scan that repeat a setting of the last stage. -/
def settingRows : List (String × String) :=
  [("scan_target_iota", "target_iota"), ("scan_target_axis_length", "target_axis_length"),
   ("scan_target_min_R0", "min_R0"), ("scan_min_DMerc_times_r2", "min_DMerc_times_r2"),
   ("scan_max_d2_volume_d_psi2", "max_d2_volume_d_psi2")] ++
  ["weight_B20", "weight_iota", "weight_elongation", "weight_curvature", "weight_R0", "weight_d2_volume_d_psi2",
   "weight_DMerc_times_r2", "weight_XY2", "weight_XY2Prime", "weight_XY2PrimePrime", "weight_Z2", "weight_Z2Prime",
   "weight_XY3", "weight_XY3Prime", "weight_XY3PrimePrime", "weight_grad_B", "weight_grad_grad_B",
   "weight_r_singularity", "weight_axis_length", "weight_standard_deviation_of_R", "weight_B20_mean"].map
    fun a => ("scan_" ++ a, a)

/-- A grid point: its stages, the section `[qsc]` with which the first one starts, the parameters and grids at the ends
of the stages, the number of evaluations, and what is calculated for the final configuration, by the names in the
output file of a single run. -/
structure Point where
  os : List (Sections.OptObj ℝ)
  q : QscIn ℝ
  ends : List (Config ℝ × Nat)
  evals : Nat
  val : String → ℝ
  hel : Int

/-- A single run for the configuration `q` ends and has these results in its output file, whatever the input file looks
like, and there is such an input file. -/
def Computed (L : Qsc.Single.Lib ℝ) (q : QscIn ℝ) (val : String → ℝ) (hel : Int) : Prop :=
  (∃ file, Spec.Sections.WellFormed file ∧ Input L.single file q) ∧
  ∀ (m0 : Mem ℝ) (path name : List Char) (file : Sections.File ℝ), Outfile.outfile path = .ok name →
    Spec.Sections.WellFormed file → Input L.single file q →
    ∃ r f, Qsc.Single.run L m0 path file = .ok (name, r, f) ∧ Integer f "helicity" hel ∧
      ∀ a ∈ resultRows, Scalar f a.2 (val a.2)

/-- The number of Fourier modes that a stage adds. -/
def added (o : Sections.OptObj ℝ) : Nat :=
  match o.mem "fourier_refine" with
  | some (.int i) => i.toNat
  | _ => 0

/-- What the stages `os` have done: the first starts with the section `q`, the others where the one before ended; what a
stage does not vary keeps its value. -/
structure Optimized (q : QscIn ℝ) (os : List (Sections.OptObj ℝ)) (ends : List (Config ℝ × Nat)) : Prop where
  order : q.order_r_option = "r2.1"
  length : ends.length = os.length
  stage : ∀ j o s c' n' N, os[j]? = some o → IsRaw o.mem s → ends[j]? = some (c', n') →
    N = q.R0c.length + ((os.take j).map added).sum →
    2 ≤ s.maxIter ∧ ∃ c n, Begins q ends j c n ∧ AllSize N c ∧ Spec.OptState.Sized s.fl c ∧
      (∀ p, ¬ MayVary s.fl N s.refine.toNat p →
        Spec.OptState.get c' p = Spec.OptState.get (grow s.refine.toNat c) p) ∧
      AllSize (N + s.refine.toNat) c' ∧ (∃ k ≤ s.refine.toNat, n' = gridAt (s.nphis.map Int.toNat) n k) ∧
      Sound (configuration q c' n') ∧ Points (configuration q c' n') n'

/-- `P` is grid point `i` of a scan of the parameters `ds` with the stages `ref` in the file. -/
structure IsPoint (L : Qsc.Single.Lib ℝ) (gsl : Nat → Nat → (p : Nat) → OptLoop.Gsl ℝ p) (nm : Nat) (ds : List Scanned)
    (ref : List (Sections.OptObj ℝ)) (i : Nat) (P : Point) : Prop where
  stages : P.os.length = ref.length ∧
    ∀ j o o', ref[j]? = some o → P.os[j]? = some o' → StageAt nm ds i j o o'
  start : ∃ o, P.os[0]? = some o ∧ P.q = o.q
  /-- the stages as a multi-stage optimization runs them -/
  ran : ∃ sts, Qsc.Pipeline.runStages (fun j => Qsc.OptRun.world L (gsl j) P.q) 0 P.os none 0 = .ok (sts, P.evals) ∧
    P.evals = (sts.map (·.nEvals)).sum ∧ P.ends = sts.map fun st => (st.q, st.nphi)
  optimized : Optimized P.q P.os P.ends
  computed : ∀ c n, P.ends.getLast? = some (c, n) → Computed L (configuration P.q c n) P.val P.hel

/-! ## Thresholds -/

/-- How a number is compared with a threshold to reject a configuration. -/
inductive Kind
  | below
  | absBelow
  | above

/-- The reasons to reject a configuration: end of the names of the counters, comparison, name of the threshold in the
input file, variable in the output file of a single run. -/
def thresholds : List (String × Kind × String × String) :=
  [("R0", .below, "min_R0_to_keep", "grid_min_R0"), ("iota", .absBelow, "min_iota_to_keep", "iota"),
   ("elongation", .above, "max_elongation_to_keep", "grid_max_elongation"),
   ("L_grad_B", .below, "min_L_grad_B_to_keep", "grid_min_L_grad_B"),
   ("B20_variation", .above, "max_B20_variation_to_keep", "B20_grid_variation"),
   ("L_grad_grad_B", .below, "min_L_grad_grad_B_to_keep", "grid_min_L_grad_grad_B"),
   ("d2_volume_d_psi2", .above, "max_d2_volume_d_psi2_to_keep", "d2_volume_d_psi2"),
   ("DMerc", .below, "min_DMerc_times_r2_to_keep", "DMerc_times_r2"),
   ("r_singularity", .below, "min_r_singularity_to_keep", "r_singularity_robust"),
   ("max_XY2", .above, "max_XY2_to_keep", "grid_max_XY2"), ("max_Z2", .above, "max_Z2_to_keep", "grid_max_Z2"),
   ("max_XY3", .above, "max_XY3_to_keep", "grid_max_XY3"),
   ("max_d_XY2_d_varphi", .above, "max_d_XY2_d_varphi_to_keep", "grid_max_d_XY2_d_varphi"),
   ("max_d_Z2_d_varphi", .above, "max_d_Z2_d_varphi_to_keep", "grid_max_d_Z2_d_varphi"),
   ("max_d_XY3_d_varphi", .above, "max_d_XY3_d_varphi_to_keep", "grid_max_d_XY3_d_varphi")]

/-- The grid point misses this threshold of the input file `o`. -/
def Violates (o : Sections.Obj ℝ) (x : String × Kind × String × String) (P : Point) : Prop :=
  match x.2.1 with
  | .below => Below o x.2.2.1 (P.val x.2.2.2)
  | .absBelow => Below o x.2.2.1 |P.val x.2.2.2|
  | .above => Above o x.2.2.1 (P.val x.2.2.2)

/-- The grid point is to be kept. -/
def ToKeep (o : Sections.Obj ℝ) (P : Point) : Prop :=
  o "keep_all" = some (.bool true) ∨ ∀ x ∈ thresholds, ¬ Violates o x P

/-- The grid point is to be counted under this threshold.  One grid point may be counted under several. -/
def Counted (o : Sections.Obj ℝ) (x : String × Kind × String × String) (P : Point) : Prop :=
  o "keep_all" = some (.bool false) ∧ Violates o x P

/-! ## The file -/

/-- The coefficients of an axis with zeros for modes that it does not have. -/
def pad (nm : Nat) (l : List ℝ) : List ℝ := l ++ List.replicate (nm - l.length) 0

/-- Element `k` of the arrays, which have `m` elements, is the grid point `P`. -/
structure Records (f : File ℝ) (m nm k : Nat) (P : Point) : Prop where
  results : ∀ a ∈ resultRows, Column f m a.1 k (P.val a.2)
  helicity : IntColumn f m "scan_helicity" k P.hel
  evals : IntColumn f m "scan_n_evals" k P.evals
  final : ∀ c n, P.ends.getLast? = some (c, n) →
    (∀ a ∈ [("scan_eta_bar", c.etaBar), ("scan_sigma0", c.sigma0), ("scan_B2c", c.B2c), ("scan_B2s", c.B2s)],
      Column f m a.1 k a.2) ∧
    ∀ a ∈ [("scan_R0c", c.R0c), ("scan_R0s", c.R0s), ("scan_Z0c", c.Z0c), ("scan_Z0s", c.Z0s)], AxisColumn f m a.1 k a.2
  p2 : Column f m "scan_p2" k P.q.p2
  initial : ∀ a ∈ [("scan_initial_eta_bar", P.q.eta_bar), ("scan_initial_B2c", P.q.B2c), ("scan_initial_B2s", P.q.B2s)],
    Column f m a.1 k a.2
  axis : ∀ a ∈ [("scan_initial_R0c", P.q.R0c), ("scan_initial_R0s", P.q.R0s), ("scan_initial_Z0c", P.q.Z0c),
    ("scan_initial_Z0s", P.q.Z0s)], AxisColumn f m a.1 k (pad nm a.2)
  settings : ∀ o, P.os.getLast? = some o → ∀ a ∈ settingRows, ∃ x, o.mem a.2 = some (.flt x) ∧ Column f m a.1 k x

open Classical in
/-- The counters in the file after the grid points `tried`, of which `kept` were kept. -/
structure Counts (f : File ℝ) (toF : Nat → ℝ) (o : Sections.Obj ℝ) (tried : List Point) (kept : Nat) : Prop where
  n_scan : Integer f "n_scan" kept
  attempts : Integer f "attempts" tried.length
  n_evals : Scalar f "n_evals" (toF (tried.map (·.evals)).sum)
  rejected : ∀ x ∈ thresholds, Integer f ("rejected_due_to_" ++ x.1) (tried.countP fun P => decide (Counted o x P))
  fractions : 0 < tried.length → Scalar f "fraction_kept" (kept / tried.length) ∧
    ∀ x ∈ thresholds, Scalar f ("fraction_rejected_due_to_" ++ x.1)
      ((tried.countP fun P => decide (Counted o x P)) / tried.length)

/-- The settings that are repeated in the file; `o` are those of the section `[multiopt_scan]`, `q` those of the section
`[qsc]`. -/
structure Settings (f : File ℝ) (o : Sections.Obj ℝ) (q : QscIn ℝ) : Prop where
  general_option : Text f "general_option" "multiopt_scan"
  integers : ∀ a ∈ [("nfp", q.nfp), ("sG", q.sG), ("spsi", q.spsi),
    ("max_newton_iterations", q.max_newton_iterations),
    ("max_linesearch_iterations", q.max_linesearch_iterations)], Integer f a.1 a.2
  numbers : ∀ a ∈ [("newton_tolerance", q.newton_tolerance), ("I2", q.I2), ("B0", q.B0), ("p2", q.p2)], Scalar f a.1 a.2
  keep_all : ∃ b, o "keep_all" = some (.bool b) ∧ Integer f "keep_all" (if b then 1 else 0)
  thresholds : o "keep_all" = some (.bool false) → ∀ x ∈ thresholds, ∃ t, o x.2.2.1 = some (.flt t) ∧ Scalar f x.2.2.1 t

open Classical in
/-- The grid points of `sofar` that are to be kept, in the order of the grid, which has `n` points. -/
noncomputable def kept (o : Sections.Obj ℝ) (pts : Nat → Point) (n : Nat) (sofar : List Nat) : List Nat :=
  (List.range n).filter fun i => decide (i ∈ sofar ∧ ToKeep o (pts i))

/-- The file after the grid points `sofar`. -/
structure Output (f : File ℝ) (toF : Nat → ℝ) (o : Sections.Obj ℝ) (q : QscIn ℝ) (nm n : Nat) (pts : Nat → Point)
    (sofar : List Nat) : Prop where
  names : (f.vars.map (·.name)).Nodup
  settings : Settings f o q
  counts : Counts f toF o (sofar.map pts) (kept o pts n sofar).length
  records : ∀ k i, (kept o pts n sofar)[k]? = some i → Records f (kept o pts n sofar).length nm k (pts i)

end Qsc.Spec.MultiScanRun
