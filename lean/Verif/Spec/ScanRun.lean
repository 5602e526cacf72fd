import Verif.Model.Single
import Verif.Spec.Single
import Verif.Spec.ScanPipeline
import Verif.Spec.ScanLoop

/-!
# Specification of a random scan from the input file to the output file

What a reader finds in the output file of a scan, and which variables of the output file of a single run it repeats.
-/

namespace Qsc.Spec.ScanRun
open Qsc.Netcdf Qsc.Spec.Single Qsc.Toml Qsc.ScanDraws Qsc.Scan Qsc.Spec.ScanPipeline

/-- The configuration of the input with what was drawn in an attempt, on a grid of `n` points. -/
def configuration (q : QscIn ℝ) (d : Drawn) (n : Nat) : QscIn ℝ :=
  { q with
    nphi := n, eta_bar := d.etaBar, sigma0 := d.sigma0, B2c := d.B2c, B2s := d.B2s, p2 := d.p2
    R0c := d.R0c, R0s := d.R0s, Z0c := d.Z0c, Z0s := d.Z0s }

/-- `c` is what was drawn and what the output file `f` of a single run says. -/
structure Says (f : File ℝ) (order : String) (d : Drawn) (c : Cand ℝ) : Prop where
  numbers : c.etaBar = d.etaBar ∧ c.sigma0 = d.sigma0 ∧ c.B2c = d.B2c ∧ c.B2s = d.B2s ∧ c.p2 = d.p2
  axis : c.R0c = d.R0c ∧ c.R0s = d.R0s ∧ c.Z0c = d.Z0c ∧ c.Z0s = d.Z0s
  helicity : Integer f "helicity" c.helicity
  first : ∀ a ∈ [("axis_length", c.axisLength), ("grid_min_R0", c.gridMinR0),
    ("grid_max_curvature", c.gridMaxCurvature), ("iota", c.iota), ("grid_max_elongation", c.gridMaxElongation),
    ("grid_min_L_grad_B", c.gridMinLGradB), ("standard_deviation_of_R", c.sdR),
    ("standard_deviation_of_Z", c.sdZ)], Scalar f a.1 a.2
  second : order ≠ "r1" → ∀ a ∈ [("grid_min_L_grad_grad_B", c.gridMinLGradGradB),
    ("r_singularity_robust", c.rSingularity), ("d2_volume_d_psi2", c.d2Volume), ("DMerc_times_r2", c.dMerc),
    ("B20_grid_variation", c.b20Variation), ("B20_residual", c.b20Residual), ("beta", c.beta)], Scalar f a.1 a.2

/-- A single run for the configuration `q`, in which `d` was drawn, ends, and `c` is what its output file says,
whatever the input file looks like, and there is such an input file. -/
def Computes (L : Qsc.Single.Lib ℝ) (q : QscIn ℝ) (d : Drawn) (c : Cand ℝ) : Prop :=
  (∃ file, Spec.Sections.WellFormed file ∧ Input L.single file q) ∧
  ∀ (m0 : Mem ℝ) (path name : List Char) (file : Sections.File ℝ), Outfile.outfile path = .ok name →
    Spec.Sections.WellFormed file → Input L.single file q →
    ∃ r f, Qsc.Single.run L m0 path file = .ok (name, r, f) ∧ Says f q.order_r_option d c

/-- The attempt is to be kept: a single run for it ends, and its output meets the requirements of the input file
`o`. -/
def Keep (L : Qsc.Single.Lib ℝ) (o : Sections.Obj ℝ) (q : QscIn ℝ) (n : Nat) (d : Drawn) : Prop :=
  ∃ c, Computes L (configuration q d n) d c ∧ Meets o q.order_r_option c

/-- Element `k` of an array with one element per configuration, of which there are `m`. -/
def Column (f : File ℝ) (m : Nat) (a : String) (k : Nat) (x : ℝ) : Prop :=
  ∃ l, Holds f a [("n_scan", m)] (.flts l) ∧ l.length = m ∧ l[k]? = some x

/-- The same for an array of integers. -/
def IntColumn (f : File ℝ) (m : Nat) (a : String) (k : Nat) (x : Int) : Prop :=
  ∃ l, Holds f a [("n_scan", m)] (.ints l) ∧ l.length = m ∧ l[k]? = some x

/-- Column `k` of an array that holds the coefficients of a Fourier series of each configuration. -/
def AxisColumn (f : File ℝ) (m : Nat) (a : String) (k : Nat) (v : List ℝ) : Prop :=
  ∃ l, Holds f a [("n_scan", m), ("axis_nmax_plus_1", v.length)] (.flts l) ∧ l.length = m * v.length ∧
    ∀ j, j < v.length → l[k * v.length + j]? = v[j]?

/-- Element `k` of the arrays is the configuration `c`. -/
structure Records (f : File ℝ) (m : Nat) (order : String) (k : Nat) (c : Cand ℝ) : Prop where
  first : ∀ a ∈ [("scan_eta_bar", c.etaBar), ("scan_sigma0", c.sigma0), ("scan_axis_length", c.axisLength),
    ("scan_iota", c.iota), ("scan_min_R0", c.gridMinR0), ("scan_max_curvature", c.gridMaxCurvature),
    ("scan_max_elongation", c.gridMaxElongation), ("scan_min_L_grad_B", c.gridMinLGradB),
    ("scan_standard_deviation_of_R", c.sdR), ("scan_standard_deviation_of_Z", c.sdZ)], Column f m a.1 k a.2
  helicity : IntColumn f m "scan_helicity" k c.helicity
  axis : ∀ a ∈ [("scan_R0c", c.R0c), ("scan_R0s", c.R0s), ("scan_Z0c", c.Z0c), ("scan_Z0s", c.Z0s)],
    AxisColumn f m a.1 k a.2
  second : order ≠ "r1" → ∀ a ∈ [("scan_B2c", c.B2c), ("scan_B2s", c.B2s), ("scan_p2", c.p2),
    ("scan_min_L_grad_grad_B", c.gridMinLGradGradB), ("scan_B20_variation", c.b20Variation),
    ("scan_B20_residual", c.b20Residual), ("scan_r_singularity", c.rSingularity),
    ("scan_d2_volume_d_psi2", c.d2Volume), ("scan_DMerc_times_r2", c.dMerc), ("scan_beta", c.beta)],
    Column f m a.1 k a.2

/-- The counters of rejected attempts in the file, and the fractions of attempts.  Helicity and beta have no
fraction in the file. -/
def rejected : List (String × Option String) :=
  [("rejected_due_to_R0_crude", some "fraction_rejected_due_to_R0_crude"),
   ("rejected_due_to_R0", some "fraction_rejected_due_to_R0"),
   ("rejected_due_to_helicity", none),
   ("rejected_due_to_curvature", some "fraction_rejected_due_to_curvature"),
   ("rejected_due_to_iota", some "fraction_rejected_due_to_iota"),
   ("rejected_due_to_elongation", some "fraction_rejected_due_to_elongation"),
   ("rejected_due_to_L_grad_B", some "fraction_rejected_due_to_L_grad_B"),
   ("rejected_due_to_B20_variation", some "fraction_rejected_due_to_B20_variation"),
   ("rejected_due_to_L_grad_grad_B", some "fraction_rejected_due_to_L_grad_grad_B"),
   ("rejected_due_to_d2_volume_d_psi2", some "fraction_rejected_due_to_d2_volume_d_psi2"),
   ("rejected_due_to_DMerc", some "fraction_rejected_due_to_DMerc"),
   ("rejected_due_to_r_singularity", some "fraction_rejected_due_to_r_singularity"),
   ("rejected_due_to_beta", none)]

/-- The axis drawn has positive radius at both symmetry planes. -/
def Positive (d : Drawn) : Prop :=
  0 < ∑ j ∈ Finset.range d.R0c.length, d.R0c.getD j 0 ∧
  0 < ∑ j ∈ Finset.range d.R0c.length, (-1) ^ j * d.R0c.getD j 0

/-- `a` names the first condition in the list that holds. -/
def FirstOf : List (String × Prop) → String → Prop
  | [], _ => False
  | (b, P) :: l, a => P ∧ a = b ∨ ¬ P ∧ FirstOf l a

/-- `x` is below the number `a` of the input file. -/
def Below (o : Sections.Obj ℝ) (a : String) (x : ℝ) : Prop := ∃ t, o a = some (.flt t) ∧ x < t

/-- `x` is above the number `a` of the input file. -/
def Above (o : Sections.Obj ℝ) (a : String) (x : ℝ) : Prop := ∃ t, o a = some (.flt t) ∧ t < x

/-- Why `c` is not kept, in the order in which the reasons count. -/
def reasons (o : Sections.Obj ℝ) (order : String) (c : Cand ℝ) : List (String × Prop) :=
  ([("rejected_due_to_R0", Below o "min_R0_to_keep" c.gridMinR0),
    ("rejected_due_to_helicity", o "helicity_to_keep" = some (.int 0) ∧ c.helicity ≠ 0 ∨
      o "helicity_to_keep" = some (.int 1) ∧ c.helicity ≠ 1 ∧ c.helicity ≠ -1),
    ("rejected_due_to_curvature", Below o "min_L_grad_B_to_keep" (1 / c.gridMaxCurvature)),
    ("rejected_due_to_iota", Below o "min_iota_to_keep" |c.iota|),
    ("rejected_due_to_elongation", Above o "max_elongation_to_keep" c.gridMaxElongation),
    ("rejected_due_to_L_grad_B", Below o "min_L_grad_B_to_keep" c.gridMinLGradB),
    ("rejected_due_to_B20_variation", order ≠ "r1" ∧ Above o "max_B20_variation_to_keep" c.b20Variation),
    ("rejected_due_to_d2_volume_d_psi2", order ≠ "r1" ∧ Above o "max_d2_volume_d_psi2_to_keep" c.d2Volume),
    ("rejected_due_to_DMerc", order ≠ "r1" ∧ Below o "min_DMerc_times_r2_to_keep" c.dMerc),
    ("rejected_due_to_L_grad_grad_B", order ≠ "r1" ∧ Below o "min_L_grad_grad_B_to_keep" c.gridMinLGradGradB),
    ("rejected_due_to_r_singularity", order ≠ "r1" ∧ Below o "min_r_singularity_to_keep" c.rSingularity),
    ("rejected_due_to_beta", order ≠ "r1" ∧ Below o "min_beta_to_keep" c.beta)]).map
    fun x => (x.1, o "keep_all" = some (.bool false) ∧ x.2)

/-- The attempt is to be counted under `a`: its axis has no positive radius at one of the symmetry planes, or `a` is
the first reason against what a single run gives. -/
def Reason (L : Qsc.Single.Lib ℝ) (o : Sections.Obj ℝ) (q : QscIn ℝ) (n : Nat) (a : String) (d : Drawn) : Prop :=
  ¬ Positive d ∧ a = "rejected_due_to_R0_crude" ∨
  Positive d ∧ ∃ c, Computes L (configuration q d n) d c ∧ FirstOf (reasons o q.order_r_option c) a

/-- The attempt can be calculated to the end. -/
def Calculable (L : Qsc.Single.Lib ℝ) (q : QscIn ℝ) (n : Nat) (d : Drawn) : Prop :=
  Positive d → ∃ c, Computes L (configuration q d n) d c

open Classical in
/-- The counters in the file after the attempts `tried`, of which `kept` were kept: every attempt was kept or is
counted under one of the reasons. -/
structure Counts (f : File ℝ) (toF : Nat → ℝ) (L : Qsc.Single.Lib ℝ) (o : Sections.Obj ℝ) (q : QscIn ℝ) (n : Nat)
    (tried : List Drawn) (kept : Nat) : Prop where
  n_scan : Integer f "n_scan" kept
  attempts : Scalar f "attempts" (toF tried.length)
  fraction : 0 < tried.length → Scalar f "fraction_kept" (kept / tried.length)
  reasons : ∃ count : String → Nat, tried.length = kept + (rejected.map fun a => count a.1).sum ∧
    (∀ a ∈ rejected, Scalar f a.1 (toF (count a.1)) ∧
      ∀ b, a.2 = some b → 0 < tried.length → Scalar f b (count a.1 / tried.length)) ∧
    count "rejected_due_to_R0_crude" = (tried.filter fun d => ¬ Positive d).length ∧
    ((∀ d ∈ tried, Calculable L q n d) → ∀ a ∈ rejected, count a.1 = (tried.filter (Reason L o q n a.1)).length)

/-- The settings that are repeated in the file of a scan; `o` are the settings of the scan in the input file, `q`
those of the configuration. -/
structure Settings (f : File ℝ) (o : Sections.Obj ℝ) (q : QscIn ℝ) (n : Nat) : Prop where
  general_option : Text f "general_option" "random"
  order_r_option : Text f "order_r_option" q.order_r_option
  at_least_order_r2 : Integer f "at_least_order_r2" (if q.order_r_option = "r1" then 0 else 1)
  integers : ∀ a ∈ [("nfp", q.nfp), ("nphi", (n : Int)), ("sG", q.sG), ("spsi", q.spsi),
    ("max_newton_iterations", q.max_newton_iterations),
    ("max_linesearch_iterations", q.max_linesearch_iterations)], Integer f a.1 a.2
  numbers : ∀ a ∈ [("newton_tolerance", q.newton_tolerance), ("I2", q.I2), ("B0", q.B0)], Scalar f a.1 a.2
  options : ∀ a ∈ ["eta_bar_scan_option", "sigma0_scan_option", "fourier_scan_option"] ++
    (if q.order_r_option = "r1" then [] else ["B2c_scan_option", "B2s_scan_option", "p2_scan_option"]),
    ∃ s, o a = some (.str s) ∧ Text f a s
  ranges : ∀ a ∈ ["eta_bar_min", "eta_bar_max", "sigma0_min", "sigma0_max"] ++
    (if q.order_r_option = "r1" then [] else ["B2c_min", "B2c_max", "B2s_min", "B2s_max", "p2_min", "p2_max"]),
    ∃ x, o a = some (.flt x) ∧ Scalar f a x
  modes : ∀ a ∈ ["R0c_min", "R0c_max", "R0s_min", "R0s_max", "Z0c_min", "Z0c_max", "Z0s_min", "Z0s_max"],
    ∃ l, o a = some (.flts l) ∧ Coefs f a l
  keep_all : ∃ b, o "keep_all" = some (.bool b) ∧ Integer f "keep_all" (if b then 1 else 0)
  deterministic : ∃ b, o "deterministic" = some (.bool b) ∧ Integer f "deterministic" (if b then 1 else 0)
  /-- `min_beta_to_keep` is not repeated -/
  thresholds : o "keep_all" = some (.bool false) →
    (∃ i, o "helicity_to_keep" = some (.int i) ∧ Integer f "helicity_to_keep" i) ∧
    ∀ a ∈ ["min_R0_to_keep", "min_iota_to_keep", "max_elongation_to_keep", "min_L_grad_B_to_keep"] ++
      (if q.order_r_option = "r1" then [] else ["min_L_grad_grad_B_to_keep", "max_B20_variation_to_keep",
        "min_r_singularity_to_keep", "max_d2_volume_d_psi2_to_keep", "min_DMerc_times_r2_to_keep"]),
      ∃ x, o a = some (.flt x) ∧ Scalar f a x

open Classical in
/-- The attempts that are to be kept. -/
noncomputable def toKeep (L : Qsc.Single.Lib ℝ) (o : Sections.Obj ℝ) (q : QscIn ℝ) (n : Nat) (tried : List Drawn) :
    List Drawn := tried.filter (Keep L o q n)

/-- The file after the attempts `tried`, in the order of the processes. -/
structure Output (f : File ℝ) (toF : Nat → ℝ) (L : Qsc.Single.Lib ℝ) (o : Sections.Obj ℝ) (q : QscIn ℝ) (n : Nat)
    (tried : List Drawn) : Prop where
  settings : Settings f o q n
  counts : Counts f toF L o q n tried (toKeep L o q n tried).length
  records : ∀ k d, (toKeep L o q n tried)[k]? = some d → ∃ c, Computes L (configuration q d n) d c ∧
    Meets o q.order_r_option c ∧ Records f (toKeep L o q n tried).length q.order_r_option k c

end Qsc.Spec.ScanRun
