import Verif.Model.MultiScanPipeline
import Verif.Spec.Pipeline
import Verif.Spec.ScanParams
import Verif.Spec.MultiScan
import Mathlib.Analysis.SpecialFunctions.Pow.Real

/-!
Specification vocabulary for a scan of multi-stage optimizations from an input file (C78, C79), in
terms of the names in the input file.
-/

namespace Qsc.Spec.MultiScanPipeline

open Qsc.Sections Qsc.ScanParams Qsc.Spec.ScanParams Qsc.Spec.Pipeline

/-- One scanned parameter: the entries of the six arrays of `[multiopt_scan]`. -/
structure Scanned where
  name : String
  stage : Int
  log : Bool
  lo : ℝ
  hi : ℝ
  n : Int

/-- The scanned parameters of the file. -/
structure IsScanned (o : Obj ℝ) (ds : List Scanned) : Prop where
  params : o "params" = some (.strs (ds.map (·.name)))
  stage : o "params_stage" = some (.ints (ds.map (·.stage)))
  log : o "params_log" = some (.bools (ds.map (·.log)))
  lo : o "params_min" = some (.flts (ds.map (·.lo)))
  hi : o "params_max" = some (.flts (ds.map (·.hi)))
  n : o "params_n" = some (.ints (ds.map (·.n)))

/-- The number of grid points. -/
def points (ds : List Scanned) : Nat := (ds.map fun d => d.n.toNat).prod

/-- Grid point `i` has this place in dimension `k`, which has `n` values: the last dimension runs
fastest. -/
def coordinate (ds : List Scanned) (k i n : Nat) : Nat := i / points (ds.drop (k + 1)) % n

/-- The value of parameter `d`, dimension `k`, at grid point `i`: equal steps between the bounds, or
equal ratios. -/
noncomputable def pointValue (ds : List Scanned) (i k : Nat) (d : Scanned) : ℝ :=
  let t : ℝ := (coordinate ds k i d.n.toNat : ℝ) / ((d.n : ℝ) - 1)
  if d.log then d.lo * (d.hi / d.lo) ^ t else d.lo + (d.hi - d.lo) * t

/-- A logarithmic grid needs positive bounds. -/
def Positive (ds : List Scanned) : Prop := ∀ d ∈ ds, d.log = true → 0 < d.lo ∧ 0 < d.hi

/-- At grid point `i` the place `x` of stage `j`, which is `a` in the file, has the value `v`: that
of the last scanned parameter for this place and stage, or `a` if there is none. -/
def Setting (nm : Nat) (ds : List Scanned) (i j : Nat) (x : Slot) (a v : ℝ) : Prop :=
  (∃ k d, ds[k]? = some d ∧ (Concerns d.stage j ∧ Names nm d.name x) ∧
    (∀ k' d', k < k' → ds[k']? = some d' → ¬ (Concerns d'.stage j ∧ Names nm d'.name x)) ∧
    v = pointValue ds i k d) ∨
  ((∀ d ∈ ds, ¬ (Concerns d.stage j ∧ Names nm d.name x)) ∧ v = a)

/-- Stage `j` of grid point `i`, compared with stage `j` of the file. -/
structure StageAt (nm : Nat) (ds : List Scanned) (i j : Nat) (o o' : OptObj ℝ) : Prop where
  settings : ∀ m ∈ settings, ∃ a v, o.mem m = some (.flt a) ∧ o'.mem m = some (.flt v) ∧
    Setting nm ds i j (.num m) a v
  members : ∀ m, m ∉ Spec.ScanParams.settings → o'.mem m = o.mem m
  group : o'.group = o.group
  eta_bar : Setting nm ds i j (.num "q.eta_bar") o.q.eta_bar o'.q.eta_bar
  p2 : Setting nm ds i j (.num "q.p2") o.q.p2 o'.q.p2
  B2c : Setting nm ds i j (.num "q.B2c") o.q.B2c o'.q.B2c
  B2s : Setting nm ds i j (.num "q.B2s") o.q.B2s o'.q.B2s
  R0c : o'.q.R0c.length = o.q.R0c.length ∧ ∀ k a v, o.q.R0c[k]? = some a → o'.q.R0c[k]? = some v →
    Setting nm ds i j (.R0c k) a v
  Z0s : o'.q.Z0s.length = o.q.Z0s.length ∧ ∀ k a v, o.q.Z0s[k]? = some a → o'.q.Z0s[k]? = some v →
    Setting nm ds i j (.Z0s k) a v
  others : o'.q = { o.q with
    eta_bar := o'.q.eta_bar, p2 := o'.q.p2, B2c := o'.q.B2c, B2s := o'.q.B2s, R0c := o'.q.R0c,
    Z0s := o'.q.Z0s }

/-- The parameters that can be scanned with `nopts` stages and an axis given by `N` coefficients:
settings of one or all stages that exist; initial conditions of the first stage (or of "all" stages
if there is only one). -/
structure Scannable (N nopts : Nat) (d : Scanned) : Prop where
  stage : d.stage < nopts
  name : d.name ∈ settings ∨
    ((d.name = "eta_bar" ∨ d.name = "p2" ∨ d.name = "B2c" ∨ d.name = "B2s" ∨
        ∃ k, 1 ≤ k ∧ k < N ∧ (d.name = "R0c" ++ toString k ∨ d.name = "Z0s" ++ toString k)) ∧
      (d.stage = 0 ∨ d.stage < 0 ∧ nopts = 1))

/-- All sizes in the file are non-negative. -/
def NaturalSizes (os : List (OptObj ℝ)) : Prop :=
  ∀ o ∈ os, 0 ≤ o.q.nphi ∧ ∀ s, IsRaw o.mem s → Natural s ∧ s.nphis.length < 2 ^ 63

/-- The evaluation of a grid point ends normally with a result that satisfies `Q`, or with an
exception of an optimization. -/
def FineAt {α : Type} (Q : α → Prop) : Except Qsc.MultiScanPipeline.Err α → Prop
  | .ok a => Q a
  | .error e => ∃ m, e = .run (.run (.throw m))

/-- The result for grid point `i`, as far as it repeats inputs; `o0` and `o1` are the first and the
last of the `nopts` stages of the file. -/
structure Result (nm nopts : Nat) (ds : List Scanned) (i : Nat) (o0 o1 : OptObj ℝ)
    (res : Qsc.MultiScan.Final ℝ) : Prop where
  p2 : Setting nm ds i 0 (.num "q.p2") o0.q.p2 (res.get "q.p2")
  settings : ∀ m ∈ settings, ∃ a, o1.mem m = some (.flt a) ∧
    Setting nm ds i (nopts - 1) (.num m) a (res.get m)
  fixed : ∀ m ∈ ["weight_curvature", "weight_R0", "min_R0"], o1.mem m = some (.flt (res.get m))

/-- The recorded initial condition is that of the grid point. -/
structure Initial (nm : Nat) (ds : List Scanned) (i : Nat) (o0 : OptObj ℝ)
    (res : Qsc.MultiScan.Final ℝ) : Prop where
  eta_bar : Setting nm ds i 0 (.num "q.eta_bar") o0.q.eta_bar (res.get "iter_eta_bar")
  B2c : Setting nm ds i 0 (.num "q.B2c") o0.q.B2c (res.get "iter_B2c")
  B2s : Setting nm ds i 0 (.num "q.B2s") o0.q.B2s (res.get "iter_B2s")
  R0c : ∀ k a, o0.q.R0c[k]? = some a →
    Setting nm ds i 0 (.R0c k) a ((res.vec "iter_R0c").getD k 0)
  Z0s : ∀ k a, o0.q.Z0s[k]? = some a →
    Setting nm ds i 0 (.Z0s k) a ((res.vec "iter_Z0s").getD k 0)
  R0s : ∀ k a, o0.q.R0s[k]? = some a → (res.vec "iter_R0s").getD k 0 = a
  Z0c : ∀ k a, o0.q.Z0c[k]? = some a → (res.vec "iter_Z0c").getD k 0 = a
  beyond : ∀ v ∈ ["iter_R0c", "iter_R0s", "iter_Z0c", "iter_Z0s"], ∀ k, o0.q.R0c.length ≤ k →
    (res.vec v).getD k 0 = 0

/-- Nothing was recorded about the initial condition: zeros. -/
structure NoInitial (res : Qsc.MultiScan.Final ℝ) : Prop where
  scalars : ∀ x ∈ ["iter_eta_bar", "iter_B2c", "iter_B2s"], res.get x = 0
  arrays : ∀ v ∈ ["iter_R0c", "iter_R0s", "iter_Z0c", "iter_Z0s"], ∀ k, (res.vec v).getD k 0 = 0

/-- The thresholds of the filters. -/
def thresholds : List String :=
  ["min_R0_to_keep", "min_iota_to_keep", "max_elongation_to_keep", "min_L_grad_B_to_keep",
   "min_L_grad_grad_B_to_keep", "max_B20_variation_to_keep", "max_d2_volume_d_psi2_to_keep",
   "min_DMerc_times_r2_to_keep", "min_r_singularity_to_keep", "max_XY2_to_keep", "max_Z2_to_keep",
   "max_XY3_to_keep", "max_d_XY2_d_varphi_to_keep", "max_d_Z2_d_varphi_to_keep",
   "max_d_XY3_d_varphi_to_keep"]

/-- The output variable `name` has one value for each grid point of `idx`, in this order, and these
values satisfy `Q`. -/
def Column (s : Qsc.MultiScan.Saved ℝ) (name : String) (idx : List Nat) (Q : Nat → ℝ → Prop) :
    Prop :=
  ∃ v : Nat → ℝ, s.scalar name = idx.map (fun i => some (v i)) ∧ ∀ i ∈ idx, Q i (v i)

/-- The same for mode `k` of an output variable with `nm` modes. -/
def ModeColumn (nm : Nat) (s : Qsc.MultiScan.Saved ℝ) (name : String) (k : Nat) (idx : List Nat)
    (Q : Nat → ℝ → Prop) : Prop :=
  ∃ v : Nat → ℝ, s.mode nm name k = idx.map (fun i => some (v i)) ∧ ∀ i ∈ idx, Q i (v i)

/-- Output variables for settings that cannot be scanned. -/
def fixedRows : List (String × String) :=
  [("scan_weight_curvature", "weight_curvature"), ("scan_weight_R0", "weight_R0"),
   ("scan_target_min_R0", "min_R0")]

/-- The output variables for the initial condition of the grid points. -/
structure InitialOut (nm : Nat) (ds : List Scanned) (o0 : OptObj ℝ) (idx : List Nat)
    (s : Qsc.MultiScan.Saved ℝ) : Prop where
  eta_bar : Column s "scan_initial_eta_bar" idx fun i v =>
    Setting nm ds i 0 (.num "q.eta_bar") o0.q.eta_bar v
  B2c : Column s "scan_initial_B2c" idx fun i v => Setting nm ds i 0 (.num "q.B2c") o0.q.B2c v
  B2s : Column s "scan_initial_B2s" idx fun i v => Setting nm ds i 0 (.num "q.B2s") o0.q.B2s v
  R0c : ∀ k a, o0.q.R0c[k]? = some a →
    ModeColumn nm s "scan_initial_R0c" k idx fun i v => Setting nm ds i 0 (.R0c k) a v
  Z0s : ∀ k a, o0.q.Z0s[k]? = some a →
    ModeColumn nm s "scan_initial_Z0s" k idx fun i v => Setting nm ds i 0 (.Z0s k) a v
  R0s : ∀ k a, o0.q.R0s[k]? = some a → ModeColumn nm s "scan_initial_R0s" k idx fun _ v => v = a
  Z0c : ∀ k a, o0.q.Z0c[k]? = some a → ModeColumn nm s "scan_initial_Z0c" k idx fun _ v => v = a
  beyond : ∀ x ∈ ["scan_initial_R0c", "scan_initial_R0s", "scan_initial_Z0c", "scan_initial_Z0s"],
    ∀ k, o0.q.R0c.length ≤ k → k < nm → ModeColumn nm s x k idx fun _ v => v = 0

/-- All these variables are zero. -/
structure NoInitialOut (nm : Nat) (idx : List Nat) (s : Qsc.MultiScan.Saved ℝ) : Prop where
  scalars : ∀ x ∈ ["scan_initial_eta_bar", "scan_initial_B2c", "scan_initial_B2s"],
    Column s x idx fun _ v => v = 0
  modes : ∀ x ∈ ["scan_initial_R0c", "scan_initial_R0s", "scan_initial_Z0c", "scan_initial_Z0s"],
    ∀ k, k < nm → ModeColumn nm s x k idx fun _ v => v = 0

/-- The output for the grid points `idx`, as far as it repeats inputs. The initial condition is
there only if the first stage is of order r2.1 and has room for two iterations. -/
structure Output (nm nopts : Nat) (ds : List Scanned) (o0 o1 : OptObj ℝ) (raw : Qsc.Pipeline.Raw)
    (idx : List Nat) (s : Qsc.MultiScan.Saved ℝ) : Prop where
  p2 : Column s "scan_p2" idx fun i v => Setting nm ds i 0 (.num "q.p2") o0.q.p2 v
  settings : ∀ m ∈ settings, ∃ a, o1.mem m = some (.flt a) ∧
    Column s ("scan_" ++ m) idx fun i v => Setting nm ds i (nopts - 1) (.num m) a v
  fixed : ∀ x ∈ fixedRows, Column s x.1 idx fun _ v => o1.mem x.2 = some (.flt v)
  initial : o0.q.order_r_option = "r2.1" ∧ 2 ≤ raw.maxIter → InitialOut nm ds o0 idx s
  noInitial : ¬ (o0.q.order_r_option = "r2.1" ∧ 2 ≤ raw.maxIter) → NoInitialOut nm idx s

/-- Names of the numbers that can be varied or given; the other numbers of the last configuration
are computed. -/
def given : List String :=
  ["q.eta_bar", "q.sigma0", "q.B2c", "q.B2s", "q.p2", "iter_eta_bar", "iter_B2c", "iter_B2s",
   "weight_curvature", "weight_R0", "min_R0"] ++ settings

/-- The output for the grid points `idx`, as far as it is about the end of the optimizations:
`last i` is the state of the last stage and `evals i` the number of evaluations in all stages. -/
structure FinalOut {P : Type} (look : Qsc.MultiScanPipeline.Look P) (nm : Nat)
    (last : Nat → Qsc.OptLoop.St ℝ P) (evals : Nat → Nat) (idx : List Nat)
    (s : Qsc.MultiScan.Saved ℝ) : Prop where
  eta_bar : Column s "scan_eta_bar" idx fun i v => v = (last i).q.etaBar
  sigma0 : Column s "scan_sigma0" idx fun i v => v = (last i).q.sigma0
  B2c : Column s "scan_B2c" idx fun i v => v = (last i).q.B2c
  B2s : Column s "scan_B2s" idx fun i v => v = (last i).q.B2s
  R0c : ∀ k, k < nm → ModeColumn nm s "scan_R0c" k idx fun i v => (last i).q.R0c[k]? = some v
  R0s : ∀ k, k < nm → ModeColumn nm s "scan_R0s" k idx fun i v => (last i).q.R0s[k]? = some v
  Z0c : ∀ k, k < nm → ModeColumn nm s "scan_Z0c" k idx fun i v => (last i).q.Z0c[k]? = some v
  Z0s : ∀ k, k < nm → ModeColumn nm s "scan_Z0s" k idx fun i v => (last i).q.Z0s[k]? = some v
  computed : ∀ x ∈ Spec.MultiScan.meaning, x.2 ∉ given →
    Column s x.1 idx fun i v => v = look.num (last i) x.2
  helicity : s.helicity = idx.map fun i => some (look.helicity (last i))
  nEvals : s.nEvals = idx.map fun i => some (evals i : Int)

end Qsc.Spec.MultiScanPipeline
