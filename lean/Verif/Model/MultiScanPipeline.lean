import Verif.Model.Pipeline
import Verif.Model.MultiScan
import Verif.Model.ScanParams

/-!
# From the input file to a scan of multi-stage optimizations: `MultiOptScan::run`
(multiopt_scan.cpp 43-51), `init` (53-104) and `eval_scan_index` (244-635)

Joins the reading of the file (`Model/Sections`), the grid (`Model/ScanGrid`), the setting of the
parameters (`Model/ScanParams`), the stages (`Model/Pipeline`) and the scan on many processes
(`Model/MultiScan`).  Numbers are real numbers.  Every process reads the same file, so the members
are the same on all processes.  Output files, printing and timing are left out; `quit_after_init`
is a member that the caller of the scan looks at.
-/

namespace Qsc.MultiScanPipeline

open Qsc.Sections Qsc.Pipeline Qsc.Toml

/-- What can go wrong (exceptions, failing asserts and undefined accesses in
multiopt_scan_input.cpp and multiopt_scan.cpp lines 60-425). -/
inductive Err
  | input (e : Sections.Err)
  /-- exception in `init` -/
  | throw (msg : String)
  /-- setting a scanned parameter -/
  | param (e : ScanParams.Err)
  /-- running the stages -/
  | run (e : Pipeline.Err)
  /-- a member or array element that does not exist -/
  | undefined (what : String)
  /-- a negative size; what the code then does is not modelled -/
  | outside
  deriving DecidableEq

variable {P : Type}

/-- Failures of one kind as failures of another. Helper of the model; no counterpart in the code. -/
def lift {ε α : Type} (f : ε → Err) : Except ε α → Except Err α
  | .ok a => .ok a
  | .error e => .error (f e)

/-- Using something that may not exist. Helper of the model; no counterpart in the code. -/
def need {α : Type} (what : String) : Option α → Except Err α
  | some a => .ok a
  | none => .error (.undefined what)

/-- One dimension of the scan: `params[j]`, `params_stage[j]` and the numbers of its grid
(multiopt_scan.hpp lines 61-65). -/
structure Dim where
  name : String
  stage : Int
  grid : ScanGrid.Dim

/-- `params[j]` (multiopt_scan.hpp line 61). -/
noncomputable def strAt (o : Obj ℝ) (m : String) (j : Nat) : Option String :=
  match o m with
  | some (.strs l) => l[j]?
  | _ => none

/-- `params_min[j]` and `params_max[j]` (multiopt_scan.hpp line 62). -/
noncomputable def fltAt (o : Obj ℝ) (m : String) (j : Nat) : Option ℝ :=
  match o m with
  | some (.flts l) => l[j]?
  | _ => none

/-- `params_n[j]` and `params_stage[j]` (multiopt_scan.hpp line 64). -/
noncomputable def intAt (o : Obj ℝ) (m : String) (j : Nat) : Option Int :=
  match o m with
  | some (.ints l) => l[j]?
  | _ => none

/-- `params_log[j]` (multiopt_scan.hpp line 63). -/
noncomputable def boolAt (o : Obj ℝ) (m : String) (j : Nat) : Option Bool :=
  match o m with
  | some (.bools l) => l[j]?
  | _ => none

/-- The entries of the six arrays for dimension `j` (72-82, 280-281). -/
noncomputable def dimAt (o : Obj ℝ) (j : Nat) : Except Err Dim :=
  (need "params" (strAt o "params" j)).bind fun name =>
  (need "params_stage" (intAt o "params_stage" j)).bind fun stage =>
  (need "params_log" (boolAt o "params_log" j)).bind fun log =>
  (need "params_min" (fltAt o "params_min" j)).bind fun lo =>
  (need "params_max" (fltAt o "params_max" j)).bind fun hi =>
  (need "params_n" (intAt o "params_n" j)).bind fun n =>
  .ok ⟨name, stage, ⟨log, lo, hi, n⟩⟩

/-- What `init` computes: the dimensions, `n_scan_all`, `params_vals` and `axis_nmax_plus_1`. -/
structure Plan where
  dims : List Dim
  total : Nat
  vals : List (List ℝ)
  nm : Nat

/-- `axis_nmax_plus_1` (89-90). -/
noncomputable def axisCount (os : List (OptObj ℝ)) : Except Err Nat :=
  (need "opts[0]" os[0]?).bind fun o =>
  (need "fourier_refine" (os.mapM fun o => getInt o.mem "fourier_refine")).bind fun rs =>
  if (o.q.R0c.length : Int) + rs.sum < 0 then .error .outside
  else .ok ((o.q.R0c.length : Int) + rs.sum).toNat

/-- `init` (53-104) without MPI. -/
noncomputable def init (r : MultiScanObj ℝ) : Except Err Plan :=
  ((List.range r.ndim).mapM (dimAt r.mem)).bind fun dims =>
  (lift .throw (ScanGrid.init (dims.map Dim.grid))).bind fun g =>
  (axisCount r.ref.opts).bind fun nm =>
  .ok ⟨dims, g.1, g.2, nm⟩

/-- The parameters of grid point `i` (270-281). -/
noncomputable def paramsAt (p : Plan) (i : Nat) : Except Err (List (ScanParams.Param ℝ)) :=
  let idx := ScanGrid.decode (p.dims.map fun d => d.grid.n.toNat) i
  (p.dims.zipIdx).mapM fun x =>
    (need "indices" idx[x.2]?).bind fun c =>
    (need "params_vals" ((p.vals[x.2]?).bind fun v => v[c]?)).bind fun v =>
    .ok ⟨x.1.name, x.1.stage, v⟩

/-- The places of an `Opt` that can be scanned (multiopt_scan.cpp lines 291-423). -/
noncomputable def stageOf (o : OptObj ℝ) : ScanParams.Stage ℝ where
  num x :=
    if x = "q.eta_bar" then o.q.eta_bar
    else if x = "q.p2" then o.q.p2
    else if x = "q.B2c" then o.q.B2c
    else if x = "q.B2s" then o.q.B2s
    else (getFlt o.mem x).getD 0
  R0c := o.q.R0c
  Z0s := o.q.Z0s

/-- An `Opt` with new values in the places that can be scanned (multiopt_scan.cpp lines 291-423). -/
def withStage (o : OptObj ℝ) (s : ScanParams.Stage ℝ) : OptObj ℝ where
  q := { o.q with
    eta_bar := s.num "q.eta_bar", p2 := s.num "q.p2", B2c := s.num "q.B2c", B2s := s.num "q.B2s"
    R0c := s.R0c, Z0s := s.Z0s }
  group := o.group
  mem m := if m ∈ ScanParams.settingNames then some (.flt (s.num m)) else o.mem m

/-- `mo = mo_ref` and the setting of the parameters (277-424): the stages of grid point `i`. -/
noncomputable def stagesAt (r : MultiScanObj ℝ) (p : Plan) (i : Nat) :
    Except Err (List (OptObj ℝ)) :=
  (paramsAt p i).bind fun ps =>
  (lift .param (ScanParams.setAll p.nm (r.ref.opts.map stageOf) ps)).bind fun ss =>
  .ok (List.zipWith withStage r.ref.opts ss)

/-- Looking at quantities of the last `q` that are not inputs (multiopt_scan.cpp lines 541-576). -/
structure Look (P : Type) where
  num : OptLoop.St ℝ P → String → ℝ
  helicity : OptLoop.St ℝ P → Int

/-- The members of the last stage among the rows of `parameters_single` (583-610). -/
def settingRows : List String :=
  ["weight_B20", "weight_iota", "target_iota", "weight_elongation", "weight_curvature",
   "weight_R0", "min_R0", "weight_d2_volume_d_psi2", "max_d2_volume_d_psi2",
   "weight_DMerc_times_r2", "min_DMerc_times_r2", "weight_XY2", "weight_XY2Prime",
   "weight_XY2PrimePrime", "weight_Z2", "weight_Z2Prime", "weight_XY3", "weight_XY3Prime",
   "weight_XY3PrimePrime", "weight_grad_B", "weight_grad_grad_B", "weight_r_singularity",
   "weight_axis_length", "target_axis_length", "weight_standard_deviation_of_R",
   "weight_B20_mean"]

/-- The arrays `iter_*` are filled with 0.0 when they are allocated (opt_allocate.cpp 11-60). -/
noncomputable def iter0 (h : Option (OptLoop.Rec ℝ P)) (f : OptState.Config ℝ → ℝ) : ℝ :=
  h.elim 0 fun r => f r.q

/-- `iter_R0c(j, 0)` and its companions (multiopt_scan.cpp lines 614-619): the rows of the first
recorded column, zero when nothing was recorded (opt_allocate.cpp). -/
noncomputable def iterArr (h : Option (OptLoop.Rec ℝ P)) (rows : Nat)
    (f : OptState.Config ℝ → List ℝ) : List ℝ :=
  h.elim (List.replicate rows 0) fun r => f r.q

/-- The scalars that are packed (553-610): `o0` and `st0` belong to the first stage, `o1` and `st1`
to the last. `q.p2` is handed on from stage to stage with the rest of `q` (multiopt.cpp 84). -/
noncomputable def scalar (look : Look P) (o0 o1 : OptObj ℝ) (st1 : OptLoop.St ℝ P)
    (h : Option (OptLoop.Rec ℝ P)) (x : String) : ℝ :=
  if x ∈ settingRows then (getFlt o1.mem x).getD 0
  else if x = "q.eta_bar" then st1.q.etaBar
  else if x = "q.sigma0" then st1.q.sigma0
  else if x = "q.B2c" then st1.q.B2c
  else if x = "q.B2s" then st1.q.B2s
  else if x = "q.p2" then o0.q.p2
  else if x = "iter_eta_bar" then iter0 h (·.etaBar)
  else if x = "iter_B2c" then iter0 h (·.B2c)
  else if x = "iter_B2s" then iter0 h (·.B2s)
  else look.num st1 x

/-- The arrays that are packed (612-623); `rows` is the number of rows of `iter_R0c`. -/
noncomputable def array (nm : Nat) (st0 st1 : OptLoop.St ℝ P) (h : Option (OptLoop.Rec ℝ P))
    (x : String) : List ℝ :=
  if x = "q.R0c" then st1.q.R0c.take nm
  else if x = "q.R0s" then st1.q.R0s.take nm
  else if x = "q.Z0c" then st1.q.Z0c.take nm
  else if x = "q.Z0s" then st1.q.Z0s.take nm
  else if x = "iter_R0c" then iterArr h st0.q.R0c.length (·.R0c)
  else if x = "iter_R0s" then iterArr h st0.q.R0c.length (·.R0s)
  else if x = "iter_Z0c" then iterArr h st0.q.R0c.length (·.Z0c)
  else if x = "iter_Z0s" then iterArr h st0.q.R0c.length (·.Z0s)
  else []

/-- What is read from `mo` after `mo.optimize()` (427-623).  The last `q` must have
`axis_nmax_plus_1` modes, and element 0 of the history must exist. -/
noncomputable def finalOf (look : Look P) (nm : Nat) (os : List (OptObj ℝ))
    (sts : List (OptLoop.St ℝ P)) (total : Nat) : Except Err (MultiScan.Final ℝ) :=
  (need "opts[0]" os[0]?).bind fun o0 =>
  (need "opts[index]" os.getLast?).bind fun o1 =>
  (need "opts[0]" sts[0]?).bind fun st0 =>
  (need "opts[index]" sts.getLast?).bind fun st1 =>
  (need "iter_eta_bar[0]" st0.hist[0]?).bind fun h =>
  if st1.q.R0c.length < nm ∨ st1.q.R0s.length < nm ∨ st1.q.Z0c.length < nm ∨
      st1.q.Z0s.length < nm then .error (.undefined "q.R0c")
  else .ok ⟨total, look.helicity st1, scalar look o0 o1 st1 h, array nm st0 st1 h⟩

/-- `eval_scan_index` (244-635) up to the filters; `w j` is the library and the physics at stage
`j`. -/
noncomputable def evalIndex (w : Nat → World ℝ P) (look : Look P) (r : MultiScanObj ℝ) (p : Plan)
    (i : Nat) : Except Err (MultiScan.Final ℝ) :=
  (stagesAt r p i).bind fun os =>
  (lift .run (runStages w 0 os none 0)).bind fun x =>
  finalOf look p.nm os x.1 x.2

/-- The settings of the filters (multiopt_scan.hpp lines 51-57). -/
noncomputable def cfgOf (o : Obj ℝ) : Except Err (MultiScan.Cfg ℝ) :=
  (need "keep_all" (getBool o "keep_all")).bind fun k =>
  .ok ⟨k, fun x => (getFlt o x).getD 0⟩

/-- Reading the file and `init` (multiopt_scan_input.cpp lines 11-60, multiopt_scan.cpp lines
60-104). -/
noncomputable def start (lit : String → ℝ) (single : Bool) (f : File ℝ) :
    Except Err (MultiScanObj ℝ × MultiScan.Cfg ℝ × Plan) :=
  (lift .input (multiScanInput (fun z => (z : ℝ)) 0 f (optNew lit single) (multiScanNew lit))).bind
    fun r =>
  (init r).bind fun p =>
  (cfgOf r.mem).bind fun c => .ok (r, c, p)

end Qsc.MultiScanPipeline
