import Verif.Model.MultiScanPipeline
import Verif.Model.MultiOptRun
import Verif.Model.ScanRun

/-!
# A scan of multi-stage optimizations from the input file to the output file: `MultiOptScan::run`
(multiopt_scan.cpp 43-51)

The grid of `Model/MultiScanPipeline`, the stages of `Model/Pipeline` with the calculations of `Model/Single`, the
exchange of messages of `Model/MultiScan`, and the file of `Model/Output`.  Exact real arithmetic.  Printing and timing
are left out; the times that are stored are given.
-/

namespace Qsc.MultiScanRun

open Qsc.Netcdf (Data Mem)
open Qsc.Toml (QscIn)
open Qsc.Single (Lib Result assign)
open Qsc.MultiScan (Cfg Final Master Saved)
open Qsc.MultiScanPipeline (Plan)

/-- What can go wrong in a run: exceptions and undefined behaviour of the parts (multiopt_scan.cpp 43-51), or an input
outside the model. -/
inductive Err
  /-- `qsc::outfile` (multiopt_scan.cpp 44) -/
  | name (e : Outfile.Err)
  /-- `input`, `init` and the evaluation of a grid point (45, 46, 244-425) -/
  | scan (e : MultiScanPipeline.Err)
  /-- A stage makes no iteration.  The results that are then packed were never calculated or are those of the stage
  before; this is not modelled. -/
  | idle
  /-- an input outside the model -/
  | outside (what : String)
  /-- an access outside an array, or a member that does not exist -/
  | undefined
  /-- `write_netcdf` (multiopt_scan.cpp 49, 152) -/
  | file (e : Netcdf.Err)
  deriving DecidableEq

/-! ## One grid point -/

/-- The results that are packed or compared with thresholds: the members of `q` set by `calculate`
(multiopt_scan.cpp 437-576). -/
def resultMembers : List String :=
  ["grid_min_R0", "grid_max_curvature", "iota", "grid_max_elongation", "grid_min_L_grad_B", "grid_min_L_grad_grad_B",
   "r_singularity_robust", "d2_volume_d_psi2", "DMerc_times_r2", "B20_grid_variation", "B20_residual", "B20_mean",
   "standard_deviation_of_R", "standard_deviation_of_Z", "grid_max_XY2", "grid_max_Z2", "grid_max_XY3",
   "grid_max_d_XY2_d_varphi", "grid_max_d_Z2_d_varphi", "grid_max_d_XY3_d_varphi", "grid_max_d2_XY2_d_varphi2",
   "grid_max_d2_XY3_d_varphi2", "axis_length"]

/-- `mo.opts[index].q.x` for a result `x` (multiopt_scan.cpp 437-576). -/
noncomputable def result (o : Ops ℝ) (r : Result ℝ) (x : String) : ℝ :=
  (resultMembers.find? fun a => "q." ++ a == x).elim 0 fun a => OptRun.elem o r a 0

/-- What `eval_scan_index` reads of the last `q` that is not an input (multiopt_scan.cpp 437-576).  Helper of the
model; no counterpart in the code. -/
noncomputable def look (o : Ops ℝ) (x : Result ℝ) : MultiScanPipeline.Look (Result ℝ) :=
  ⟨fun _ a => result o x a, fun _ => x.axis.helicity⟩

/-- `eval_scan_index` (multiopt_scan.cpp 244-635) for grid point `i`, up to the filters: the stages of the grid point
are run, and the results at the end of the last one are read.  `q` then holds the results of its last evaluation; they
are made from its inputs again here, because the loop of the model does not keep them.  In single precision the stages
do nothing (optimize.cpp 18-21). -/
noncomputable def evalPoint (L : Lib ℝ) (gsl : Nat → Nat → (p : Nat) → OptLoop.Gsl ℝ p) (r : Sections.MultiScanObj ℝ)
    (p : Plan) (i : Nat) : Except Err (Final ℝ) :=
  match MultiScanPipeline.stagesAt r p i with
  | .error e => .error (.scan e)
  | .ok os =>
    match MultiOptRun.firstQ os with
    | none => .error .undefined
    | some q =>
      if q.nfp ≤ 0 then .error (.outside "nfp")
      else if L.single then .error .idle
      else
        match Pipeline.runStages (fun j => OptRun.world L (gsl j) q) 0 os none 0 with
        | .error e => .error (.scan (.run e))
        | .ok (sts, total) =>
          if sts.any fun st => st.nIter == 0 then .error .idle
          else
            match sts.getLast? with
            | none => .error .undefined
            | some st =>
              match OptRun.physics L q st.q st.nphi with
              | .error m => .error (.scan (.run (.run (.throw m))))
              | .ok x =>
                match MultiScanPipeline.finalOf (look L.ops x) p.nm os sts total with
                | .error e => .error (.scan e)
                | .ok a => .ok a

/-! ## The output file -/

/-- The counters and their names in multiopt_scan.hpp 20-37. -/
def counterNames : List (String × Nat) :=
  [("ATTEMPTS", 0), ("KEPT", 1), ("REJECTED_DUE_TO_R0", 2), ("REJECTED_DUE_TO_IOTA", 3),
   ("REJECTED_DUE_TO_ELONGATION", 4), ("REJECTED_DUE_TO_L_GRAD_B", 5), ("REJECTED_DUE_TO_B20_VARIATION", 6),
   ("REJECTED_DUE_TO_L_GRAD_GRAD_B", 7), ("REJECTED_DUE_TO_D2_VOLUME_D_PSI2", 8), ("REJECTED_DUE_TO_DMERC", 9),
   ("REJECTED_DUE_TO_R_SINGULARITY", 10), ("REJECTED_DUE_TO_MAX_XY2", 11), ("REJECTED_DUE_TO_MAX_Z2", 12),
   ("REJECTED_DUE_TO_MAX_XY3", 13), ("REJECTED_DUE_TO_MAX_D_XY2_D_VARPHI", 14),
   ("REJECTED_DUE_TO_MAX_D_Z2_D_VARPHI", 15), ("REJECTED_DUE_TO_MAX_D_XY3_D_VARPHI", 16)]

/-- `filters[k]` (multiopt_scan.cpp 230). -/
def counter (m : Master ℝ) (k : Nat) : Int := m.filters.getD k 0

/-- The settings that are members of `MultiOptScan` (multiopt_scan.hpp 48, 51-56). -/
def settingNames : List String :=
  ["max_seconds", "print_status_period", "save_period", "min_R0_to_keep", "min_iota_to_keep",
   "max_elongation_to_keep", "min_L_grad_B_to_keep", "min_L_grad_grad_B_to_keep", "max_B20_variation_to_keep",
   "min_r_singularity_to_keep", "max_d2_volume_d_psi2_to_keep", "min_DMerc_times_r2_to_keep", "max_XY2_to_keep",
   "max_Z2_to_keep", "max_XY3_to_keep", "max_d_XY2_d_varphi_to_keep", "max_d_Z2_d_varphi_to_keep",
   "max_d_XY3_d_varphi_to_keep"]

/-- The members of `mo_ref.opts[0].q` that are written (multiopt_scan_write_netcdf.cpp 38, 96-103). -/
def qMembers (q : QscIn ℝ) : List (String × Data ℝ) :=
  [("mo_ref.opts[0].q.nfp", .ints [q.nfp]), ("mo_ref.opts[0].q.sG", .ints [q.sG]),
   ("mo_ref.opts[0].q.spsi", .ints [q.spsi]),
   ("mo_ref.opts[0].q.max_newton_iterations", .ints [q.max_newton_iterations]),
   ("mo_ref.opts[0].q.max_linesearch_iterations", .ints [q.max_linesearch_iterations]),
   ("mo_ref.opts[0].q.newton_tolerance", .flts [q.newton_tolerance]), ("mo_ref.opts[0].q.I2", .flts [q.I2]),
   ("mo_ref.opts[0].q.B0", .flts [q.B0]), ("mo_ref.opts[0].q.p2", .flts [q.p2])]

/-- The counters, the sizes and the time as members (multiopt_scan.hpp 49, 66, 78); `n_scan` is `filters[KEPT]`
(multiopt_scan.cpp 701). -/
def counters (m : Master ℝ) (nm : Nat) (cpu : ℝ) : List (String × Data ℝ) :=
  [("axis_nmax_plus_1", .ints [(nm : Int)]), ("n_scan", .ints [counter m 1]), ("total_cpu_seconds", .flts [cpu])] ++
  counterNames.map fun x => ("filters[" ++ x.1 ++ "]", .ints [counter m x.2])

/-- `filter_fractions` (`print_status`, multiopt_scan.cpp 653).  Without attempts the code has 0 / 0. -/
noncomputable def fractions (m : Master ℝ) : List (String × Data ℝ) :=
  counterNames.map fun x => ("filter_fractions[" ++ x.1 ++ "]", .flts [(counter m x.2 : ℝ) / (counter m 0 : ℝ)])

/-- A matrix of `nm` rows, one column per configuration, in memory (vector_matrix.hpp 84-100, the loop of
multiopt_scan.cpp 844-855). -/
def columnMajor (s : Saved ℝ) (nm : Nat) (a : String) : List (Option ℝ) :=
  (List.range s.length).flatMap fun j => (List.range nm).map fun k => (s.mode nm a k)[j]?.join

/-- The `scan_...` arrays (multiopt_scan.cpp 774-855); `none` is an access outside the global arrays. -/
def arrays (s : Saved ℝ) (nm : Nat) : Option (List (String × Data ℝ)) :=
  (MultiScan.unpackRows.mapM fun x => ((s.scalar x.1).mapM id).map fun l => (x.1, Data.flts l)).bind fun a =>
  (s.helicity.mapM id).bind fun h =>
  (s.nEvals.mapM id).bind fun e =>
  (MultiScan.unpackBlocks.mapM fun x => ((columnMajor s nm x.1).mapM id).map fun l => (x.1, Data.flts l)).bind fun b =>
  some (a ++ [("scan_helicity", Data.ints h), ("scan_n_evals", Data.ints e)] ++ b)

/-- `MultiOptScan::write_netcdf` (multiopt_scan_write_netcdf.cpp 9-180) on process 0 after `print_status` and
`filter_global_arrays`, which left the arrays `s`; `m` are the global arrays and counters.  `m0` is what the members
hold before they are set. -/
noncomputable def write (toF : Nat → ℝ) (r : Sections.MultiScanObj ℝ) (p : Plan) (m0 : Mem ℝ) (cpu : ℝ) (m : Master ℝ)
    (s : Saved ℝ) : Except Err (Netcdf.File ℝ) :=
  match Pipeline.getBool r.mem "keep_all", MultiOptRun.firstQ r.ref.opts, arrays s p.nm with
  | some keepAll, some q, some a =>
    match Output.writeMultiopt toF ⟨keepAll, fun b => if b = "n_evals" then m.nEvals.toNat else 0,
        assign m0 (settingNames.map (fun a => (a, ScanRun.dataOf (r.mem a))) ++ qMembers q ++ counters m p.nm cpu ++
          fractions m ++ a)⟩ with
    | .error e => .error (.file e)
    | .ok f => .ok f
  | _, _, _ => .error .undefined

/-! ## The run -/

/-- Comparisons of real numbers (used in multiopt_scan.cpp 437-536). -/
noncomputable def cmp : MultiScan.Ops ℝ := ⟨fun a b => decide (a < b), fun x => |x|⟩

/-- What is given to a run with `W` workers: libraries, the answers of GSL for each grid point and stage, clocks, and
what is in memory before it is set; `buffered` says which messages MPI may buffer. -/
structure World (W : Nat) where
  L : Lib ℝ
  gsl : Nat → Nat → Nat → (p : Nat) → OptLoop.Gsl ℝ p
  m0 : Mem ℝ
  /-- `total_cpu_seconds` when a file is written; it is not in the file -/
  cpu : ℝ
  /-- a checkpoint is due before this index is handed out -/
  save : Nat → Bool
  time : Nat → ℝ
  buffered : Fin (W + 1) → Fin (W + 1) → MultiScan.Msg ℝ → Prop

/-- `MultiOptScan::scan` on all processes (multiopt_scan.cpp 106-208), when grid point `i` has the result `res i`. -/
noncomputable def World.system {W : Nat} (w : World W) (cfg : Cfg ℝ) (p : Plan) (res : Nat → Final ℝ) :
    Fin (W + 1) → MultiScan.P W ℝ :=
  MultiScan.scan cmp cfg 0 p.nm p.total (p.total + 1) w.save res w.time

/-- `MultiOptScan mos; mos.run(path)` on all processes (multiopt_scan.cpp 43-51, driver.cpp 78-79) for a parsed input
file: it can end with an output file of this name, to which these contents were written one after the other, at the
checkpoints and at the end; there are none with `quit_after_init`.  The result of a grid point does not depend on
messages, so it is made before; `write_netcdf` on process 0 does not communicate, so it comes after. -/
structure Ends {W : Nat} (w : World W) (path : List Char) (file : Sections.File ℝ) (name : List Char)
    (files : List (Netcdf.File ℝ)) : Prop where
  name : Outfile.outfile path = .ok name
  exec : ∃ (r : Sections.MultiScanObj ℝ) (cfg : Cfg ℝ) (p : Plan),
    MultiScanPipeline.start w.L.lit w.L.single file = .ok (r, cfg, p) ∧
    (Pipeline.getBool r.mem "quit_after_init" = some true ∧ files = [] ∨
     Pipeline.getBool r.mem "quit_after_init" = some false ∧
      ∃ (res : Nat → Final ℝ) (k : Nat) (t : _) (m : Master ℝ) (sv : List (Master ℝ × Saved ℝ)) (out : Saved ℝ),
        (∀ i, i < p.total → evalPoint w.L (w.gsl i) r p i = .ok (res i)) ∧
        Mpi.Steps w.buffered k (Mpi.St.start (w.system cfg p res)) t ∧ t.Finished ∧
        t.procs 0 = .done (.master m sv out) ∧
        (sv ++ [(m, out)]).mapM (fun x => write w.L.toF r p w.m0 w.cpu x.1 x.2) = .ok files)

end Qsc.MultiScanRun
