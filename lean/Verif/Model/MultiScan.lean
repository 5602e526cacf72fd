import Verif.Model.Mpi

/-!
# `multiopt_scan.cpp`: master/worker scan over a tensor product of parameters

Process 0 hands out indices, processes 1.. evaluate them and send back two messages per index;
process 0 stores them and, at checkpoints and at the end, filters the columns to keep.

Simplifications: `parameters` and `int_parameters` are lists of columns (the memory layout is
in `Model/VecMat`); printing, timing sums and file writing are left out; whether a checkpoint is
due before index `j` is handed out is an arbitrary Boolean `save j`; an evaluation always returns
(an exception on a worker ends the whole MPI program).  The `while` loop of a worker carries a
bound on its number of passes; the theorems show that the bound is never met.
-/

namespace Qsc.MultiScan
open Qsc.Mpi

/-- Comparisons on the floating point type; arbitrary, so NaN is covered (used in multiopt_scan.cpp
lines 437-536). -/
structure Ops (F : Type) where
  lt : F → F → Bool
  abs : F → F

/-- The results of the last stage (and of the start of the first stage) read by
`eval_scan_index`: scalars by their C++ name after `mo.opts[index].`, and arrays by name
(multiopt_scan.cpp lines 549-619). -/
structure Final (F : Type) where
  nEvals : Int
  helicity : Int
  get : String → F
  vec : String → List F

/-- The settings of the filters: `keep_all` and the thresholds by C++ name (multiopt_scan.hpp lines
51-57). -/
structure Cfg (F : Type) where
  keepAll : Bool
  thr : String → F

/-- Kind of a filter test: `x < t`, `std::abs(x) < t`, `x > t` (multiopt_scan.cpp lines 437-536). -/
inductive Test
  | below
  | absBelow
  | above
  deriving DecidableEq

/-- The filter tests in the order of the code (multiopt_scan.cpp 434-535): slot of the counter in
the `enum` (multiopt_scan.hpp 20-37), quantity, test, threshold. -/
def tests : List (Nat × String × Test × String) :=
  [(2, "q.grid_min_R0", .below, "min_R0_to_keep"),
   (3, "q.iota", .absBelow, "min_iota_to_keep"),
   (4, "q.grid_max_elongation", .above, "max_elongation_to_keep"),
   (5, "q.grid_min_L_grad_B", .below, "min_L_grad_B_to_keep"),
   (6, "q.B20_grid_variation", .above, "max_B20_variation_to_keep"),
   (8, "q.d2_volume_d_psi2", .above, "max_d2_volume_d_psi2_to_keep"),
   (9, "q.DMerc_times_r2", .below, "min_DMerc_times_r2_to_keep"),
   (7, "q.grid_min_L_grad_grad_B", .below, "min_L_grad_grad_B_to_keep"),
   (10, "q.r_singularity_robust", .below, "min_r_singularity_to_keep"),
   (11, "q.grid_max_XY2", .above, "max_XY2_to_keep"),
   (12, "q.grid_max_Z2", .above, "max_Z2_to_keep"),
   (13, "q.grid_max_XY3", .above, "max_XY3_to_keep"),
   (14, "q.grid_max_d_XY2_d_varphi", .above, "max_d_XY2_d_varphi_to_keep"),
   (15, "q.grid_max_d_Z2_d_varphi", .above, "max_d_Z2_d_varphi_to_keep"),
   (16, "q.grid_max_d_XY3_d_varphi", .above, "max_d_XY3_d_varphi_to_keep")]

variable {F : Type}

/-- The condition of one filter test (multiopt_scan.cpp lines 437-536). -/
def rejects (o : Ops F) (cfg : Cfg F) (r : Final F) (x : String) (t : Test) (thr : String) : Bool :=
  match t with
  | .below => o.lt (r.get x) (cfg.thr thr)
  | .absBelow => o.lt (o.abs (r.get x)) (cfg.thr thr)
  | .above => o.lt (cfg.thr thr) (r.get x)

/-- One test: on rejection count it and clear `passed_filters` (multiopt_scan.cpp lines 437-536). -/
def applyTest (o : Ops F) (cfg : Cfg F) (r : Final F) (st : List Int × Bool)
    (t : Nat × String × Test × String) : List Int × Bool :=
  if rejects o cfg r t.2.1 t.2.2.1 t.2.2.2 then (st.1.modify t.1 (· + 1), false) else st

/-- `filters_local` and `passed_filters` after the filters (multiopt_scan.cpp 260-261, 431-538). -/
def runFilters (o : Ops F) (cfg : Cfg F) (r : Final F) : List Int × Bool :=
  let f0 := (List.replicate 17 (0 : Int)).modify 0 (· + 1)
  let st := if cfg.keepAll then (f0, true) else tests.foldl (applyTest o cfg r) (f0, true)
  if st.2 then (st.1.modify 1 (· + 1), st.2) else st

/-- `int_parameters_single` (multiopt_scan.cpp 542-547). -/
def packInts (o : Ops F) (cfg : Cfg F) (j : Nat) (r : Final F) : List Int :=
  let (f, p) := runFilters o cfg r
  [(j : Int), if p then 1 else 0, r.nEvals, r.helicity] ++ f

/-- Sources of rows 1-57 of `parameters_single` (multiopt_scan.cpp 553-610). Names starting with
`iter_` are `mo.opts[0].iter_...[0]`, the others belong to the last stage. -/
def rowSources : List String :=
  ["q.eta_bar", "q.sigma0", "q.B2c", "q.B2s", "q.grid_min_R0", "q.grid_max_curvature", "q.iota",
   "q.grid_max_elongation", "q.grid_min_L_grad_B", "q.grid_min_L_grad_grad_B",
   "q.r_singularity_robust", "q.d2_volume_d_psi2", "q.DMerc_times_r2", "q.B20_grid_variation",
   "q.B20_residual", "q.B20_mean", "q.standard_deviation_of_R", "q.standard_deviation_of_Z",
   "q.grid_max_XY2", "q.grid_max_Z2", "q.grid_max_XY3", "q.grid_max_d_XY2_d_varphi",
   "q.grid_max_d_Z2_d_varphi", "q.grid_max_d_XY3_d_varphi", "q.grid_max_d2_XY2_d_varphi2",
   "q.grid_max_d2_XY3_d_varphi2", "q.axis_length", "q.p2", "iter_eta_bar", "iter_B2c", "iter_B2s",
   "weight_B20", "weight_iota", "target_iota", "weight_elongation", "weight_curvature",
   "weight_R0", "min_R0", "weight_d2_volume_d_psi2", "max_d2_volume_d_psi2",
   "weight_DMerc_times_r2", "min_DMerc_times_r2", "weight_XY2", "weight_XY2Prime",
   "weight_XY2PrimePrime", "weight_Z2", "weight_Z2Prime", "weight_XY3", "weight_XY3Prime",
   "weight_XY3PrimePrime", "weight_grad_B", "weight_grad_grad_B", "weight_r_singularity",
   "weight_axis_length", "target_axis_length", "weight_standard_deviation_of_R",
   "weight_B20_mean"]

/-- Writing an array at an offset (multiopt_scan.cpp lines 224-227). -/
def writeBlock (buf : List F) (off : Nat) (xs : List F) : List F :=
  buf.take off ++ xs ++ buf.drop (off + xs.length)

/-- The eight Fourier blocks in the order of multiopt_scan.cpp 612-623: the first four come from
the last stage, the others from iteration 0 of the first stage. -/
def blockSources : List String :=
  ["q.R0c", "q.R0s", "q.Z0c", "q.Z0s", "iter_R0c", "iter_R0s", "iter_Z0c", "iter_Z0s"]

/-- `parameters_single` (multiopt_scan.cpp 549-623): row 0 is the run time, then the scalars, then
block `b` from row `58 + b * nm`.  The buffer starts with zeros (init, line 93); blocks 4-7 may be
shorter than `nm`, their remaining rows keep the initial zero. -/
def packFloats (zero : F) (nm : Nat) (time : F) (r : Final F) : List F :=
  let start := [time] ++ rowSources.map r.get ++ List.replicate (8 * nm) zero
  blockSources.zipIdx.foldl (fun buf (s, b) => writeBlock buf (b * nm + 58) (r.vec s)) start

/-- The two messages of one evaluation (multiopt_scan.cpp lines 191-192). -/
structure Report (F : Type) where
  ints : List Int
  flts : List F

/-- Messages: one index, `n_int_parameters` integers, `n_parameters` floats (multiopt_scan.cpp
lines 134, 163, 173, 191-192). -/
inductive Msg (F : Type)
  | idx (z : Int)
  | ints (v : List Int)
  | flts (v : List F)

/-- The global arrays on process 0. -/
structure Master (F : Type) where
  params : List (List F)
  ints : List (List Int)
  filters : List Int
  attemptsPerProc : List Nat
  nSolvesKept : List Nat
  nEvals : Int

/-- Saved columns: integer part and float part of each kept index (multiopt_scan.cpp lines
778-783). -/
abbrev Saved (F : Type) := List (List Int × List F)

/-- Failures (exceptions and undefined accesses of multiopt_scan.cpp lines 106-238). -/
inductive Err
  | throw (msg : String)
  | undefined (msg : String)

/-- What a process returns (the arrays of multiopt_scan.hpp lines 72-79 at the end of `scan`). -/
inductive Res (F : Type)
  | master (m : Master F) (saves : List (Master F × Saved F)) (final : Saved F)
  | worker (evaluated : List Nat)
  | fail (e : Err)

/-- The storing part of `proc0_recv` (multiopt_scan.cpp 222-235); writing outside an array is
undefined (`none`), and so is a message of another size. -/
def store (nPar : Nat) (m : Master F) (src : Nat) (iv : List Int) (pv : List F) :
    Option (Master F) :=
  let j := iv.getD 0 0
  if iv.length = 21 ∧ pv.length = nPar ∧ 0 ≤ j ∧ j.toNat < m.params.length then
    some {
      params := m.params.set j.toNat pv
      ints := m.ints.set j.toNat (iv.take 4)
      filters := List.zipWith (· + ·) m.filters (iv.drop 4)
      attemptsPerProc := m.attemptsPerProc.modify src (· + 1)
      nSolvesKept := if 0 < (iv.drop 4).getD 1 0 then m.nSolvesKept.modify src (· + 1)
        else m.nSolvesKept
      nEvals := m.nEvals + iv.getD 2 0 }
  else none

/-- The unpacking loop of `filter_global_arrays` (multiopt_scan.cpp 774-851): columns whose entry 1
is below 1 are skipped; writing past the `n_scan` allocated entries is undefined. -/
def filterLoop (nScan : Int) : List (List Int × List F) → Saved F → Except Err (Saved F)
  | [], acc => .ok acc
  | (iv, pv) :: rest, acc =>
    if iv.getD 1 0 < 1 then filterLoop nScan rest acc
    else if (acc.length : Int) < nScan then filterLoop nScan rest (acc ++ [(iv, pv)])
    else .error (.undefined "scan array index")

/-- `filter_global_arrays` (multiopt_scan.cpp 694-860). -/
def filterGlobal (m : Master F) : Except Err (Saved F) :=
  let nScan := m.filters.getD 1 0
  match filterLoop nScan (m.ints.zip m.params) [] with
  | .error e => .error e
  | .ok s => if (s.length : Int) = nScan then .ok s
    else .error (.throw "mismatch in number of configs saved.")

variable {W : Nat}

/-- Processes: 0 is the master, the others are workers. -/
abbrev P (W : Nat) (F : Type) := Proc (Fin (W + 1)) (Msg F) (Res F)

/-- Worker loop (multiopt_scan.cpp 176-195) and the barrier (202). -/
def worker (rep : Nat → Report F) : Nat → List Nat → P W F
  | 0, _ => .done (.fail (.undefined "bound on passes"))
  | f + 1, ev => .recv 0 0 fun msg => match msg with
    | .idx z =>
      if z < 0 then .barrier (.done (.worker ev))
      else .send 0 0 (.ints (rep z.toNat).ints) <|
        .send 0 0 (.flts (rep z.toNat).flts) <| worker rep f (ev ++ [z.toNat])
    | _ => .done (.fail (.undefined "message type"))

/-- Second receive of `proc0_recv` (multiopt_scan.cpp 220) and the storing. -/
def recvFloats (nPar : Nat) (m : Master F) (src : Fin (W + 1)) (iv : List Int)
    (k : Fin (W + 1) → Master F → P W F) : P W F :=
  .recv src 0 fun msg => match msg with
    | .flts pv => match store nPar m src iv pv with
      | some m' => k src m'
      | none => .done (.fail (.undefined "global array index"))
    | _ => .done (.fail (.undefined "message type"))

/-- `proc0_recv` (multiopt_scan.cpp 214-238). -/
def proc0Recv (nPar : Nat) (m : Master F) (k : Fin (W + 1) → Master F → P W F) : P W F :=
  .recvAny fun src msg => match msg with
    | .ints iv => recvFloats nPar m src iv k
    | _ => .done (.fail (.undefined "message type"))

/-- Ranks `1 .. n_procs - 1`. -/
def ranks (W : Nat) : List (Fin (W + 1)) := (List.finRange W).map Fin.succ

/-- First batch (multiopt_scan.cpp 130-133). -/
def firstBatch : List (Fin (W + 1)) → P W F → P W F
  | [], k => k
  | j :: js, k => .send j 0 (.idx ((j : Int) - 1)) (firstBatch js k)

/-- The remaining indices (multiopt_scan.cpp 135-163): `r` indices are left, the next is `j`. -/
def handOut (nPar : Nat) (save : Nat → Bool) (k : Master F → List (Master F × Saved F) → P W F) :
    Nat → Nat → Master F → List (Master F × Saved F) → P W F
  | 0, _, m, sv => k m sv
  | r + 1, j, m, sv =>
    if save j then
      match filterGlobal m with
      | .ok s => proc0Recv nPar m fun src m' =>
          .send src 0 (.idx j) (handOut nPar save k r (j + 1) m' (sv ++ [(m, s)]))
      | .error e => .done (.fail e)
    else proc0Recv nPar m fun src m' =>
      .send src 0 (.idx j) (handOut nPar save k r (j + 1) m' sv)

/-- The last results (multiopt_scan.cpp 165-173): after each result, a stop message goes to rank
`j`, not to the sender of the result. -/
def lastResults (nPar : Nat) (k : Master F → P W F) : List (Fin (W + 1)) → Master F → P W F
  | [], m => k m
  | j :: js, m => proc0Recv nPar m fun _ m' => .send j 0 (.idx (-1)) (lastResults nPar k js m')

/-- After the barrier (multiopt_scan.cpp 202-206). -/
def finish (sv : List (Master F × Saved F)) (m : Master F) : P W F :=
  .barrier <| match filterGlobal m with
    | .ok s => .done (.master m sv s)
    | .error e => .done (.fail e)

/-- The zeroed global arrays (init 94-101, scan 123-124). -/
def Master.init (zero : F) (nPar n W : Nat) : Master F where
  params := List.replicate n (List.replicate nPar zero)
  ints := List.replicate n (List.replicate 4 0)
  filters := List.replicate 17 0
  attemptsPerProc := List.replicate (W + 1) 0
  nSolvesKept := List.replicate (W + 1) 0
  nEvals := 0

/-- Process 0. -/
def master (zero : F) (nPar n : Nat) (save : Nat → Bool) : P W F :=
  firstBatch (ranks W) <|
    handOut nPar save (fun m sv => lastResults nPar (finish sv) (ranks W) m)
      (n - W) W (Master.init zero nPar n W) []

/-- `MultiOptScan::scan` (multiopt_scan.cpp 106-208) with `W` workers and `n` indices; `rep i` is
what the evaluation of index `i` sends back; `bound` limits the passes of a worker loop. -/
def system (zero : F) (nPar n bound : Nat) (save : Nat → Bool) (rep : Nat → Report F) :
    Fin (W + 1) → P W F := fun i =>
  if W + 1 < 2 then .done (.fail (.throw
    "For MultiOptScan, the number of MPI processes must be at least 2."))
  else if n < W then .done (.fail (.throw
    "For MultiOptScan, the number of MPI processes cannot exceed n_scan_all + 1."))
  else if i = 0 then master zero nPar n save else worker rep bound []

/-- Unpacking of the scalar rows (multiopt_scan.cpp 783-842): output array and row. -/
def unpackRows : List (String × Nat) :=
  [("scan_eta_bar", 1), ("scan_sigma0", 2), ("scan_B2c", 3),
   ("scan_B2s", 4), ("scan_min_R0", 5), ("scan_max_curvature", 6),
   ("scan_iota", 7), ("scan_max_elongation", 8), ("scan_min_L_grad_B", 9),
   ("scan_min_L_grad_grad_B", 10), ("scan_r_singularity", 11), ("scan_d2_volume_d_psi2", 12),
   ("scan_DMerc_times_r2", 13), ("scan_B20_variation", 14), ("scan_B20_residual", 15),
   ("scan_B20_mean", 16), ("scan_standard_deviation_of_R", 17), ("scan_standard_deviation_of_Z", 18),
   ("scan_max_XY2", 19), ("scan_max_Z2", 20), ("scan_max_XY3", 21),
   ("scan_max_d_XY2_d_varphi", 22), ("scan_max_d_Z2_d_varphi", 23), ("scan_max_d_XY3_d_varphi", 24),
   ("scan_max_d2_XY2_d_varphi2", 25), ("scan_max_d2_XY3_d_varphi2", 26), ("scan_axis_length", 27),
   ("scan_p2", 28), ("scan_initial_eta_bar", 29), ("scan_initial_B2c", 30),
   ("scan_initial_B2s", 31), ("scan_weight_B20", 32), ("scan_weight_iota", 33),
   ("scan_target_iota", 34), ("scan_weight_elongation", 35), ("scan_weight_curvature", 36),
   ("scan_weight_R0", 37), ("scan_target_min_R0", 38), ("scan_weight_d2_volume_d_psi2", 39),
   ("scan_max_d2_volume_d_psi2", 40), ("scan_weight_DMerc_times_r2", 41), ("scan_min_DMerc_times_r2", 42),
   ("scan_weight_XY2", 43), ("scan_weight_XY2Prime", 44), ("scan_weight_XY2PrimePrime", 45),
   ("scan_weight_Z2", 46), ("scan_weight_Z2Prime", 47), ("scan_weight_XY3", 48),
   ("scan_weight_XY3Prime", 49), ("scan_weight_XY3PrimePrime", 50), ("scan_weight_grad_B", 51),
   ("scan_weight_grad_grad_B", 52), ("scan_weight_r_singularity", 53), ("scan_weight_axis_length", 54),
   ("scan_target_axis_length", 55), ("scan_weight_standard_deviation_of_R", 56), ("scan_weight_B20_mean", 57)]

/-- Unpacking of the Fourier rows (multiopt_scan.cpp 844-855): output array and block. -/
def unpackBlocks : List (String × Nat) :=
  [("scan_R0c", 0), ("scan_R0s", 1), ("scan_Z0c", 2), ("scan_Z0s", 3),
   ("scan_initial_R0c", 4), ("scan_initial_R0s", 5), ("scan_initial_Z0c", 6), ("scan_initial_Z0s", 7)]

/-- `scan_x[j] = parameters(row, j_global)`: entry of a scalar output array for a saved column
(multiopt_scan.cpp lines 786-845). -/
def Saved.scalar (s : Saved F) (name : String) : List (Option F) :=
  match unpackRows.lookup name with
  | none => []
  | some row => s.map fun c => c.2[row]?

/-- `scan_x(k, j) = parameters(k + block * axis_nmax_plus_1 + n_parameters_base, j_global)`. -/
def Saved.mode (s : Saved F) (nm : Nat) (name : String) (k : Nat) : List (Option F) :=
  match unpackBlocks.lookup name with
  | none => []
  | some b => s.map fun c => c.2[k + b * nm + 58]?

/-- `scan_n_evals[j]` and `scan_helicity[j]` (multiopt_scan.cpp 779-780). -/
def Saved.nEvals (s : Saved F) : List (Option Int) := s.map fun c => c.1[2]?
/-- `scan_helicity[j]` (multiopt_scan.cpp line 783). -/
def Saved.helicity (s : Saved F) : List (Option Int) := s.map fun c => c.1[3]?

/-- The two messages of the evaluation of index `j` with result `r` and run time `time`
(multiopt_scan.cpp 244-625). -/
def report (o : Ops F) (cfg : Cfg F) (zero : F) (nm : Nat) (time : F) (j : Nat) (r : Final F) :
    Report F where
  ints := packInts o cfg j r
  flts := packFloats zero nm time r

/-- The scan in which index `i` has the result `res i` and the run time `time i`; `nm` is
`axis_nmax_plus_1` and `n_parameters` is `n_parameters_base + 8 * nm` (multiopt_scan.cpp 88-92). -/
def scan (o : Ops F) (cfg : Cfg F) (zero : F) (nm n bound : Nat) (save : Nat → Bool)
    (res : Nat → Final F) (time : Nat → F) : Fin (W + 1) → P W F :=
  system zero (58 + 8 * nm) n bound save fun i => report o cfg zero nm (time i) i (res i)

end Qsc.MultiScan
