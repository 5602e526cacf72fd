import Verif.Model.Mpi
import Verif.Model.ScanLoop

/-!
# `scan_collect_results.cpp`: gathering the results of a random scan on process 0

Process `0` is the root, the others are workers.  Arrays are flat lists in the memory order of
the C++ arrays (column major, see `Model/VecMat`).  Simplified: printing and the sums of the
timings are left out (the timing messages are sent and received).
-/

namespace Qsc.Collect
open Qsc.Mpi

/-- What a process holds when it enters `collect_results` (scan_collect_results.cpp lines 14-31,
parameters and members). -/
structure Local (F : Type) where
  /-- `filters_local`, 17 counters in `enum` order -/
  filters : List Nat
  timing : List F
  jScan : Nat
  /-- `parameters_local`, `n_parameters = 20` rows -/
  params : List F
  /-- `fourier_parameters_local`, `4 * axis_nmax_plus_1` rows -/
  fourier : List F
  /-- `int_parameters_local`, one row -/
  ints : List Int

/-- Messages: MPI_UNSIGNED_LONG_LONG, MPI_QSCFLOAT and MPI_INT buffers (scan_collect_results.cpp
lines 41-45, 95-122). -/
inductive Msg (F : Type)
  | big (xs : List Nat)
  | flt (xs : List F)
  | int (xs : List Int)

/-- The combined arrays on process 0. -/
structure Gathered (F : Type) where
  nScan : Nat
  filters : List Nat
  params : List F
  fourier : List F
  ints : List Int

variable {F : Type} {n : Nat}

/-- A process of the gathering: the result is `none` if a message of the wrong type or size, or
a write outside an array, is met; process 0 returns the combined arrays of all collections. -/
abbrev P (n : Nat) (F : Type) := Proc (Fin (n + 1)) (Msg F) (Option (List (Gathered F)))

/-- `filters_local[KEPT] = j_scan` (scan_collect_results.cpp 33). -/
def Local.setKept (L : Local F) : List Nat := L.filters.set 1 L.jScan

/-- Workers (scan_collect_results.cpp 33-46 and the final barrier); `nf` is
`n_fourier_parameters`. -/
def workerCollect (nf : Nat) (rank : Fin (n + 1)) (L : Local F) (k : P n F) : P n F :=
  .barrier <|
  .send 0 rank (.big L.setKept) <|
  .send 0 rank (.flt L.timing) <|
  .send 0 rank (.flt (L.params.take (20 * L.jScan))) <|
  .send 0 rank (.flt (L.fourier.take (nf * L.jScan))) <|
  .send 0 rank (.int (L.ints.take (1 * L.jScan))) <|
  .barrier k

/-- Root, first loop (scan_collect_results.cpp 63-69): counters and timings of each rank. -/
def gatherCounts : List (Fin (n + 1)) → List (List Nat) → (List (List Nat) → P n F) → P n F
  | [], acc, k => k acc
  | r :: rs, acc, k =>
    .recv r r fun m => match m with
      | .big f => if f.length ≤ 17 then
          .recv r r fun m' => match m' with
            | .flt _ => gatherCounts rs (acc ++ [f]) k
            | _ => .done none
        else .done none
      | _ => .done none

/-- Writing a message into an array at an offset; outside is undefined behaviour (`MPI_Recv` into
`&x[offset]`, scan_collect_results.cpp lines 116-122). -/
def writeAt {α : Type} (buf : List α) (off : Nat) (xs : List α) : Option (List α) :=
  if off + xs.length ≤ buf.length then some (buf.take off ++ xs ++ buf.drop (off + xs.length))
  else none

/-- Root, second loop (scan_collect_results.cpp 121-131): results of each rank, placed at a
running column offset.  A message longer than the expected count is an error. -/
def gatherData (nf : Nat) (kept : Nat → Nat) :
    List (Fin (n + 1)) → Nat → List F → List F → List Int →
      (List F → List F → List Int → P n F) → P n F
  | [], _, p, f, i, k => k p f i
  | r :: rs, off, p, f, i, k =>
    .recv r r fun m => match m with
      | .flt xs => if xs.length ≤ 20 * kept r then
          match writeAt p (20 * off) xs with
          | some p => .recv r r fun m' => match m' with
            | .flt ys => if ys.length ≤ nf * kept r then
                match writeAt f (nf * off) ys with
                | some f => .recv r r fun m'' => match m'' with
                  | .int zs => if zs.length ≤ 1 * kept r then
                      match writeAt i (off * 1) zs with
                      | some i => gatherData nf kept rs (off + kept r) p f i k
                      | none => .done none
                    else .done none
                  | _ => .done none
                | none => .done none
              else .done none
            | _ => .done none
          | none => .done none
        else .done none
      | _ => .done none

/-- Ranks `1 .. n_procs - 1`. -/
def workers (n : Nat) : List (Fin (n + 1)) := (List.finRange n).map Fin.succ

/-- `filters[j]` summed over all processes (scan_collect_results.cpp 71-78). -/
def sumFilters (blocks : List (List Nat)) : List Nat :=
  (List.range 17).map fun j => (blocks.map fun b => b.getD j 0).sum

/-- Root (scan_collect_results.cpp 33-36, 48-131).  `n_scan = filters[KEPT]`; the arrays start
zeroed; the root's own columns are the leading `j_scan` columns (the double loop of lines
108-118 visits exactly the leading `rows * j_scan` elements). -/
def rootCollect (zero : F) (nf : Nat) (L : Local F) (k : Gathered F → P n F) : P n F :=
  .barrier <|
  gatherCounts (workers n) [L.setKept] fun blocks =>
    let filters := sumFilters blocks
    let nScan := filters.getD 1 0
    let kept := fun j => (blocks.getD j []).getD 1 0
    match writeAt (List.replicate (20 * nScan) zero) 0 (L.params.take (20 * L.jScan)),
      writeAt (List.replicate (nf * nScan) zero) 0 (L.fourier.take (nf * L.jScan)),
      writeAt (List.replicate (1 * nScan) (0 : Int)) 0 (L.ints.take (1 * L.jScan)) with
    | some p, some f, some i =>
      gatherData nf kept (workers n) L.jScan p f i fun p f i =>
        .barrier (k { nScan, filters, params := p, fourier := f, ints := i })
    | _, _, _ => .done none

/-- A worker that enters `collect_results` once per element of the list (the calls in
scan_random.cpp lines 94-95 and 287-288). -/
def workerRun (nf : Nat) (rank : Fin (n + 1)) : List (Local F) → P n F
  | [] => .done (some [])
  | L :: Ls => workerCollect nf rank L (workerRun nf rank Ls)

/-- The root, collecting once per element of the list (the calls in scan_random.cpp lines 94-95 and
287-288). -/
def rootRun (zero : F) (nf : Nat) : List (Local F) → List (Gathered F) → P n F
  | [], acc => .done (some acc)
  | L :: Ls, acc => rootCollect zero nf L fun g => rootRun zero nf Ls (acc ++ [g])

/-- The whole scan as seen by MPI: `Ls i` is what process `i` holds at each of its calls of
`collect_results` (checkpoints, scan_random.cpp 92-97, and the final call, 286-287). -/
def system (zero : F) (nf : Nat) (Ls : Fin (n + 1) → List (Local F)) : Fin (n + 1) → P n F :=
  fun i => if i = 0 then rootRun zero nf (Ls 0) [] else workerRun nf i (Ls i)

/-- `scan_x[j] = parameters(k, j)` for all `j` (scan_collect_results.cpp 157-176). -/
def Gathered.row (g : Gathered F) (k : Nat) : List (Option F) :=
  (List.range g.nScan).map fun j => g.params[k + 20 * j]?

/-- `scan_helicity[j] = int_parameters[0 + j * 1]` (scan_collect_results.cpp 178). -/
def Gathered.helicity (g : Gathered F) : List (Option Int) :=
  (List.range g.nScan).map fun j => g.ints[0 + j * 1]?

/-- `scan_R0c(k, j)`, `scan_R0s`, `scan_Z0c`, `scan_Z0s` for block `b = 0, 1, 2, 3`
(scan_collect_results.cpp 180-185); `nm` is `axis_nmax_plus_1`. -/
def Gathered.mode (g : Gathered F) (nm b k : Nat) : List (Option F) :=
  (List.range g.nScan).map fun j => g.fourier[(k + b * nm) + 4 * nm * j]?

/-- The scalar output arrays and the row they are read from (scan_collect_results.cpp 157-176). -/
def unpackRows : List (String × Nat) :=
  [("scan_eta_bar", 0), ("scan_sigma0", 1), ("scan_B2c", 2), ("scan_B2s", 3), ("scan_p2", 4),
   ("scan_axis_length", 5), ("scan_min_R0", 6), ("scan_max_curvature", 7), ("scan_iota", 8),
   ("scan_max_elongation", 9), ("scan_min_L_grad_B", 10), ("scan_min_L_grad_grad_B", 11),
   ("scan_r_singularity", 12), ("scan_d2_volume_d_psi2", 13), ("scan_DMerc_times_r2", 14),
   ("scan_B20_variation", 15), ("scan_B20_residual", 16), ("scan_standard_deviation_of_R", 17),
   ("scan_standard_deviation_of_Z", 18), ("scan_beta", 19)]

/-- The Fourier output arrays and their block (scan_collect_results.cpp 180-185). -/
def unpackBlocks : List (String × Nat) :=
  [("scan_R0c", 0), ("scan_R0s", 1), ("scan_Z0c", 2), ("scan_Z0s", 3)]

/-- Scalar output array `name` (scan_collect_results.cpp lines 155-175). -/
def Gathered.scalar (g : Gathered F) (name : String) : Option (List (Option F)) :=
  (unpackRows.lookup name).map g.row

/-- Row `k` of the Fourier output array `name` (scan_collect_results.cpp lines 149-152 and the
unpacking loop). -/
def Gathered.amplitude (g : Gathered F) (nm : Nat) (name : String) (k : Nat) :
    Option (List (Option F)) :=
  (unpackBlocks.lookup name).map fun b => g.mode nm b k

/-- The local arrays as left by the attempt loop; unwritten columns hold some `junk`
(scan_random.cpp lines 17-19 and 247-276). -/
def ofScan (junk : Scan.Column F) (timing : List F) (s : Scan.Local F) : Local F where
  filters := Scan.Counter.all.map s.filters
  timing := timing
  jScan := s.jScan
  params := s.cols.flatMap fun c => (c.getD junk).params
  fourier := s.cols.flatMap fun c => (c.getD junk).fourier
  ints := s.cols.map fun c => (c.getD junk).helicity

end Qsc.Collect
