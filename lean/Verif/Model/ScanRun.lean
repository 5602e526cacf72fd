import Verif.Model.ScanPipeline
import Verif.Model.Single

/-!
# A random scan from the input file to the output file: `Scan::run` (scan.cpp 61-66)

The attempt loop of `Model/ScanLoop` with the calculations of `Model/Single`: `Scan::random` calls the parts of
`Qsc::calculate` one after the other and goes on to the next attempt as soon as a threshold is missed.  The object
`q` is used for all attempts, so what an attempt does not set is left from the one before; this is tracked for the
members that are recorded and for `r2_matrix`, which LAPACK overwrites.  Exact real arithmetic.  Printing and
timing are left out.
-/

namespace Qsc.ScanRun

open Qsc.Netcdf (Data Mem)
open Qsc.Toml (QscIn)
open Qsc.Single (Lib assign)
open Qsc.Scan (Cand Cfg Local Counter bump save)
open Qsc.ScanPipeline (realOps Proc)
open Qsc.ScanDraws (Drawn)

/-- What can go wrong in a run: exceptions and undefined behaviour of the parts (scan.cpp 61-66), or an input
outside the model. -/
inductive Err
  /-- `qsc::outfile` (scan.cpp 62) -/
  | name (e : Outfile.Err)
  /-- `Scan::input` and `Scan::random` before the loop (63, 64) -/
  | scan (e : ScanPipeline.Err)
  /-- `q.allocate()` and the calculations in the loop (scan_random.cpp 82, 145-233) -/
  | single (e : Single.Err)
  /-- a column beyond the end of the local arrays (scan_random.cpp 248-276), or an element beyond the end of the
  combined arrays (scan_collect_results.cpp 157-185) -/
  | undefined
  /-- the clock that is given does not end the loop -/
  | running
  /-- `write_netcdf` (scan.cpp 65, scan_random.cpp 96) -/
  | file (e : Netcdf.Err)
  deriving DecidableEq

/-- What the attempts on one process have in common: libraries, what `*gesv` leaves in the matrix, the inputs that
are not scanned, the number of grid points and the thresholds (scan_random.cpp 12-82). -/
structure Env where
  L : Lib ℝ
  left : (Nat → Nat → ℝ) → Nat → Nat → ℝ
  q : QscIn ℝ
  n : Nat
  cfg : Cfg ℝ

/-- What the members of `q` hold: those that are recorded, `r2_matrix`, and what the last `init_axis` set
(qsc.hpp 60-110). -/
structure Members where
  cand : Cand ℝ
  matrix : Nat → Nat → ℝ
  axis : Option (Axis.Axis ℝ)

/-- The configuration of an attempt (scan_random.cpp 113-134). -/
def atDraw (q : QscIn ℝ) (d : Drawn) (n : Nat) : QscIn ℝ :=
  { q with
    nphi := n, eta_bar := d.etaBar, sigma0 := d.sigma0, B2c := d.B2c, B2s := d.B2s, p2 := d.p2
    R0c := d.R0c, R0s := d.R0s, Z0c := d.Z0c, Z0s := d.Z0s }

/-! ## The recorded members, in the order in which an attempt sets them -/

/-- scan_random.cpp 113-134. -/
def setInputs (d : Drawn) (c : Cand ℝ) : Cand ℝ :=
  { c with
    etaBar := d.etaBar, sigma0 := d.sigma0, B2c := d.B2c, B2s := d.B2s, p2 := d.p2
    R0c := d.R0c, R0s := d.R0s, Z0c := d.Z0c, Z0s := d.Z0s }

/-- `init_axis` (scan_random.cpp 145, init_axis.cpp 9-183). -/
def setAxis (a : Axis.Axis ℝ) (c : Cand ℝ) : Cand ℝ :=
  { c with
    axisLength := a.axisLength, gridMinR0 := a.minR0, gridMaxCurvature := a.maxCurvature
    sdR := a.sdR, sdZ := a.sdZ, helicity := a.helicity }

/-- `solve_sigma_equation` and `r1_diagnostics` (scan_random.cpp 169, 176, calculate_r1.cpp 15-116). -/
noncomputable def setFirst (o : Ops ℝ) (p : R1.Cfg ℝ) (st : R1.Stored ℝ) (r : R1.R1 ℝ) (c : Cand ℝ) : Cand ℝ :=
  { c with
    iota := st.iota, gridMaxElongation := r.maxElongation, gridMinLGradB := R1.minLgradB o p r }

/-- `calculate_r2` (scan_random.cpp 196, calculate_r2.cpp 10-291). -/
def setR2 (r : R2.R2 ℝ) (c : Cand ℝ) : Cand ℝ := { c with b20Variation := r.variation, b20Residual := r.residual }

/-- `mercier` (scan_random.cpp 209, mercier.cpp 6-34). -/
def setMercier (m : R2.Mercier ℝ) (c : Cand ℝ) : Cand ℝ := { c with d2Volume := m.d2V, dMerc := m.DMerc }

/-- `calculate_grad_grad_B_tensor` (scan_random.cpp 223, grad_B_tensor.cpp). -/
def setGradGrad (x : ℝ) (c : Cand ℝ) : Cand ℝ := { c with gridMinLGradGradB := x }

/-- `calculate_r_singularity` (scan_random.cpp 233, r_singularity.cpp 10-412). -/
def setSing (s : RSing.Out ℝ) (c : Cand ℝ) : Cand ℝ := { c with rSingularity := s.r, beta := s.beta }

/-! ## One attempt -/

/-- `r2_matrix` has `2 n` rows and columns; outside there is nothing.  Helper of the model; no counterpart in the
code. -/
def clip (n : Nat) (m : Nat → Nat → ℝ) : Nat → Nat → ℝ := fun j k => if j < 2 * n ∧ k < 2 * n then m j k else 0

/-- An attempt from the second order on (scan_random.cpp 196-278).  `calculate_r2` builds its matrix in `r2_matrix`
and leaves there what `*gesv` makes of it.  The third order is not recorded and left out. -/
noncomputable def beyond (e : Env) (i : R2.In ℝ) (a : Axis.Axis ℝ) (s : Local ℝ) (m : Members) :
    Except Single.Err (Local ℝ × Members) :=
  let o := realOps
  let mat := R2.matrix i m.matrix
  match e.L.gesv (2 * i.cfg.nphi) mat (R2.rhs i) with
  | none => .error (.throw "LAPACK error in *gesv")
  | some x =>
    let r := R2.finish e.L.ops i x
    let m := { m with cand := setR2 r m.cand, matrix := clip e.n (e.left mat) }
    let s := bump .nR2 s
    if !e.cfg.keepAll && o.lt e.cfg.maxB20Variation m.cand.b20Variation then .ok (bump .b20Variation s, m)
    else
      let m := { m with cand := setMercier (R2.mercier e.L.ops i r.mean a.dPhi a.axisLength) m.cand }
      if !e.cfg.keepAll && o.lt e.cfg.maxD2Volume m.cand.d2Volume then .ok (bump .d2Volume s, m)
      else if !e.cfg.keepAll && o.lt m.cand.dMerc e.cfg.minDMerc then .ok (bump .dMerc s, m)
      else
        let m := { m with cand := setGradGrad (GradGradB.minLgradGradB e.L.ops i r) m.cand }
        if !e.cfg.keepAll && o.lt m.cand.gridMinLGradGradB e.cfg.minLGradGradB then .ok (bump .lGradGradB s, m)
        else
          match RSing.calculate e.L.ops (if e.L.single then RSing.tolSingle else RSing.tolDouble) e.L.geev i r with
          | .error msg => .error (.throw msg)
          | .ok sing =>
            let m := { m with cand := setSing sing m.cand }
            if !e.cfg.keepAll && o.lt m.cand.rSingularity e.cfg.minRSingularity then .ok (bump .rSingularity s, m)
            else if !e.cfg.keepAll && o.lt m.cand.beta e.cfg.minBeta then .ok (bump .beta s, m)
            else .ok (save m.cand s, m)

/-- An attempt from the first order on (scan_random.cpp 169-278). -/
noncomputable def first (e : Env) (d : Drawn) (a : Axis.Axis ℝ) (s : Local ℝ) (m : Members) :
    Except Single.Err (Local ℝ × Members) :=
  let o := realOps
  let q := atDraw e.q d e.n
  let p := R1.Cfg.ofAxis a e.n q.nfp.toNat q.sG q.spsi q.eta_bar q.sigma0 q.I2 q.B0
  if Single.newtonThrows e.L p q.newton_tolerance q.max_newton_iterations q.max_linesearch_iterations then
    .error (.throw "LAPACK error in *gesv")
  else
    match R1.solveSigma e.L.ops p (Single.newtonSolve e.L e.n) q.newton_tolerance q.max_newton_iterations
        q.max_linesearch_iterations with
    | (_, none) => .error (.outside "no residual was evaluated")
    | (_, some st) =>
      let s := bump .nSigma s
      let r := R1.diagnostics e.L.ops p st
      let m := { m with cand := setFirst e.L.ops p st r m.cand }
      if !e.cfg.keepAll && o.lt (o.abs m.cand.iota) e.cfg.minIota then .ok (bump .iota s, m)
      else if !e.cfg.keepAll && o.lt e.cfg.maxElongation m.cand.gridMaxElongation then .ok (bump .elongation s, m)
      else if !e.cfg.keepAll && o.lt m.cand.gridMinLGradB e.cfg.minLGradB then .ok (bump .lGradB s, m)
      else if e.cfg.r2 then beyond e (R2.In.of a p st r (Single.mu0 e.L.ops) q.p2 q.B2s q.B2c) a s m
      else .ok (save m.cand s, m)

/-- One attempt (scan_random.cpp 101-278). -/
noncomputable def attempt (e : Env) (d : Drawn) (s : Local ℝ) (m : Members) :
    Except Single.Err (Local ℝ × Members) :=
  let o := realOps
  let s := bump .attempts s
  let m := { m with cand := setInputs d m.cand }
  if o.le (Scan.r0At0 o m.cand.R0c) o.zero || o.le (Scan.r0AtHalfPeriod o m.cand.R0c) o.zero then
    .ok (bump .r0Crude s, m)
  else
    let q := atDraw e.q d e.n
    match Axis.initAxis e.L.ops (Single.coeffs q) e.n q.sG q.spsi q.B0 with
    | .error x => .error (.run x)
    | .ok a =>
      let m := { m with cand := setAxis a m.cand, axis := some a }
      if !e.cfg.keepAll && o.lt m.cand.gridMinR0 e.cfg.minR0 then .ok (bump .r0 s, m)
      else if !e.cfg.keepAll && ((e.cfg.helicityToKeep == 0 && m.cand.helicity != 0) ||
          (e.cfg.helicityToKeep == 1 && m.cand.helicity.natAbs != 1)) then .ok (bump .helicity s, m)
      else if !e.cfg.keepAll && o.lt (o.inv m.cand.gridMaxCurvature) e.cfg.minLGradB then .ok (bump .curvature s, m)
      else first e d a s m

/-! ## The loop -/

/-- The loop on one process, and what it holds when it enters `collect_results` (scan_random.cpp 84-281). -/
structure State where
  loc : Local ℝ
  mem : Members
  /-- at the checkpoints so far (line 94) -/
  snaps : List (Local ℝ × Members)

/-- One pass of the loop (scan_random.cpp 85-281); `x` is the clock (time is up, checkpoint is due) and what is
drawn. -/
noncomputable def iter (e : Env) (t : State) (x : (Bool × Bool) × Drawn) : Except Single.Err State :=
  if t.loc.status = .running then
    let keepGoing := !x.1.1
    let s := if x.1.2 then { t.loc with checkpoints := t.loc.checkpoints ++ [t.loc.jScan] } else t.loc
    let snaps := if x.1.2 then t.snaps ++ [(s, t.mem)] else t.snaps
    if decide (e.cfg.maxAttempts > 0) && decide ((s.filters .attempts : Int) ≥ e.cfg.maxAttempts) then
      .ok ⟨{ s with status := .finished }, t.mem, snaps⟩
    else
      match attempt e x.2 s t.mem with
      | .error er => .error er
      | .ok (s', m') =>
        if s'.status = .ub then .ok ⟨s', m', snaps⟩
        else
          let keepGoing := if s'.jScan ≠ s.jScan ∧ (s'.jScan : Int) ≥ e.cfg.maxKeep then false else keepGoing
          .ok ⟨if keepGoing then s' else { s' with status := .finished }, m', snaps⟩
  else .ok t

/-- The loop (scan_random.cpp 84-281). -/
noncomputable def loop (e : Env) (m0 : Members) (l : List ((Bool × Bool) × Drawn)) : Except Single.Err State :=
  l.foldlM (iter e) ⟨Scan.init e.cfg, m0, []⟩

/-- The members of `q` before the loop: `c0` is what the recorded members hold, `allocate` fills `r2_matrix` with
zeros (allocate.cpp). -/
def members0 (c0 : Cand ℝ) : Members := ⟨c0, fun _ _ => 0, none⟩

/-- `Scan::random` on process `rank` (scan_random.cpp 12-290): the number of grid points, the order, and what the
process holds whenever it enters `collect_results`. -/
noncomputable def process (L : Lib ℝ) (left : (Nat → Nat → ℝ) → Nat → Nat → ℝ) (l0 : ℝ) (c0 : Cand ℝ)
    (r : Sections.ScanObj ℝ) (rank : Nat) (p : Proc) :
    Except Err (Nat × Setup.Order × List (Local ℝ × Members)) :=
  match ScanPipeline.prepare l0 r rank p with
  | .error e => .error (.scan e)
  | .ok (cfg, ord, l) =>
    if r.q.nphi < 0 then .error (.single (.outside "nphi"))
    else if r.q.nfp ≤ 0 then .error (.single (.outside "nfp"))
    else
      let n := Setup.oddNphi r.q.nphi.toNat
      match loop ⟨L, left, r.q, n, cfg⟩ (members0 c0) l with
      | .error e => .error (.single e)
      | .ok t =>
        match t.loc.status with
        | .running => .error .running
        | .ub => .error .undefined
        | .finished => .ok (n, ord, t.snaps ++ [(t.loc, t.mem)])

/-! ## The output file -/

/-- A member set by the input file as it is written (types in scan.hpp 56-101).  Helper of the model; no counterpart
in the code. -/
def dataOf : Option (Sections.Val ℝ) → Data ℝ
  | some (.int i) => .ints [i]
  | some (.flt x) => .flts [x]
  | some (.str s) => .chars s.toList
  | some (.flts l) => .flts l
  | _ => .ints []

/-- The settings that `write_netcdf` writes (scan_write_netcdf.cpp 38-140). -/
def settingNames : List String :=
  ["helicity_to_keep", "eta_bar_min", "eta_bar_max", "sigma0_min", "sigma0_max", "B2s_min", "B2s_max", "B2c_min",
   "B2c_max", "p2_min", "p2_max", "max_seconds", "save_period", "min_R0_to_keep", "min_iota_to_keep",
   "max_elongation_to_keep", "min_L_grad_B_to_keep", "min_L_grad_grad_B_to_keep", "max_B20_variation_to_keep",
   "min_r_singularity_to_keep", "max_d2_volume_d_psi2_to_keep", "min_DMerc_times_r2_to_keep", "min_beta_to_keep",
   "eta_bar_scan_option", "sigma0_scan_option", "B2s_scan_option", "B2c_scan_option", "fourier_scan_option",
   "p2_scan_option", "R0c_min", "R0c_max", "R0s_min", "R0s_max", "Z0c_min", "Z0c_max", "Z0s_min", "Z0s_max"]

/-- The counters and their names in scan.hpp 22-39. -/
def counterNames : List (String × Counter) :=
  [("ATTEMPTS", .attempts), ("KEPT", .kept), ("REJECTED_DUE_TO_R0_CRUDE", .r0Crude), ("REJECTED_DUE_TO_R0", .r0),
   ("REJECTED_DUE_TO_HELICITY", .helicity), ("REJECTED_DUE_TO_CURVATURE", .curvature),
   ("REJECTED_DUE_TO_IOTA", .iota), ("REJECTED_DUE_TO_ELONGATION", .elongation),
   ("REJECTED_DUE_TO_L_GRAD_B", .lGradB), ("REJECTED_DUE_TO_B20_VARIATION", .b20Variation),
   ("REJECTED_DUE_TO_L_GRAD_GRAD_B", .lGradGradB), ("REJECTED_DUE_TO_D2_VOLUME_D_PSI2", .d2Volume),
   ("REJECTED_DUE_TO_DMERC", .dMerc), ("REJECTED_DUE_TO_R_SINGULARITY", .rSingularity),
   ("REJECTED_DUE_TO_BETA", .beta), ("N_SIGMA_EQ_SOLVES", .nSigma), ("N_R2_SOLVES", .nR2)]

/-- `filters[k]` (scan_collect_results.cpp 71-78). -/
def counter (g : Collect.Gathered ℝ) (k : Counter) : Nat := g.filters.getD k.index 0

/-- `n_scan` and `filters[...]` by name (scan.hpp 52-54). -/
def bigs (g : Collect.Gathered ℝ) (a : String) : Nat :=
  if a = "n_scan" then g.nScan
  else
    match (counterNames.map fun x => ("filters[" ++ x.1 ++ "]", x.2)).lookup a with
    | some k => counter g k
    | none => 0

/-- `filter_fractions` (scan_collect_results.cpp 190).  Without attempts the code has 0 / 0. -/
noncomputable def fractions (g : Collect.Gathered ℝ) : List (String × Data ℝ) :=
  counterNames.map fun x => ("filter_fractions[" ++ x.1 ++ "]", .flts [(counter g x.2 : ℝ) / (counter g .attempts : ℝ)])

/-- A matrix of `nm` rows, one column per configuration, in memory (vector_matrix.hpp 84-100, the loop of
scan_collect_results.cpp 180-185). -/
def columnMajor (g : Collect.Gathered ℝ) (nm b : Nat) : List (Option ℝ) :=
  (List.range g.nScan).flatMap fun j => (List.range nm).map fun k => (g.mode nm b k)[j]?.join

/-- The `scan_...` arrays (scan_collect_results.cpp 127-186); `none` is an access outside the combined arrays. -/
def arrays (g : Collect.Gathered ℝ) (nm : Nat) : Option (List (String × Data ℝ)) :=
  (Collect.unpackRows.mapM fun x => ((g.row x.2).mapM id).map fun l => (x.1, Data.flts l)).bind fun s =>
  (g.helicity.mapM id).bind fun h =>
  (Collect.unpackBlocks.mapM fun x => ((columnMajor g nm x.2).mapM id).map fun l => (x.1, Data.flts l)).bind fun b =>
  some (s ++ [("scan_helicity", Data.ints h)] ++ b)

/-- The members of `q` that `write_netcdf` writes (scan_write_netcdf.cpp 33-36, 142-155).  `p2` is that of the last
attempt.  If no attempt came to `init_axis`, `phi` holds the zeros of `allocate` and `d_phi` was never set: `junk`
stands for what it holds. -/
noncomputable def qMembers (q : QscIn ℝ) (n : Nat) (m : Members) (junk : ℝ) : List (String × Data ℝ) :=
  [("q.nfp", .ints [q.nfp]), ("q.nphi", .ints [(n : Int)]), ("q.sG", .ints [q.sG]), ("q.spsi", .ints [q.spsi]),
   ("q.max_newton_iterations", .ints [q.max_newton_iterations]),
   ("q.max_linesearch_iterations", .ints [q.max_linesearch_iterations]),
   ("q.newton_tolerance", .flts [q.newton_tolerance]), ("q.I2", .flts [q.I2]), ("q.B0", .flts [q.B0]),
   ("q.p2", .flts [m.cand.p2]), ("q.order_r_option", .chars q.order_r_option.toList),
   ("q.d_phi", .flts [m.axis.elim junk fun a => a.dPhi]),
   ("q.phi", .flts (Single.vector n (m.axis.elim (fun _ => 0) fun a => a.phi)))]

/-- `Scan::write_netcdf` (scan_write_netcdf.cpp 9-179) on process 0 after a collection with the result `g`; `m` is
what the members of `q` hold on process 0.  `m0` is what the members hold before they are set. -/
noncomputable def write (toF : Nat → ℝ) (r : Sections.ScanObj ℝ) (n : Nat) (ord : Setup.Order) (m0 : Mem ℝ) (junk : ℝ)
    (g : Collect.Gathered ℝ) (m : Members) : Except Err (Netcdf.File ℝ) :=
  match Pipeline.getBool r.mem "keep_all", Pipeline.getBool r.mem "deterministic",
      ScanPipeline.getFlts r.mem "R0c_max" with
  | some keepAll, some det, some l =>
    match arrays g l.length with
    | none => .error .undefined
    | some a =>
      match Output.writeScan toF ⟨ord.atLeastR2, keepAll, det, bigs g,
          assign m0 (settingNames.map (fun a => (a, dataOf (r.mem a))) ++ qMembers r.q n m junk ++ fractions g ++ a)⟩ with
      | .error e => .error (.file e)
      | .ok f => .ok f
  | _, _, _ => .error .undefined

/-! ## The run -/

/-- What is given to a run on `N + 1` processes: libraries, the answers of random number generators and clocks, and
what is in memory before it is set; `buffered` says which messages MPI may buffer. -/
structure World (N : Nat) where
  L : Lib ℝ
  left : (Nat → Nat → ℝ) → Nat → Nat → ℝ
  /-- `log(0)` -/
  l0 : ℝ
  proc : Fin (N + 1) → Proc
  c0 : Fin (N + 1) → Cand ℝ
  m0 : Mem ℝ
  junk : ℝ
  junkColumn : Scan.Column ℝ
  timing : Fin (N + 1) → Nat → List ℝ
  buffered : Fin (N + 1) → Fin (N + 1) → Collect.Msg ℝ → Prop

/-- What process `i` takes into `collect_results`, one element per call (scan_random.cpp 94, 287). -/
def World.locals {N : Nat} (w : World N) (i : Fin (N + 1)) (snaps : List (Local ℝ × Members)) :
    List (Collect.Local ℝ) :=
  snaps.zipIdx.map fun x => Collect.ofScan w.junkColumn (w.timing i x.2) x.1.1

/-- `Scan scan; scan.run(path)` on all processes (scan.cpp 61-66, driver.cpp 63-64) for a parsed input file: it can
end with an output file of this name, to which these contents were written one after the other, at the checkpoints
and at the end.  The calculations do not depend on messages, so they are made before; `write_netcdf` on process 0
does not communicate, so it comes after. -/
structure Ends {N : Nat} (w : World N) (path : List Char) (file : Sections.File ℝ) (name : List Char)
    (files : List (Netcdf.File ℝ)) : Prop where
  name : Outfile.outfile path = .ok name
  exec : ∃ (r : Sections.ScanObj ℝ) (n : Nat) (ord : Setup.Order) (snaps : Fin (N + 1) → List (Local ℝ × Members))
      (gs : List (Collect.Gathered ℝ)) (m : Nat) (s : _),
    Sections.scanInput (fun i => (i : ℝ)) 0 file (Pipeline.scanNew w.L.lit w.L.single) = .ok r ∧
    (∀ i : Fin (N + 1), process w.L w.left w.l0 (w.c0 i) r i.val (w.proc i) = .ok (n, ord, snaps i)) ∧
    Mpi.Steps w.buffered m (Mpi.St.start (Collect.system 0
      (4 * ((ScanPipeline.getFlts r.mem "R0c_max").elim 0 List.length)) fun i => w.locals i (snaps i))) s ∧
    (∀ i, ∃ x, s.procs i = .done (some x)) ∧ s.procs 0 = .done (some gs) ∧
    (gs.zip (snaps 0)).mapM (fun x => write w.L.toF r n ord w.m0 w.junk x.1 x.2.2) = .ok files

end Qsc.ScanRun
