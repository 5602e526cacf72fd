import Verif.Model.Pipeline
import Verif.Model.ScanDraws
import Verif.Model.Setup
import Verif.Model.Collect

/-!
# From the input file to the results of a random scan: `Scan::run` (scan.cpp 61-66)

Exact real arithmetic.  Reading the members that `Scan::random` uses (scan_random.cpp 12-82), then
the generators of `Model/ScanDraws`, the attempt loop of `Model/ScanLoop` and the collection of
`Model/Collect`.  The physics of an attempt is an arbitrary function of the drawn inputs, the clock
an arbitrary list of answers.  Simplification: the bounds of all modes are read before the first
generator is made; reading and constructing are interleaved in the code (lines 45-64).  The files
written at checkpoints are left out.
-/

namespace Qsc.ScanPipeline

open Qsc.Sections Qsc.Pipeline

/-- What can go wrong: exceptions and undefined accesses of scan_input.cpp lines 10-60 and
scan_random.cpp lines 12-82. -/
inductive Err
  /-- reading the file -/
  | input (e : Sections.Err)
  /-- the constructor of a generator throws -/
  | random (e : Random.Err)
  /-- `q.validate()` throws -/
  | validate (e : OptState.Err)
  /-- a member without a value, or an element outside an array -/
  | undefined (what : String)
  /-- `max_keep_per_proc < 0`, which becomes a huge size; what the code then does is not modelled -/
  | outside
  deriving DecidableEq

/-- Helper of the model; no counterpart in the code. -/
def getStr {F : Type} (o : Obj F) (m : String) : Option String :=
  match o m with
  | some (.str b) => some b
  | _ => none

/-- Helper of the model; no counterpart in the code. -/
def getFlts {F : Type} (o : Obj F) (m : String) : Option (List F) :=
  match o m with
  | some (.flts b) => some b
  | _ => none

/-- Using a value that may be missing. Helper of the model; no counterpart in the code. -/
def need {α : Type} (what : String) : Option α → Except Err α
  | some a => .ok a
  | none => .error (.undefined what)

/-- `x_min`, `x_max` of a scanned quantity (scan_random.cpp lines 32-36). -/
def rangeOf (o : Obj ℝ) (lo hi : String) : Except Err ScanDraws.Range :=
  (need lo (getFlt o lo)).bind fun a =>
  (need hi (getFlt o hi)).bind fun b => .ok ⟨a, b⟩

/-- `x_min[j]`, `x_max[j]` (scan_random.cpp lines 49-55). -/
def rangeAt (o : Obj ℝ) (lo hi : String) (j : Nat) : Except Err ScanDraws.Range :=
  (need lo (getFlts o lo)).bind fun la =>
  (need hi (getFlts o hi)).bind fun lb =>
  (need lo la[j]?).bind fun a =>
  (need hi lb[j]?).bind fun b => .ok ⟨a, b⟩

/-- The bounds of mode `j` (scan_random.cpp 48-55). -/
def modeAt (o : Obj ℝ) (j : Nat) : Except Err ScanDraws.Mode :=
  (rangeAt o "R0c_min" "R0c_max" j).bind fun R0c =>
  (rangeAt o "R0s_min" "R0s_max" j).bind fun R0s =>
  (rangeAt o "Z0c_min" "Z0c_max" j).bind fun Z0c =>
  (rangeAt o "Z0s_min" "Z0s_max" j).bind fun Z0s => .ok ⟨R0c, R0s, Z0c, Z0s⟩

/-- The members from which the generators are made (scan_random.cpp 15, 32-64). -/
def settingsOf (r : ScanObj ℝ) : Except Err ScanDraws.Settings :=
  let o := r.mem
  (need "deterministic" (getBool o "deterministic")).bind fun deterministic =>
  (need "eta_bar_scan_option" (getStr o "eta_bar_scan_option")).bind fun etaBarOption =>
  (rangeOf o "eta_bar_min" "eta_bar_max").bind fun etaBar =>
  (need "sigma0_scan_option" (getStr o "sigma0_scan_option")).bind fun sigma0Option =>
  (rangeOf o "sigma0_min" "sigma0_max").bind fun sigma0 =>
  (need "B2c_scan_option" (getStr o "B2c_scan_option")).bind fun B2cOption =>
  (rangeOf o "B2c_min" "B2c_max").bind fun B2c =>
  (need "B2s_scan_option" (getStr o "B2s_scan_option")).bind fun B2sOption =>
  (rangeOf o "B2s_min" "B2s_max").bind fun B2s =>
  (need "p2_scan_option" (getStr o "p2_scan_option")).bind fun p2Option =>
  (rangeOf o "p2_min" "p2_max").bind fun p2 =>
  (need "fourier_scan_option" (getStr o "fourier_scan_option")).bind fun fourierOption =>
  (need "R0c_max" (getFlts o "R0c_max")).bind fun R0cMax =>
  ((List.range R0cMax.length).mapM (modeAt o)).bind fun modes =>
  (need "max_attempts_per_proc" (getInt o "max_attempts_per_proc")).bind fun attempts =>
  .ok { deterministic, etaBarOption, etaBar, sigma0Option, sigma0, B2cOption, B2c, B2sOption, B2s,
        p2Option, p2, fourierOption, modes, attempts, r2 := false,
        oldB2c := r.q.B2c, oldB2s := r.q.B2s, oldP2 := r.q.p2 }

/-- The members read by the attempt loop (scan_random.cpp 85-281). -/
def cfgOf (r : ScanObj ℝ) (r2 : Bool) : Except Err (Scan.Cfg ℝ) :=
  let o := r.mem
  let flt m := need m (getFlt o m)
  let int m := need m (getInt o m)
  (need "keep_all" (getBool o "keep_all")).bind fun keepAll =>
  (int "helicity_to_keep").bind fun helicityToKeep =>
  (flt "min_R0_to_keep").bind fun minR0 =>
  (flt "min_iota_to_keep").bind fun minIota =>
  (flt "max_elongation_to_keep").bind fun maxElongation =>
  (flt "min_L_grad_B_to_keep").bind fun minLGradB =>
  (flt "min_L_grad_grad_B_to_keep").bind fun minLGradGradB =>
  (flt "max_B20_variation_to_keep").bind fun maxB20Variation =>
  (flt "min_r_singularity_to_keep").bind fun minRSingularity =>
  (flt "max_d2_volume_d_psi2_to_keep").bind fun maxD2Volume =>
  (flt "min_DMerc_times_r2_to_keep").bind fun minDMerc =>
  (flt "min_beta_to_keep").bind fun minBeta =>
  (int "max_keep_per_proc").bind fun maxKeep =>
  (int "max_attempts_per_proc").bind fun maxAttempts =>
  .ok { keepAll, r2, helicityToKeep, minR0, minIota, maxElongation, minLGradB, minLGradGradB,
        maxB20Variation, minRSingularity, maxD2Volume, minDMerc, minBeta, maxKeep, maxAttempts }

/-- Helper of the model; no counterpart in the code. -/
def liftRandom {α : Type} : Except Random.Err α → Except Err α
  | .ok a => .ok a
  | .error e => .error (.random e)

/-- Helper of the model; no counterpart in the code. -/
def liftValidate {α : Type} : Except OptState.Err α → Except Err α
  | .ok a => .ok a
  | .error e => .error (.validate e)

/-- Helper of the model; no counterpart in the code. -/
def liftInput {α : Type} : Except Sections.Err α → Except Err α
  | .ok a => .ok a
  | .error e => .error (.input e)

/-- What one process brings to a scan: its random numbers and the answers of its clock (time is
up, checkpoint is due) for each pass of the loop (scan_random.cpp lines 32-64, 86-92). -/
structure Proc where
  u : Nat → ℝ
  clock : List (Bool × Bool)

/-- `Scan::random` on one process up to the loop (scan_random.cpp 12-82): the thresholds, the order, and the clock
and the inputs drawn in each pass of the loop.  The generators are made first, then `q.validate()` sets the
order. -/
noncomputable def prepare (l0 : ℝ) (r : ScanObj ℝ) (rank : Nat) (p : Proc) :
    Except Err (Scan.Cfg ℝ × Setup.Order × List ((Bool × Bool) × ScanDraws.Drawn)) :=
  (cfgOf r false).bind fun cfg0 =>
  if cfg0.maxKeep < 0 then .error .outside
  else
    (settingsOf r).bind fun c =>
    (liftRandom (ScanDraws.start l0 p.u c rank)).bind fun g =>
    (liftValidate (Setup.validate r.q.order_r_option)).bind fun ord =>
    .ok ({ cfg0 with r2 := ord.atLeastR2 }, ord,
      p.clock.zip (ScanDraws.drawsFrom p.u { c with r2 := ord.atLeastR2 } p.clock.length g))

/-- What each pass of the loop meets (scan_random.cpp 85-281), for a physics `phys`. -/
noncomputable def steps (l0 : ℝ) (phys : ScanDraws.Drawn → Scan.Cand ℝ) (r : ScanObj ℝ)
    (rank : Nat) (p : Proc) : Except Err (Scan.Cfg ℝ × List (Scan.Step ℝ)) :=
  (prepare l0 r rank p).bind fun x => .ok (x.1, x.2.2.map fun x => ⟨x.1.1, x.1.2, phys x.2⟩)

/-- The comparisons and operations of the loop on real numbers (used in scan_random.cpp lines
122-243; exact real arithmetic, no NaN). -/
noncomputable def realOps : Scan.Ops ℝ where
  lt x y := decide (x < y)
  le x y := decide (x ≤ y)
  zero := 0
  add := (· + ·)
  sub := (· - ·)
  abs x := |x|
  inv x := 1 / x

/-- `Scan scan; scan.run(file)` (scan.cpp 56-66, driver.cpp 63-64) on process `rank`: the state at
the end of the loop. -/
noncomputable def scanRun (l0 : ℝ) (phys : ScanDraws.Drawn → Scan.Cand ℝ) (lit : String → ℝ)
    (single : Bool) (f : File ℝ) (rank : Nat) (p : Proc) : Except Err (Scan.Local ℝ) :=
  (liftInput (scanInput (fun i => (i : ℝ)) 0 f (scanNew lit single))).bind fun r =>
  (steps l0 phys r rank p).bind fun s => .ok (Scan.run realOps s.1 s.2)

end Qsc.ScanPipeline
