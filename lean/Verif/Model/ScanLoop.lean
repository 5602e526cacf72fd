import Verif.Model.Loop

/-!
# `scan_random.cpp`: the attempt loop of a random scan on one process

Floating point values have an abstract type `F` whose operations are given by `Ops F`;
comparisons are arbitrary Boolean functions, so IEEE behaviour with NaN is included.
What is abstracted: the physics (`init_axis`, `solve_sigma_equation`, ...) supplies the
diagnostics of a candidate as data; the clock supplies two Boolean answers per iteration.
-/

namespace Qsc.Scan

/-- The floating point operations used by the loop. `x > y` is `lt y x` (used in scan_random.cpp
lines 122-243). -/
structure Ops (F : Type) where
  lt : F → F → Bool
  le : F → F → Bool
  zero : F
  add : F → F → F
  sub : F → F → F
  abs : F → F
  /-- `1.0 / x` -/
  inv : F → F

/-- The counters of scan.hpp 22-39, in order. -/
inductive Counter
  | attempts
  | kept
  | r0Crude
  | r0
  | helicity
  | curvature
  | iota
  | elongation
  | lGradB
  | b20Variation
  | lGradGradB
  | d2Volume
  | dMerc
  | rSingularity
  | beta
  | nSigma
  | nR2
  deriving DecidableEq, Repr

/-- Position in the `enum` of scan.hpp 22-39. -/
def Counter.index : Counter → Nat
  | .attempts => 0
  | .kept => 1
  | .r0Crude => 2
  | .r0 => 3
  | .helicity => 4
  | .curvature => 5
  | .iota => 6
  | .elongation => 7
  | .lGradB => 8
  | .b20Variation => 9
  | .lGradGradB => 10
  | .d2Volume => 11
  | .dMerc => 12
  | .rSingularity => 13
  | .beta => 14
  | .nSigma => 15
  | .nR2 => 16

/-- All counters in `enum` order (scan.hpp lines 22-39). -/
def Counter.all : List Counter :=
  [.attempts, .kept, .r0Crude, .r0, .helicity, .curvature, .iota, .elongation, .lGradB,
   .b20Variation, .lGradGradB, .d2Volume, .dMerc, .rSingularity, .beta, .nSigma, .nR2]

/-- The settings of `class Scan` read by the loop (scan.hpp 66-80). -/
structure Cfg (F : Type) where
  keepAll : Bool
  /-- `q.at_least_order_r2` -/
  r2 : Bool
  helicityToKeep : Int
  minR0 : F
  minIota : F
  maxElongation : F
  minLGradB : F
  minLGradGradB : F
  maxB20Variation : F
  minRSingularity : F
  maxD2Volume : F
  minDMerc : F
  minBeta : F
  maxKeep : Int
  maxAttempts : Int

/-- What one attempt draws and computes: the members of `q` read at scan_random.cpp
113-276. -/
structure Cand (F : Type) where
  etaBar : F
  sigma0 : F
  B2c : F
  B2s : F
  p2 : F
  axisLength : F
  gridMinR0 : F
  gridMaxCurvature : F
  iota : F
  gridMaxElongation : F
  gridMinLGradB : F
  gridMinLGradGradB : F
  rSingularity : F
  d2Volume : F
  dMerc : F
  b20Variation : F
  b20Residual : F
  sdR : F
  sdZ : F
  beta : F
  helicity : Int
  R0c : List F
  R0s : List F
  Z0c : List F
  Z0s : List F

/-- One column of the three local result arrays (scan_random.cpp lines 248-276). -/
structure Column (F : Type) where
  params : List F
  helicity : Int
  fourier : List F

/-- The column written for a kept candidate (scan_random.cpp 248-276); the Fourier rows
`j + b * axis_nmax_plus_1` for blocks `b = 0..3` are the concatenation of the four arrays. -/
def Cand.column {F : Type} (c : Cand F) : Column F where
  params := [c.etaBar, c.sigma0, c.B2c, c.B2s, c.p2, c.axisLength, c.gridMinR0,
    c.gridMaxCurvature, c.iota, c.gridMaxElongation, c.gridMinLGradB, c.gridMinLGradGradB,
    c.rSingularity, c.d2Volume, c.dMerc, c.b20Variation, c.b20Residual, c.sdR, c.sdZ, c.beta]
  helicity := c.helicity
  fourier := c.R0c ++ c.R0s ++ c.Z0c ++ c.Z0s

/-- `R0_at_half_period` (scan_random.cpp 121-134): alternating sum of `R0c`. -/
def r0AtHalfPeriod {F : Type} (o : Ops F) (R0c : List F) : F :=
  forLoop R0c.length
    (fun j acc => match R0c[j]? with
      | some v => if j % 2 = 0 then o.add acc v else o.sub acc v
      | none => acc) o.zero

/-- `R0_at_0 = q.R0c.sum()` (scan_random.cpp 135). -/
def r0At0 {F : Type} (o : Ops F) (R0c : List F) : F :=
  forLoop R0c.length
    (fun j acc => match R0c[j]? with
      | some v => o.add acc v
      | none => acc) o.zero

/-- Loop status; `ub` is an out of bounds write to the local arrays (scan_random.cpp lines 84-85,
99, 248-280). -/
inductive Status
  | running
  | finished
  | ub
  deriving DecidableEq, Repr

/-- State of the loop on one process (scan_random.cpp lines 17-20 and scan.hpp line 54). -/
structure Local (F : Type) where
  filters : Counter → Nat
  jScan : Nat
  /-- Columns of `parameters_local`, `fourier_parameters_local`, `int_parameters_local`. -/
  cols : List (Option (Column F))
  status : Status
  /-- `j_scan` at each call of `collect_results` from inside the loop. -/
  checkpoints : List Nat

variable {F : Type}

/-- `filters_local[k]++` (scan_random.cpp lines 101, 140-242). -/
def bump (k : Counter) (s : Local F) : Local F :=
  { s with filters := fun c => if c = k then s.filters c + 1 else s.filters c }

/-- State at the start of the loop (scan_random.cpp 17-20, 66).  `maxKeep < 0` (the array
allocation fails) is excluded by the theorems. -/
def init (cfg : Cfg F) : Local F where
  filters := fun _ => 0
  jScan := 0
  cols := List.replicate cfg.maxKeep.toNat none
  status := .running
  checkpoints := []

/-- Storing a keeper (scan_random.cpp 248-278). -/
def save (c : Cand F) (s : Local F) : Local F :=
  if s.jScan < s.cols.length then
    { s with cols := s.cols.set s.jScan (some c.column), jScan := s.jScan + 1 }
  else { s with status := .ub }

/-- One attempt (scan_random.cpp 101-278).  Each `else if` is a `continue` in the source. -/
def attempt (o : Ops F) (cfg : Cfg F) (c : Cand F) (s : Local F) : Local F :=
  let s := bump .attempts s
  if o.le (r0At0 o c.R0c) o.zero || o.le (r0AtHalfPeriod o c.R0c) o.zero then
    bump .r0Crude s
  else if !cfg.keepAll && o.lt c.gridMinR0 cfg.minR0 then
    bump .r0 s
  else if !cfg.keepAll && ((cfg.helicityToKeep == 0 && c.helicity != 0) ||
      (cfg.helicityToKeep == 1 && c.helicity.natAbs != 1)) then
    bump .helicity s
  else if !cfg.keepAll && o.lt (o.inv c.gridMaxCurvature) cfg.minLGradB then
    bump .curvature s
  else
    let s := bump .nSigma s
    if !cfg.keepAll && o.lt (o.abs c.iota) cfg.minIota then
      bump .iota s
    else if !cfg.keepAll && o.lt cfg.maxElongation c.gridMaxElongation then
      bump .elongation s
    else if !cfg.keepAll && o.lt c.gridMinLGradB cfg.minLGradB then
      bump .lGradB s
    else if cfg.r2 then
      let s := bump .nR2 s
      if !cfg.keepAll && o.lt cfg.maxB20Variation c.b20Variation then
        bump .b20Variation s
      else if !cfg.keepAll && o.lt cfg.maxD2Volume c.d2Volume then
        bump .d2Volume s
      else if !cfg.keepAll && o.lt c.dMerc cfg.minDMerc then
        bump .dMerc s
      else if !cfg.keepAll && o.lt c.gridMinLGradGradB cfg.minLGradGradB then
        bump .lGradGradB s
      else if !cfg.keepAll && o.lt c.rSingularity cfg.minRSingularity then
        bump .rSingularity s
      else if !cfg.keepAll && o.lt c.beta cfg.minBeta then
        bump .beta s
      else save c s
    else save c s

/-- What the environment supplies to one pass of the `while` loop: the two clock tests
(scan_random.cpp 88 and 92) and the candidate drawn if the pass makes an attempt. -/
structure Step (F : Type) where
  timeUp : Bool
  checkpointDue : Bool
  cand : Cand F

/-- One pass of `while (keep_going)` (scan_random.cpp 85-281). -/
def iter (o : Ops F) (cfg : Cfg F) (s : Local F) (e : Step F) : Local F :=
  if s.status = .running then
    let keepGoing := !e.timeUp
    let s := if e.checkpointDue then { s with checkpoints := s.checkpoints ++ [s.jScan] } else s
    if decide (cfg.maxAttempts > 0) && decide ((s.filters .attempts : Int) ≥ cfg.maxAttempts) then
      { s with status := .finished }
    else
      let s' := attempt o cfg e.cand s
      if s'.status = .ub then s'
      else
        -- `if (j_scan >= max_keep_per_proc) keep_going = false;` runs only after a save
        let keepGoing := if s'.jScan ≠ s.jScan ∧ (s'.jScan : Int) ≥ cfg.maxKeep then false
          else keepGoing
        if keepGoing then s' else { s' with status := .finished }
  else s

/-- The loop run against a finite prefix of environment answers (scan_random.cpp lines 84-281). -/
def run (o : Ops F) (cfg : Cfg F) (env : List (Step F)) : Local F :=
  env.foldl (iter o cfg) (init cfg)

end Qsc.Scan
