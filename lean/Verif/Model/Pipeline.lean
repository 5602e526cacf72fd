import Verif.Model.Sections
import Verif.Model.OptLoop
import Verif.Model.OptResid

/-!
# From the input file to the optimizer: constructors, `Opt::run` (opt.cpp 58-64) and
`MultiOpt::run` (multiopt.cpp 19-32)

The default values of the members that have a key in the input file, and the way from the members
to the optimization loop of `Model/OptLoop`.  `lit` gives the value of a decimal literal.  Output
files are left out (see `Model/Outfile`, `Model/Output`).
-/

namespace Qsc.Pipeline

open Qsc.Toml (QscIn)
open Qsc.Sections Qsc.OptState

variable {F P : Type}

/-! ## Constructors -/

/-- `Qsc::Qsc` and `Qsc::defaults` (qsc.cpp 6-41); `single` is the precision of the build. -/
def qscNew (lit : String → F) (single : Bool) : QscIn F where
  nphi := 15
  nfp := 3
  eta_bar := lit "-1.0"
  spsi := 1
  sG := 1
  B0 := lit "1.0"
  I2 := lit "0.0"
  sigma0 := lit "0.0"
  B2s := lit "0.0"
  B2c := lit "0.0"
  p2 := lit "0.0"
  max_newton_iterations := 12
  max_linesearch_iterations := 4
  newton_tolerance := if single then lit "1.0e-5" else lit "1.0e-12"
  verbose := 1
  order_r_option := "r1"
  R0c := [lit "1.0"]
  R0s := [lit "0.0"]
  Z0c := [lit "0.0"]
  Z0s := [lit "0.0"]

/-- An object with these members. Helper of the model; no counterpart in the code. -/
def members (l : List (String × Val F)) : Obj F := fun m => (l.find? fun x => x.1 == m).map (·.2)

/-- Members with the same literal. Helper of the model; no counterpart in the code. -/
def lits (lit : String → F) (v : String) (ms : List String) : List (String × Val F) :=
  ms.map fun m => (m, .flt (lit v))

/-- `Opt::defaults` (opt.cpp 5-52), with `q` of one mode.  `nphi` is default constructed. -/
def optNew (lit : String → F) (single : Bool) : OptObj F where
  q := qscNew lit single
  group := "opt"
  mem := members <|
    [("verbose", .int 1), ("max_iter", .int 3000), ("make_names", .bool true),
     ("algorithm", .enum "GSL_LM"), ("fourier_refine", .int 0),
     ("diff_method", .enum "DIFF_METHOD_FORWARD"), ("nphi", .ints []),
     ("vary_eta_bar", .bool true), ("vary_sigma0", .bool false), ("vary_B2c", .bool true),
     ("vary_B2s", .bool false), ("vary_R0c", .bools [false]), ("vary_R0s", .bools [false]),
     ("vary_Z0c", .bools [false]), ("vary_Z0s", .bools [false]),
     ("target_iota", .flt (lit "0.4")), ("min_R0", .flt (lit "0.3")),
     ("max_d2_volume_d_psi2", .flt (lit "0.0")), ("min_DMerc_times_r2", .flt (lit "0.0")),
     ("target_axis_length", .flt (lit "0.0"))] ++
    lits lit "-1.0" ["weight_B20", "weight_iota", "weight_elongation", "weight_curvature",
      "weight_R0", "weight_d2_volume_d_psi2", "weight_DMerc_times_r2", "weight_XY2",
      "weight_XY2Prime", "weight_XY2PrimePrime", "weight_Z2", "weight_Z2Prime", "weight_XY3",
      "weight_XY3Prime", "weight_XY3PrimePrime", "weight_grad_B", "weight_grad_grad_B",
      "weight_r_singularity", "weight_axis_length", "weight_standard_deviation_of_R",
      "weight_B20_mean"]

/-- `Scan::defaults` (scan.cpp 6-54); `SCAN_OPTION_LINEAR` is "linear" (scan.hpp 17). -/
def scanNew (lit : String → F) (single : Bool) : ScanObj F where
  q := qscNew lit single
  mem := members <|
    lits lit "60" ["max_seconds", "save_period"] ++
    [("max_keep_per_proc", .int 1000), ("max_attempts_per_proc", .int (-1)),
     ("deterministic", .bool false)] ++
    lits lit "1.0" ["eta_bar_min", "eta_bar_max"] ++
    lits lit "0.0" ["sigma0_min", "sigma0_max", "B2c_min", "B2c_max", "B2s_min", "B2s_max",
      "p2_min", "p2_max"] ++
    (["R0c_min", "R0c_max"].map fun m => (m, .flts [lit "1.0"])) ++
    (["R0s_min", "R0s_max", "Z0c_min", "Z0c_max", "Z0s_min", "Z0s_max"].map fun m =>
      (m, .flts [lit "0.0"])) ++
    (["eta_bar_scan_option", "sigma0_scan_option", "B2c_scan_option", "B2s_scan_option",
      "p2_scan_option", "fourier_scan_option"].map fun m => (m, .str "linear")) ++
    [("keep_all", .bool true), ("helicity_to_keep", .int (-1))] ++
    lits lit "-1.0" ["min_R0_to_keep", "min_iota_to_keep", "min_L_grad_B_to_keep",
      "min_L_grad_grad_B_to_keep", "min_r_singularity_to_keep", "min_beta_to_keep"] ++
    lits lit "10.0" ["max_elongation_to_keep"] ++
    lits lit "1.0e+30" ["max_B20_variation_to_keep", "max_d2_volume_d_psi2_to_keep"] ++
    lits lit "-1.0e+30" ["min_DMerc_times_r2_to_keep"]

/-- `MultiOpt::defaults` (multiopt.cpp 9-13). -/
def multioptNew : MultiOptObj F := ⟨[], members [("verbose", .int 0)]⟩

/-- `MultiOptScan::defaults` (multiopt_scan.cpp 12-37).  The arrays are default constructed.
`ndim` is not initialised; `input` sets it. -/
def multiScanNew (lit : String → F) : MultiScanObj F where
  ref := multioptNew
  ndim := 0
  mem := members <|
    [("verbose", .int 1), ("quit_after_init", .bool false), ("keep_all", .bool true),
     ("params", .strs []), ("params_min", .flts []), ("params_max", .flts []),
     ("params_n", .ints []), ("params_stage", .ints []), ("params_log", .bools [])] ++
    lits lit "60" ["max_seconds"] ++
    lits lit "20.0" ["print_status_period"] ++
    lits lit "5 * 60.0" ["save_period"] ++
    lits lit "-1.0" ["min_R0_to_keep", "min_iota_to_keep", "min_L_grad_B_to_keep",
      "min_L_grad_grad_B_to_keep", "min_r_singularity_to_keep"] ++
    lits lit "10.0" ["max_elongation_to_keep"] ++
    lits lit "1.0e+30" ["max_B20_variation_to_keep", "max_d2_volume_d_psi2_to_keep",
      "max_XY2_to_keep", "max_Z2_to_keep", "max_XY3_to_keep", "max_d_XY2_d_varphi_to_keep",
      "max_d_Z2_d_varphi_to_keep", "max_d_XY3_d_varphi_to_keep"] ++
    lits lit "-1.0e+30" ["min_DMerc_times_r2_to_keep"]

/-! ## From members to the optimizer -/

/-- What can happen in a run (exceptions and undefined accesses of opt_input.cpp, opt_allocate.cpp,
optimize.cpp lines 17-214 and multiopt.cpp lines 19-104). -/
inductive Err
  /-- reading the file -/
  | input (e : Sections.Err)
  /-- during the optimization -/
  | run (e : OptState.Err)
  /-- a negative size; what the code then does is not modelled -/
  | outside (what : String)
  deriving DecidableEq, Repr

/-- The settings of the loop as they come from the file (opt.hpp lines 29-47). -/
structure Raw where
  fl : Flags
  refine : Int
  maxIter : Int
  nphis : List Int

/-- Helper of the model; no counterpart in the code. -/
def getInt (o : Obj F) (m : String) : Option Int :=
  match o m with
  | some (.int i) => some i
  | _ => none

/-- Helper of the model; no counterpart in the code. -/
def getBool (o : Obj F) (m : String) : Option Bool :=
  match o m with
  | some (.bool b) => some b
  | _ => none

/-- Helper of the model; no counterpart in the code. -/
def getBools (o : Obj F) (m : String) : Option (List Bool) :=
  match o m with
  | some (.bools b) => some b
  | _ => none

/-- Helper of the model; no counterpart in the code. -/
def getInts (o : Obj F) (m : String) : Option (List Int) :=
  match o m with
  | some (.ints b) => some b
  | _ => none

/-- Helper of the model; no counterpart in the code. -/
def getFlt (o : Obj F) (m : String) : Option F :=
  match o m with
  | some (.flt b) => some b
  | _ => none

/-- The members read by `Opt::allocate` and `Opt::optimize` (opt.hpp lines 29-47; opt_allocate.cpp
lines 7-60, optimize.cpp lines 17-101). -/
def rawOf (o : Obj F) : Option Raw :=
  (getBool o "vary_eta_bar").bind fun etaBar =>
  (getBool o "vary_sigma0").bind fun sigma0 =>
  (getBool o "vary_B2c").bind fun b2c =>
  (getBool o "vary_B2s").bind fun b2s =>
  (getBools o "vary_R0c").bind fun r0c =>
  (getBools o "vary_R0s").bind fun r0s =>
  (getBools o "vary_Z0c").bind fun z0c =>
  (getBools o "vary_Z0s").bind fun z0s =>
  (getInt o "fourier_refine").bind fun refine =>
  (getInt o "max_iter").bind fun maxIter =>
  (getInts o "nphi").bind fun nphis =>
  some ⟨⟨etaBar, sigma0, b2c, b2s, r0c, r0s, z0c, z0s⟩, refine, maxIter, nphis⟩

/-- The weights read by `init_residuals` (opt.hpp lines 49-59). -/
def weightsOf (o : Obj F) : Option (OptResid.Weights F) :=
  (getFlt o "weight_B20").bind fun B20 =>
  (getFlt o "weight_iota").bind fun iota =>
  (getFlt o "weight_elongation").bind fun elongation =>
  (getFlt o "weight_curvature").bind fun curvature =>
  (getFlt o "weight_R0").bind fun R0 =>
  (getFlt o "weight_d2_volume_d_psi2").bind fun d2V =>
  (getFlt o "weight_DMerc_times_r2").bind fun DMerc =>
  (getFlt o "weight_XY2").bind fun XY2 =>
  (getFlt o "weight_XY2Prime").bind fun XY2Prime =>
  (getFlt o "weight_XY2PrimePrime").bind fun XY2PrimePrime =>
  (getFlt o "weight_Z2").bind fun Z2 =>
  (getFlt o "weight_Z2Prime").bind fun Z2Prime =>
  (getFlt o "weight_XY3").bind fun XY3 =>
  (getFlt o "weight_XY3Prime").bind fun XY3Prime =>
  (getFlt o "weight_XY3PrimePrime").bind fun XY3PrimePrime =>
  (getFlt o "weight_grad_B").bind fun grad_B =>
  (getFlt o "weight_grad_grad_B").bind fun grad_grad_B =>
  (getFlt o "weight_r_singularity").bind fun r_singularity =>
  (getFlt o "weight_axis_length").bind fun axis_length =>
  (getFlt o "weight_standard_deviation_of_R").bind fun sdR =>
  (getFlt o "weight_B20_mean").bind fun B20_mean =>
  some ⟨B20, iota, elongation, curvature, R0, d2V, DMerc, XY2, XY2Prime, XY2PrimePrime, Z2,
    Z2Prime, XY3, XY3Prime, XY3PrimePrime, grad_B, grad_grad_B, r_singularity, axis_length, sdR,
    B20_mean⟩

/-- The members of `q` that can be varied (qsc.hpp lines 61-63). -/
def configOf (q : QscIn F) : Config F :=
  ⟨q.eta_bar, q.sigma0, q.B2c, q.B2s, q.R0c, q.R0s, q.Z0c, q.Z0s⟩

/-- `n_terms` for a grid of `nphi` points (`init_residuals`); the loop refuses zero terms
(optimize.cpp lines 321-450). -/
def termsOf [Zero F] (o : OptResid.Ops F) (w : OptResid.Weights F) (nphi : Nat) : Nat :=
  match OptResid.initResiduals o w nphi with
  | .ok s => s.1
  | .error _ => 0

/-- The library and the physics, without the number of terms (optimize.cpp lines 183-186, 247-248).
-/
structure World (F P : Type) where
  ops : OptResid.Ops F
  gsl : Nat → (p : Nat) → OptLoop.Gsl F p
  calculate : Config F → Nat → Except String P

/-- The library and the physics with the number of terms from the weights (optimize.cpp lines
321-450). -/
def World.env [Zero F] (w : World F P) (wt : OptResid.Weights F) : OptLoop.Env F P :=
  ⟨w.gsl, w.calculate, termsOf w.ops wt⟩

/-- An `int` that becomes a size (`resize` with an `int` argument: opt_allocate.cpp lines 11-60,
allocate.cpp lines 15-218). -/
def nat? (what : String) (i : Int) : Except Err Nat :=
  if i < 0 then .error (.outside what) else .ok i.toNat

/-- Failures of the optimization pass through. Helper of the model; no counterpart in the code. -/
def liftRun {α : Type} : Except OptState.Err α → Except Err α
  | .ok a => .ok a
  | .error e => .error (.run e)

/-- `Opt::allocate(); Opt::optimize();` with the `int` members as in the code.  If
`fourier_refine < 0` but `newsize` is not negative, the copy loops of optimize.cpp 35-58 write to
elements `newsize .. oldsize - 1` of an array of `newsize` elements. -/
def runOpt [Zero F] (e : OptLoop.Env F P) (s : Raw) (order : String) (q : Config F) (nphi : Int) :
    Except Err (OptLoop.St F P) :=
  (nat? "q.nphi" nphi).bind fun nphi =>
  (nat? "max_iter" s.maxIter).bind fun maxIter =>
  (s.nphis.mapM (nat? "nphi")).bind fun nphis =>
  if 0 ≤ s.refine then
    liftRun (OptLoop.optimize e ⟨s.fl, s.refine.toNat, maxIter, nphis⟩ order q nphi)
  else
    (nat? "newsize" (q.R0c.length + s.refine)).bind fun _ =>
    if s.fl.R0c.length ≠ q.R0c.length then .error (.run (.throw "Size of vary_R0c is incorrect"))
    else if s.fl.R0s.length ≠ q.R0s.length then
      .error (.run (.throw "Size of vary_R0s is incorrect"))
    else if s.fl.Z0c.length ≠ q.Z0c.length then
      .error (.run (.throw "Size of vary_Z0c is incorrect"))
    else if s.fl.Z0s.length ≠ q.Z0s.length then
      .error (.run (.throw "Size of vary_Z0s is incorrect"))
    else .error (.run (.undefined "q.R0c"))

/-- Using a member without a value. Helper of the model; no counterpart in the code. -/
def member {α : Type} : Option α → Except Err α
  | some a => .ok a
  | none => .error (.run (.undefined "member"))

/-- Helper of the model; no counterpart in the code. -/
def liftInput {α : Type} : Except Sections.Err α → Except Err α
  | .ok a => .ok a
  | .error e => .error (.input e)

/-- An `Opt` after `input`, ready to run (opt.cpp lines 61-66). -/
def readyOpt [Zero F] (w : World F P) (r : OptObj F) : Except Err (OptLoop.Env F P × Raw) :=
  (member (weightsOf r.mem)).bind fun wt =>
  (member (rawOf r.mem)).bind fun raw => .ok (w.env wt, raw)

/-- `Opt opt; opt.run(file)` (opt.cpp 54-64, driver.cpp 71-72) without output files. -/
def optRun [Zero F] (w : World F P) (ofInt : Int → F) (lit : String → F) (single : Bool)
    (f : File F) : Except Err (OptLoop.St F P) :=
  (liftInput (optInput ofInt 0 f (optNew lit single))).bind fun r =>
  (readyOpt w r).bind fun s =>
  runOpt s.1 s.2 r.q.order_r_option (configOf r.q) r.q.nphi

/-- The loop of `MultiOpt::optimize` (multiopt.cpp 60-104): `prev` is `q` at the end of the stage
before. -/
def runStages [Zero F] (w : Nat → World F P) : Nat → List (OptObj F) → Option (OptLoop.Start F) →
    Nat → Except Err (List (OptLoop.St F P) × Nat)
  | _, [], _, n => .ok ([], n)
  | j, o :: os, prev, n =>
    (readyOpt (w j) o).bind fun s =>
    (prev.elim (runOpt s.1 s.2 o.q.order_r_option (configOf o.q) o.q.nphi)
      fun a => runOpt s.1 s.2 a.order a.q a.nphi).bind fun st =>
    (runStages w (j + 1) os
      (some ⟨st.q, st.nphi, prev.elim o.q.order_r_option fun a => a.order⟩)
      (n + st.nEvals)).bind fun r =>
    .ok (st :: r.1, r.2)

/-- `MultiOpt multiopt; multiopt.run(file)` (multiopt.cpp 19-32, driver.cpp 75-76) without output
files: the stages and the number of evaluations. -/
def multioptRun [Zero F] (w : Nat → World F P) (ofInt : Int → F) (lit : String → F) (single : Bool)
    (f : File F) : Except Err (List (OptLoop.St F P) × Nat) :=
  (liftInput (multioptInput ofInt 0 f (optNew lit single) multioptNew)).bind fun r =>
  runStages w 0 r.opts none 0

end Qsc.Pipeline
