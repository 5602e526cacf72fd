import Verif.Model.Single

/-!
# An optimization from the input file to the output file: `Opt::run` (opt.cpp 60-66)

The input file is read by the model of `opt_input.cpp`, the loop is that of `Model/OptLoop` with the physics of
`Model/Single`, the residuals are those of `Model/OptResid`, and the output file is written by the model of
`opt_write_netcdf.cpp`.  Numbers are elements of a field.  Printing and timing are left out.
-/

namespace Qsc.OptRun

open Qsc.Netcdf (Data Mem)
open Qsc.Toml (QscIn)
open Qsc.OptState (Config)
open Qsc.Single (Lib Result assign)

variable {K : Type}

/-- What can go wrong in a run: exceptions and undefined behaviour of the parts (opt.cpp 60-66), or an input
outside the model. -/
inductive Err
  /-- `qsc::outfile` (opt.cpp 61) -/
  | name (e : Outfile.Err)
  /-- `Opt::input`, `Opt::allocate`, `Opt::optimize` (62-64) -/
  | opt (e : Pipeline.Err)
  /-- `q.calculate()` or `q.init()` -/
  | single (e : Single.Err)
  /-- `write_netcdf` (65) -/
  | file (e : Netcdf.Err)
  /-- `write_netcdf` (65) reads scalars of `q` that were never set, because nothing was calculated -/
  | unset
  deriving DecidableEq

variable [Field K]

/-- The configuration after `unpack_state_vector`, on a grid of `n` points (optimize.cpp 506-551). -/
def atPoint (q : QscIn K) (c : Config K) (n : Nat) : QscIn K :=
  { q with
    nphi := n, eta_bar := c.etaBar, sigma0 := c.sigma0, B2c := c.B2c, B2s := c.B2s
    R0c := c.R0c, R0s := c.R0s, Z0c := c.Z0c, Z0s := c.Z0s }

/-- The message of an exception.  The other cases do not occur for an axis with modes and a known order. Helper of
the model; no counterpart in the code. -/
def message : Single.Err → String
  | .throw m => m
  | _ => ""

/-- `q.calculate()` (optimize.cpp 248, 871); the order was checked by `q.init()` (128). -/
def physics (L : Lib K) [DecidableEq K] (q : QscIn K) (c : Config K) (n : Nat) : Except String (Result K) :=
  match Setup.validate q.order_r_option with
  | .error _ => .error ""
  | .ok ord =>
    match Single.calculate L (atPoint q c n) n ord with
    | .error e => .error (message e)
    | .ok r => .ok r

/-- The arithmetic of `set_residuals` (optimize.cpp 553-841). -/
def resOps (o : Ops K) : OptResid.Ops K := ⟨o.lt, o.sqrt, 1 / 2, fun n => n⟩

/-- The library and the physics of this run (optimize.cpp 183-186, 247-248). -/
def world (L : Lib K) [DecidableEq K] (gsl : Nat → (p : Nat) → OptLoop.Gsl K p) (q : QscIn K) :
    Pipeline.World K (Result K) :=
  ⟨resOps L.ops, gsl, physics L q⟩

/-! ## Residuals -/

/-- Element `j` of a member of `q` set by `calculate`; scalars have one element (qsc.hpp 60-110). -/
def elem (o : Ops K) (r : Result K) (a : String) (j : Nat) : K :=
  match (Single.results o r.cfg.nphi r).lookup a with
  | some (.flts l) => l.getD j 0
  | _ => 0

/-- The results that enter the residuals (optimize.cpp 553-841): the members of `q` of these names. -/
def physOf (o : Ops K) (r : Result K) : OptResid.Phys K where
  nphi := r.cfg.nphi
  nfp := r.cfg.nfp
  d_phi := elem o r "d_phi" 0
  axis_length := elem o r "axis_length" 0
  iota := elem o r "iota" 0
  d2_volume_d_psi2 := elem o r "d2_volume_d_psi2" 0
  DMerc_times_r2 := elem o r "DMerc_times_r2" 0
  mean_R := elem o r "mean_R" 0
  d_l_d_phi := elem o r "d_l_d_phi"
  B20_anomaly := elem o r "B20_anomaly"
  elongation := elem o r "elongation"
  curvature := elem o r "curvature"
  R0 := elem o r "R0"
  B20 := elem o r "B20"
  r_hat_singularity_robust := elem o r "r_hat_singularity_robust"
  X20 := elem o r "X20"
  X2s := elem o r "X2s"
  X2c := elem o r "X2c"
  Y20 := elem o r "Y20"
  Y2s := elem o r "Y2s"
  Y2c := elem o r "Y2c"
  d_X20_d_varphi := elem o r "d_X20_d_varphi"
  d_X2s_d_varphi := elem o r "d_X2s_d_varphi"
  d_X2c_d_varphi := elem o r "d_X2c_d_varphi"
  d_Y20_d_varphi := elem o r "d_Y20_d_varphi"
  d_Y2s_d_varphi := elem o r "d_Y2s_d_varphi"
  d_Y2c_d_varphi := elem o r "d_Y2c_d_varphi"
  d2_X20_d_varphi2 := elem o r "d2_X20_d_varphi2"
  d2_X2s_d_varphi2 := elem o r "d2_X2s_d_varphi2"
  d2_X2c_d_varphi2 := elem o r "d2_X2c_d_varphi2"
  d2_Y20_d_varphi2 := elem o r "d2_Y20_d_varphi2"
  d2_Y2s_d_varphi2 := elem o r "d2_Y2s_d_varphi2"
  d2_Y2c_d_varphi2 := elem o r "d2_Y2c_d_varphi2"
  Z20 := elem o r "Z20"
  Z2s := elem o r "Z2s"
  Z2c := elem o r "Z2c"
  d_Z20_d_varphi := elem o r "d_Z20_d_varphi"
  d_Z2s_d_varphi := elem o r "d_Z2s_d_varphi"
  d_Z2c_d_varphi := elem o r "d_Z2c_d_varphi"
  X3c1 := elem o r "X3c1"
  Y3c1 := elem o r "Y3c1"
  Y3s1 := elem o r "Y3s1"
  d_X3c1_d_varphi := elem o r "d_X3c1_d_varphi"
  d_Y3c1_d_varphi := elem o r "d_Y3c1_d_varphi"
  d_Y3s1_d_varphi := elem o r "d_Y3s1_d_varphi"
  d2_X3c1_d_varphi2 := elem o r "d2_X3c1_d_varphi2"
  d2_Y3c1_d_varphi2 := elem o r "d2_Y3c1_d_varphi2"
  d2_Y3s1_d_varphi2 := elem o r "d2_Y3s1_d_varphi2"
  grad_B_tensor := elem o r "grad_B_tensor"
  grad_grad_B_tensor := elem o r "grad_grad_B_tensor"

/-- The targets read by `set_residuals` (opt.hpp 49-58). -/
def targetsOf (o : Sections.Obj K) : Option (OptResid.Targets K) :=
  (Pipeline.getFlt o "target_iota").bind fun iota =>
  (Pipeline.getFlt o "min_R0").bind fun R0 =>
  (Pipeline.getFlt o "max_d2_volume_d_psi2").bind fun d2V =>
  (Pipeline.getFlt o "min_DMerc_times_r2").bind fun DMerc =>
  (Pipeline.getFlt o "target_axis_length").bind fun len => some ⟨iota, R0, d2V, DMerc, len⟩

/-- `objective_function` and the terms after `set_residuals` (optimize.cpp 553-841), in the order of the array
`terms` (814-817); `residuals` has `n_terms` elements. -/
def termsAt (o : Ops K) (w : OptResid.Weights K) (t : OptResid.Targets K) (r : Result K) : K × List K :=
  let n := Pipeline.termsOf (resOps o) w r.cfg.nphi
  match OptResid.setResiduals (resOps o) n w t (physOf o r) (List.replicate n 0) with
  | .error _ => (0, [])
  | .ok a => (a.1, a.2.1)

/-! ## The members of `Opt` that are written -/

/-- The settings that are written (opt_write_netcdf.cpp 22-47). -/
def settingNames : List String :=
  ["weight_B20", "weight_iota", "weight_elongation", "weight_curvature", "weight_R0", "weight_d2_volume_d_psi2",
   "max_d2_volume_d_psi2", "weight_DMerc_times_r2", "min_DMerc_times_r2", "weight_XY2", "weight_XY2Prime",
   "weight_XY2PrimePrime", "weight_Z2", "weight_Z2Prime", "weight_XY3", "weight_XY3Prime", "weight_XY3PrimePrime",
   "weight_grad_B", "weight_grad_grad_B", "weight_r_singularity", "weight_axis_length",
   "weight_standard_deviation_of_R", "weight_B20_mean", "target_iota", "min_R0", "target_axis_length"]

/-- The arrays for the terms of the objective, in the order of the array `terms` (optimize.cpp 876-896). -/
def termNames : List String :=
  ["iter_B20_term", "iter_iota_term", "iter_elongation_term", "iter_curvature_term", "iter_R0_term",
   "iter_d2_volume_d_psi2_term", "iter_DMerc_times_r2_term", "iter_XY2_term", "iter_XY2Prime_term",
   "iter_XY2PrimePrime_term", "iter_Z2_term", "iter_Z2Prime_term", "iter_XY3_term", "iter_XY3Prime_term",
   "iter_XY3PrimePrime_term", "iter_grad_B_term", "iter_grad_grad_B_term", "iter_r_singularity_term",
   "iter_axis_length_term", "iter_standard_deviation_of_R_term", "iter_B20_mean_term"]

/-- The arrays for results, each with the member of `q` that is stored in it (optimize.cpp 902-915). -/
def resultNames : List (String × String) :=
  [("iter_min_R0", "grid_min_R0"), ("iter_max_curvature", "grid_max_curvature"), ("iter_iota", "iota"),
   ("iter_max_elongation", "grid_max_elongation"), ("iter_min_L_grad_B", "grid_min_L_grad_B"),
   ("iter_min_L_grad_grad_B", "grid_min_L_grad_grad_B"), ("iter_r_singularity", "r_singularity_robust"),
   ("iter_B20_variation", "B20_grid_variation"), ("iter_B20_residual", "B20_residual"),
   ("iter_d2_volume_d_psi2", "d2_volume_d_psi2"), ("iter_DMerc_times_r2", "DMerc_times_r2"),
   ("iter_standard_deviation_of_R", "standard_deviation_of_R"),
   ("iter_standard_deviation_of_Z", "standard_deviation_of_Z"), ("iter_axis_length", "axis_length")]

/-- What `gsl_callback` stores in one element of each array (optimize.cpp 874-915). -/
def columns (o : Ops K) (w : OptResid.Weights K) (t : OptResid.Targets K) (c : OptLoop.Rec K (Result K)) :
    List (String × K) :=
  let a := termsAt o w t c.phys
  [("iter_objective_function", a.1)] ++ termNames.zipIdx.map (fun p => (p.1, a.2.getD p.2 0)) ++
  [("iter_eta_bar", c.q.etaBar), ("iter_sigma0", c.q.sigma0), ("iter_B2c", c.q.B2c), ("iter_B2s", c.q.B2s)] ++
  resultNames.map fun p => (p.1, elem o c.phys p.2 0)

/-- The names of these arrays. Helper of the model; no counterpart in the code. -/
def columnNames : List String :=
  ["iter_objective_function"] ++ termNames ++ ["iter_eta_bar", "iter_sigma0", "iter_B2c", "iter_B2s"] ++
  resultNames.map (·.1)

/-- What `gsl_callback` stores in one column of the arrays for the axis, which have `rows` rows (optimize.cpp
916-921); elements beyond the axis keep the zeros of `allocate`. -/
def axisColumns (rows : Nat) (c : OptLoop.Rec K (Result K)) : List (String × List K) :=
  let col := fun l : List K => (List.range rows).map fun j => if j < c.q.R0c.length then l.getD j 0 else 0
  [("iter_R0c", col c.q.R0c), ("iter_R0s", col c.q.R0s), ("iter_Z0c", col c.q.Z0c), ("iter_Z0s", col c.q.Z0s)]

/-- The members of `Opt` that `write_netcdf` writes, at the end (opt.hpp 23-105).  The arrays have `max_iter`
columns; those without a record keep the zeros of `allocate` (opt_allocate.cpp 11-60). -/
def memberList (o : Ops K) (s : Sections.Obj K) (w : OptResid.Weights K) (t : OptResid.Targets K) (rows : Nat)
    (st : OptLoop.St K (Result K)) : List (String × Data K) :=
  [("n_iter", .ints [(st.nIter : Int)]), ("n_evals", .ints [(st.nEvals : Int)])] ++
  settingNames.map (fun a => (a, .flts [(Pipeline.getFlt s a).getD 0])) ++
  [("iter_fourier_refine_step", .ints (st.hist.map fun h => h.elim 0 fun c => (c.step : Int)))] ++
  columnNames.map (fun a => (a, .flts (st.hist.map fun h => h.elim 0 fun c =>
    ((columns o w t c).lookup a).getD 0))) ++
  ["iter_R0c", "iter_R0s", "iter_Z0c", "iter_Z0s"].map fun a => (a, .flts (st.hist.flatMap fun h =>
    h.elim (List.replicate rows 0) fun c => ((axisColumns rows c).lookup a).getD []))

/-! ## The run -/

/-- `Opt::write_netcdf` (opt_write_netcdf.cpp 6-237) at the end of a run.  `q` holds the inputs and results of its
last evaluation, which was made on the grid of the last step; the results are made from these inputs again here,
because the loop of the model does not keep them.  `m0`, `m1` are what the members hold before they are set.
The assignments before the last evaluation are left out: an evaluation sets all results that are written. -/
def write (L : Lib K) [DecidableEq K] (m0 m1 : Mem K) (o : Sections.OptObj K) (w : OptResid.Weights K)
    (t : OptResid.Targets K) (rows : Nat) (st : OptLoop.St K (Result K)) : Except Err (Netcdf.File K) :=
  let q := atPoint o.q st.q st.nphi
  match Setup.validate q.order_r_option with
  | .error e => .error (.single (.run e))
  | .ok ord =>
    match Output.allocate 0 ⟨Single.flags ord, assign m0 (Single.inputMembers q)⟩ with
    | .error e => .error (.single (.file e))
    | .ok obj =>
      match Single.calculate L q st.nphi ord with
      | .error e => .error (.single e)
      | .ok r =>
        match Output.writeOpt L.toF
            ⟨⟨obj.fl, assign obj.mem (Single.results L.ops st.nphi r)⟩,
              assign m1 (memberList L.ops o.mem w t rows st)⟩ with
        | .error e => .error (.file e)
        | .ok f => .ok f

/-- `Opt::run` (opt.cpp 60-66) for a parsed input file, in the order of the calls.  The result is the name of the
output file, the state at the end and the file.  In single precision `optimize` returns at once (optimize.cpp
18-21). -/
def run (L : Lib K) [DecidableEq K] (gsl : Nat → (p : Nat) → OptLoop.Gsl K p) (m0 m1 : Mem K) (path : List Char)
    (file : Sections.File K) : Except Err (List Char × OptLoop.St K (Result K) × Netcdf.File K) :=
  match Outfile.outfile path with                                                              -- line 61
  | .error e => .error (.name e)
  | .ok name =>
    match Sections.optInput (fun i => (i : K)) 0 file (Pipeline.optNew L.lit L.single) with     -- 62
    | .error e => .error (.opt (.input e))
    | .ok o =>
      match Pipeline.readyOpt (world L gsl o.q) o, Pipeline.weightsOf o.mem, targetsOf o.mem with
      | .error e, _, _ => .error (.opt e)
      | .ok s, some w, some t =>
        if o.q.nfp ≤ 0 then .error (.single (.outside "nfp"))
        else if L.single then .error .unset
        else
          match Pipeline.runOpt s.1 s.2 o.q.order_r_option (Pipeline.configOf o.q) o.q.nphi with   -- 63, 64
          | .error e => .error (.opt e)
          | .ok st =>
            if st.nIter = 0 then .error .unset
            else
              match write L m0 m1 o w t (o.q.R0c.length + s.2.refine.toNat) st with              -- 65
              | .error e => .error e
              | .ok f => .ok (name, st, f)
      | .ok _, _, _ => .error (.opt (.run (.undefined "member")))

end Qsc.OptRun
