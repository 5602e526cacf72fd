import Verif.Model.RSing
import Verif.Model.GradGradB
import Verif.Model.Pipeline
import Verif.Model.Outfile
import Verif.Model.Output
import Verif.Model.Setup

/-!
# A run for one configuration: `Qsc::run` (qsc.cpp 95-101) and `Qsc::calculate` (74-93)

From the parsed input file to the contents of the output file.  The input file is read by the model of
`qsc_input.cpp`, the calculations are those of Axis, R1, R2, GradGradB and RSing, and the output file is
written by the model of `qsc_write_netcdf.cpp`.  Numbers are elements of a field.  Printing and timing are
left out.  Members that `write_netcdf` does not write (work arrays, the Frenet frame, right-hand sides) are
not tracked: they keep the zeros of `allocate`.
-/

namespace Qsc.Single

open Qsc.Netcdf (Data Mem)
open Qsc.Toml (QscIn)
open Qsc.Output (set)

variable {K : Type}

/-- What the run takes from outside: arithmetic, the value of decimal literals, the precision of the build,
`*gesv` for a matrix of a given size (vector_matrix.cpp 181) and `*geev` (quartic_roots.cpp 61); `none` is a
non-zero `INFO`. -/
structure Lib (K : Type) where
  ops : Ops K
  lit : String → K
  toF : Nat → K
  single : Bool
  gesv : Nat → (Nat → Nat → K) → (Nat → K) → Option (Nat → K)
  geev : Quartic.Geev K

/-- What can go wrong in a run: exceptions and undefined behaviour of the parts (qsc.cpp 95-101), or an input
outside the model. -/
inductive Err
  /-- `qsc::outfile` (qsc.cpp 96) -/
  | name (e : Outfile.Err)
  /-- `Qsc::input` (97) -/
  | input (e : Sections.Err)
  /-- `validate`, `init_axis` (98, 78) -/
  | run (e : OptState.Err)
  /-- an exception of the linear algebra (79-83) -/
  | throw (msg : String)
  /-- `allocate`, `write_netcdf` (69, 100) -/
  | file (e : Netcdf.Err)
  /-- division by zero: not meaningful over a field -/
  | outside (msg : String)
  deriving DecidableEq

/-- The results beyond first order (calculate_r2.cpp 10-291, 316-357, mercier.cpp, r_singularity.cpp). -/
structure Second (K : Type) where
  inp : R2.In K
  r2 : R2.R2 K
  third : Option (R2.R2p1 K)
  merc : R2.Mercier K
  sing : RSing.Out K

/-- The results of `Qsc::calculate` (qsc.cpp 74-93); `newton` is `newton_result` (calculate_r1.cpp 65). -/
structure Result (K : Type) where
  axis : Axis.Axis K
  newton : Newton.Status
  cfg : R1.Cfg K
  st : R1.Stored K
  r1 : R1.R1 K
  second : Option (Second K)

/-- The states at which the Jacobian was asked for, in order (newton.cpp line 61). -/
def jacStates {X : Type} : List (Newton.Event X) → List X
  | [] => []
  | .jac x :: t => x :: jacStates t
  | _ :: t => jacStates t

variable [Field K]

/-- `mu0` (qsc.hpp 10). -/
def mu0 (o : Ops K) : K := 4 / 10 ^ 7 * o.pi

/-- The input as `init_axis` sees it (init_axis.cpp 18-45). -/
def coeffs (q : QscIn K) : Axis.Coeffs K := ⟨q.nfp.toNat, q.R0c, q.R0s, q.Z0c, q.Z0s⟩

/-- `linear_solve` inside the Newton solver (newton.cpp 70, vector_matrix.cpp 161-185); a failure is dealt
with in `newtonThrows`. -/
def newtonSolve (L : Lib K) (n : Nat) : Nat → (Nat → Nat → K) → (Nat → K) → Nat → K :=
  fun _ m b => (L.gesv n m b).getD b

/-- Whether one of the linear solves of the Newton solver throws (vector_matrix.cpp 182-184). -/
def newtonThrows (L : Lib K) (p : R1.Cfg K) (tol : K) (N M : Int) : Bool :=
  (jacStates (Newton.newton (R1.env L.ops p (newtonSolve L p.nphi) tol) N M (R1.start p)).trace).any fun x =>
    (L.gesv p.nphi (R1.jacobian p (R1.store p x)) fun j => -R1.residual p x j).isNone

/-- `calculate_r2`, which calls `calculate_r2p1`, and `r2_diagnostics` (calculate_r2.cpp 10-304).  `r2_matrix`
holds the zeros of `allocate` before. -/
def second (L : Lib K) [DecidableEq K] (i : R2.In K) (a : Axis.Axis K) (r2p1 : Bool) : Except Err (Second K) :=
  match L.gesv (2 * i.cfg.nphi) (R2.matrix i fun _ _ => 0) (R2.rhs i) with
  | none => .error (.throw "LAPACK error in *gesv")
  | some x =>
    let r := R2.finish L.ops i x
    let third := if r2p1 then some (R2.r2p1 L.ops i r) else none
    let merc := R2.mercier L.ops i r.mean a.dPhi a.axisLength
    match RSing.calculate L.ops (if L.single then RSing.tolSingle else RSing.tolDouble) L.geev i r with
    | .error e => .error (.throw e)
    | .ok s => .ok ⟨i, r, third, merc, s⟩

/-- `Qsc::calculate` (qsc.cpp 74-93); `n` is `nphi` after `allocate`. -/
def calculate (L : Lib K) [DecidableEq K] (q : QscIn K) (n : Nat) (ord : Setup.Order) : Except Err (Result K) :=
  match Axis.initAxis L.ops (coeffs q) n q.sG q.spsi q.B0 with
  | .error e => .error (.run e)
  | .ok a =>
    let p := R1.Cfg.ofAxis a n q.nfp.toNat q.sG q.spsi q.eta_bar q.sigma0 q.I2 q.B0
    if newtonThrows L p q.newton_tolerance q.max_newton_iterations q.max_linesearch_iterations then
      .error (.throw "LAPACK error in *gesv")
    else
      match R1.solveSigma L.ops p (newtonSolve L n) q.newton_tolerance q.max_newton_iterations
          q.max_linesearch_iterations with
      | (_, none) => .error (.outside "no residual was evaluated")
      | (s, some st) =>
        let r1 := R1.diagnostics L.ops p st
        if ord.atLeastR2 then
          match second L (R2.In.of a p st r1 (mu0 L.ops) q.p2 q.B2s q.B2c) a ord.r2p1 with
          | .error e => .error e
          | .ok d => .ok ⟨a, s, p, st, r1, some d⟩
        else .ok ⟨a, s, p, st, r1, none⟩

/-! ## The members -/

/-- The members set by `Qsc::input` and the constructor that are written to the file (qsc_input.cpp 17-52). -/
def inputMembers (q : QscIn K) : List (String × Data K) :=
  [("nphi", .ints [q.nphi]), ("nfp", .ints [q.nfp]), ("sG", .ints [q.sG]), ("spsi", .ints [q.spsi]),
   ("max_newton_iterations", .ints [q.max_newton_iterations]),
   ("max_linesearch_iterations", .ints [q.max_linesearch_iterations]),
   ("eta_bar", .flts [q.eta_bar]), ("sigma0", .flts [q.sigma0]), ("B2c", .flts [q.B2c]),
   ("B2s", .flts [q.B2s]), ("I2", .flts [q.I2]), ("p2", .flts [q.p2]), ("B0", .flts [q.B0]),
   ("newton_tolerance", .flts [q.newton_tolerance]),
   ("order_r_option", .chars q.order_r_option.toList),
   ("R0c", .flts q.R0c), ("R0s", .flts q.R0s), ("Z0c", .flts q.Z0c), ("Z0s", .flts q.Z0s)]

/-- The scalars set by `init_axis`, `solve_sigma_equation` and `r1_diagnostics` (init_axis.cpp 9-183,
calculate_r1.cpp 15, 97-116, grad_B_tensor.cpp 10-55). -/
def scalars1 (o : Ops K) (r : Result K) : List (String × K) :=
  [("d_phi", r.axis.dPhi), ("B0_over_abs_G0", r.axis.B0overG0), ("abs_G0_over_B0", r.axis.G0overB0),
   ("d_l_d_varphi", r.axis.dlDvarphi), ("G0", r.axis.G0), ("grid_min_R0", r.axis.minR0),
   ("axis_length", r.axis.axisLength), ("grid_max_curvature", r.axis.maxCurvature),
   ("rms_curvature", r.axis.rmsCurvature), ("mean_R", r.axis.meanR), ("mean_Z", r.axis.meanZ),
   ("standard_deviation_of_R", r.axis.sdR), ("standard_deviation_of_Z", r.axis.sdZ),
   ("iota", r.st.iota), ("iota_N", r.r1.iotaN), ("grid_max_elongation", r.r1.maxElongation),
   ("mean_elongation", r.r1.meanElongation), ("grid_min_L_grad_B", R1.minLgradB o r.cfg r.r1)]

/-- The vectors along the axis set by the same functions. -/
def profiles1 (o : Ops K) (r : Result K) : List (String × (Nat → K)) :=
  [("phi", r.axis.phi), ("R0", fun j => (r.axis.pt j).R0), ("Z0", fun j => (r.axis.pt j).Z0),
   ("R0p", fun j => (r.axis.pt j).R0p), ("Z0p", fun j => (r.axis.pt j).Z0p),
   ("R0pp", fun j => (r.axis.pt j).R0pp), ("Z0pp", fun j => (r.axis.pt j).Z0pp),
   ("R0ppp", fun j => (r.axis.pt j).R0ppp), ("Z0ppp", fun j => (r.axis.pt j).Z0ppp),
   ("d_l_d_phi", fun j => (r.axis.loc j).dl), ("d2_l_d_phi2", fun j => (r.axis.loc j).d2l),
   ("curvature", fun j => (r.axis.loc j).curvature), ("torsion", fun j => (r.axis.loc j).torsion),
   ("Boozer_toroidal_angle", r.axis.boozer), ("sigma", r.st.sigma), ("X1s", r.r1.X1s), ("X1c", r.r1.X1c),
   ("Y1s", r.r1.Y1s), ("Y1c", r.r1.Y1c), ("elongation", r.r1.elongation), ("d_X1c_d_varphi", r.r1.dX1c),
   ("d_Y1s_d_varphi", r.r1.dY1s), ("d_Y1c_d_varphi", r.r1.dY1c), ("L_grad_B", R1.LgradB o r.cfg r.r1),
   ("L_grad_B_inverse", R1.LgradBInverse o r.cfg r.r1)]

/-- The scalars of second order (calculate_r2.cpp 24-27, 206-270, mercier.cpp 17-32, grad_B_tensor.cpp,
r_singularity.cpp). -/
def scalars2 (o : Ops K) (d : Second K) : List (String × K) :=
  let f := R2.pre d.inp
  [("G2", f.G2), ("beta_1s", f.beta1s), ("B20_mean", d.r2.mean), ("B20_residual", d.r2.residual),
   ("B20_grid_variation", d.r2.variation), ("d2_volume_d_psi2", d.merc.d2V), ("DGeod_times_r2", d.merc.DGeod),
   ("DWell_times_r2", d.merc.DWell), ("DMerc_times_r2", d.merc.DMerc),
   ("grid_min_L_grad_grad_B", GradGradB.minLgradGradB o d.inp d.r2), ("r_singularity_robust", d.sing.r),
   ("beta", d.sing.beta), ("grid_max_XY2", d.r2.maxXY2), ("grid_max_Z2", d.r2.maxZ2),
   ("grid_max_d_XY2_d_varphi", d.r2.maxDXY2), ("grid_max_d_Z2_d_varphi", d.r2.maxDZ2),
   ("grid_max_d2_XY2_d_varphi2", d.r2.maxD2XY2)]

/-- The vectors of second order (calculate_r2.cpp 28-71, 178-209, grad_B_tensor.cpp, r_singularity.cpp). -/
def profiles2 (o : Ops K) (d : Second K) : List (String × (Nat → K)) :=
  let D := fun f => matVec d.inp.cfg.nphi d.inp.cfg.dDvarphi f
  let f := R2.pre d.inp
  [("X20", d.r2.X20), ("X2s", f.X2s), ("X2c", f.X2c), ("Y20", d.r2.Y20), ("Y2s", d.r2.Y2s), ("Y2c", d.r2.Y2c),
   ("Z20", f.Z20), ("Z2s", f.Z2s), ("Z2c", f.Z2c), ("B20", d.r2.B20), ("B20_anomaly", d.r2.anomaly),
   ("d_X20_d_varphi", D d.r2.X20), ("d_X2s_d_varphi", f.dX2s), ("d_X2c_d_varphi", f.dX2c),
   ("d_Y20_d_varphi", D d.r2.Y20), ("d_Y2s_d_varphi", D d.r2.Y2s), ("d_Y2c_d_varphi", D d.r2.Y2c),
   ("d_Z20_d_varphi", f.dZ20), ("d_Z2s_d_varphi", f.dZ2s), ("d_Z2c_d_varphi", f.dZ2c),
   ("d2_X20_d_varphi2", D (D d.r2.X20)), ("d2_X2s_d_varphi2", D f.dX2s), ("d2_X2c_d_varphi2", D f.dX2c),
   ("d2_Y20_d_varphi2", D (D d.r2.Y20)), ("d2_Y2s_d_varphi2", D (D d.r2.Y2s)),
   ("d2_Y2c_d_varphi2", D (D d.r2.Y2c)), ("d2_Z20_d_varphi2", D f.dZ20), ("d2_Z2s_d_varphi2", D f.dZ2s),
   ("d2_Z2c_d_varphi2", D f.dZ2c),
   ("L_grad_grad_B", fun j => GradGradB.LgradGradB o (.of d.inp d.r2 j)),
   ("L_grad_grad_B_inverse", fun j => GradGradB.LgradGradBInverse o (.of d.inp d.r2 j)),
   ("r_hat_singularity_robust", d.sing.rhat)]

/-- The scalars of `calculate_r2p1` (calculate_r2.cpp 337-357). -/
def scalars3 (t : R2.R2p1 K) : List (String × K) :=
  [("grid_max_XY3", t.maxXY3), ("grid_max_d_XY3_d_varphi", t.maxDXY3),
   ("grid_max_d2_XY3_d_varphi2", t.maxD2XY3)]

/-- The vectors of `calculate_r2p1` (calculate_r2.cpp 314-335). -/
def profiles3 (i : R2.In K) (t : R2.R2p1 K) : List (String × (Nat → K)) :=
  let D := fun f => matVec i.cfg.nphi i.cfg.dDvarphi f
  [("lambda_for_XY3", t.lambda), ("X3c1", t.X3c1), ("Y3c1", t.Y3c1), ("Y3s1", t.Y3s1),
   ("d_X3c1_d_varphi", D t.X3c1), ("d_Y3c1_d_varphi", D t.Y3c1), ("d_Y3s1_d_varphi", D t.Y3s1),
   ("d2_X3c1_d_varphi2", D (D t.X3c1)), ("d2_Y3c1_d_varphi2", D (D t.Y3c1)),
   ("d2_Y3s1_d_varphi2", D (D t.Y3s1))]

/-- The elements of a `Vector` of length `n` in memory (vector_matrix.hpp 17). -/
def vector (n : Nat) (v : Nat → K) : List K := (List.range n).map v

/-- The elements of a `Matrix` in memory: `[m + nrows * n]` (vector_matrix.hpp 84-100). -/
def matrix (n : Nat) (m : Nat → Nat → K) : List K := (List.range (n * n)).map fun t => m (t % n) (t / n)

/-- The elements of a `Rank3Tensor` with sizes `n, 3, 3` in memory (vector_matrix.hpp 102-126). -/
def tensor3 (n : Nat) (m : Nat → Nat → Nat → K) : List K :=
  (List.range (n * 3 * 3)).map fun t => m (t % n) (t / n % 3) (t / n / 3)

/-- The elements of a `Rank4Tensor` with sizes `n, 3, 3, 3` in memory (vector_matrix.hpp 128-154). -/
def tensor4 (n : Nat) (m : Nat → Nat → Nat → Nat → K) : List K :=
  (List.range (n * 3 * 3 * 3)).map fun t => m (t % n) (t / n % 3) (t / n / 3 % 3) (t / n / 3 / 3)

/-- Members that are scalars (types in qsc.hpp 60-110). -/
def asScalars (l : List (String × K)) : List (String × Data K) := l.map fun a => (a.1, .flts [a.2])

/-- Members that are vectors (types in qsc.hpp 60-110). -/
def asVectors (n : Nat) (l : List (String × (Nat → K))) : List (String × Data K) :=
  l.map fun a => (a.1, .flts (vector n a.2))

/-- What the first-order calculation leaves in the members (init_axis.cpp, calculate_r1.cpp,
grad_B_tensor.cpp). -/
def results1 (o : Ops K) (n : Nat) (r : Result K) : List (String × Data K) :=
  [("helicity", .ints [r.axis.helicity])] ++ asScalars (scalars1 o r) ++ asVectors n (profiles1 o r) ++
  [("d_d_phi", .flts (matrix n r.axis.dDphi)), ("d_d_varphi", .flts (matrix n r.axis.dDvarphi)),
   ("grad_B_tensor", .flts (tensor3 n fun j => R1.gradB r.cfg r.r1 j))]

/-- What the second-order calculation leaves in the members (calculate_r2.cpp, mercier.cpp, grad_B_tensor.cpp,
r_singularity.cpp). -/
def results2 (o : Ops K) (n : Nat) (d : Second K) : List (String × Data K) :=
  asScalars (scalars2 o d) ++ asVectors n (profiles2 o d) ++
  [("grad_grad_B_tensor", .flts (tensor4 n fun j => GradGradB.main (.of d.inp d.r2 j)))]

/-- What `calculate_r2p1` leaves in the members (calculate_r2.cpp 314-357). -/
def results3 (n : Nat) (i : R2.In K) (t : R2.R2p1 K) : List (String × Data K) :=
  asScalars (scalars3 t) ++ asVectors n (profiles3 i t)

/-- All members set by `Qsc::calculate` that are written to the file (qsc.cpp 74-93). -/
def results (o : Ops K) (n : Nat) (r : Result K) : List (String × Data K) :=
  results1 o n r ++
  match r.second with
  | none => []
  | some d => results2 o n d ++
    match d.third with
    | none => []
    | some t => results3 n d.inp t

/-- Assignments to members, one after the other.  Helper of the model; no counterpart in the code. -/
def assign (m : Mem K) (l : List (String × Data K)) : Mem K := l.foldl (fun m a => set m a.1 a.2) m

/-! ## The run -/

/-- The flags set by `validate` (validate.cpp 9-27). -/
def flags (ord : Setup.Order) : Output.Flags := ⟨ord.atLeastR2, ord.r2p1, ord.r3⟩

/-- `Qsc::run` (qsc.cpp 95-101) for a parsed input file, in the order of the calls.  `m0` is what the members
hold before they are set.  The result is the name of the output file, the results and the file. -/
def run (L : Lib K) [DecidableEq K] (m0 : Mem K) (path : List Char) (file : Sections.File K) :
    Except Err (List Char × Result K × Netcdf.File K) :=
  match Outfile.outfile path with                                                     -- line 96
  | .error e => .error (.name e)
  | .ok name =>
    match Sections.inputQsc (fun i => (i : K)) 0 file (Pipeline.qscNew L.lit L.single) with      -- 97
    | .error e => .error (.input e)
    | .ok q =>
      match Setup.validate q.order_r_option with                                      -- 98 (68)
      | .error e => .error (.run e)
      | .ok ord =>
        match Output.allocate 0 ⟨flags ord, assign m0 (inputMembers q)⟩ with           -- 98 (69)
        | .error e => .error (.file e)
        | .ok obj =>
          match Output.intMember obj.mem "nphi" with
          | .error e => .error (.file e)
          | .ok n =>
            if q.nfp ≤ 0 then .error (.outside "nfp")
            else
              match calculate L q n.toNat ord with                                    -- 99
              | .error e => .error e
              | .ok r =>
                match Output.writeQsc L.toF ⟨obj.fl, assign obj.mem (results L.ops n.toNat r)⟩ with    -- 100
                | .error e => .error (.file e)
                | .ok f => .ok (name, r, f)

end Qsc.Single
