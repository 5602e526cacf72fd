import Verif.Model.OptState
import Mathlib.Data.Rat.Defs
import Mathlib.Algebra.Field.Rat

/-!
# `validate.cpp`, `allocate.cpp`, `qsc.cpp`, `driver.cpp`, `configurations.cpp`: setting up

Numbers in `configurations.cpp` are exact rationals here.  Timing and printing are left out.
-/

namespace Qsc.Setup

open Qsc.OptState (Err Config)

/-! ## `validate.cpp` 9-27 -/

/-- `at_least_order_r2`, `order_r2p1`, `order_r3` (qsc.hpp 79). -/
structure Order where
  atLeastR2 : Bool
  r2p1 : Bool
  r3 : Bool
  deriving DecidableEq, Repr

/-- `Qsc::validate` (validate.cpp lines 9-27). -/
def validate (option : String) : Except Err Order :=
  if option = "r1" then .ok ⟨false, false, false⟩
  else if option = "r2" then .ok ⟨true, false, false⟩
  else if option = "r2.1" then .ok ⟨true, true, true⟩
  else .error (.throw "Invalid setting for order_r_option")

/-! ## `allocate.cpp` -/

/-- `if (nphi % 2 == 0) nphi++` (allocate.cpp 13). -/
def oddNphi (n : Nat) : Nat := if n % 2 = 0 then n + 1 else n

/-- The arguments of `resize` that occur: `(n)`, `(n + 1)`, `(2n)`, `(n, n)`, `(2n, 2n)`,
`(n, 3, 3)`, `(n, 3, 3, 3)`. -/
inductive Dims
  | vec
  | vec1
  | vec2
  | mat
  | mat2
  | n33
  | n333
  deriving DecidableEq, Repr

/-- The sizes passed to `resize` (allocate.cpp lines 15-218). -/
def Dims.eval (n : Nat) : Dims → List Nat
  | vec => [n]
  | vec1 => [n + 1]
  | vec2 => [2 * n]
  | mat => [n, n]
  | mat2 => [2 * n, 2 * n]
  | n33 => [n, 3, 3]
  | n333 => [n, 3, 3, 3]

/-- The arrays that are always resized (15-82), with their dimensions. -/
def baseArrays : List (String × Dims) :=
  [("phi", .vec), ("R0", .vec), ("Z0", .vec), ("R0p", .vec), ("Z0p", .vec), ("R0pp", .vec),
   ("Z0pp", .vec), ("R0ppp", .vec), ("Z0ppp", .vec), ("curvature", .vec), ("torsion", .vec),
   ("sinangle", .vec), ("cosangle", .vec), ("d_l_d_phi", .vec), ("d2_l_d_phi2", .vec),
   ("tangent_cylindrical1", .vec), ("tangent_cylindrical2", .vec),
   ("tangent_cylindrical3", .vec), ("normal_cylindrical1", .vec), ("normal_cylindrical2", .vec),
   ("normal_cylindrical3", .vec), ("binormal_cylindrical1", .vec),
   ("binormal_cylindrical2", .vec), ("binormal_cylindrical3", .vec),
   ("d_tangent_d_l_cylindrical1", .vec), ("d_tangent_d_l_cylindrical2", .vec),
   ("d_tangent_d_l_cylindrical3", .vec), ("tempvec", .vec), ("tempvec1", .vec),
   ("tempvec2", .vec), ("tempvec3", .vec), ("torsion_numerator", .vec),
   ("torsion_denominator", .vec), ("Boozer_toroidal_angle", .vec),
   ("etabar_squared_over_curvature_squared", .vec), ("d_d_phi", .mat), ("d_d_varphi", .mat),
   ("work_matrix", .mat), ("X1s", .vec), ("X1c", .vec), ("Y1s", .vec), ("Y1c", .vec),
   ("sigma", .vec), ("elongation", .vec), ("quadrant", .vec1), ("state", .vec),
   ("residual", .vec), ("work1", .vec), ("work2", .vec), ("ipiv", .vec),
   ("d_X1c_d_varphi", .vec), ("d_Y1s_d_varphi", .vec), ("d_Y1c_d_varphi", .vec),
   ("grad_B_tensor", .n33), ("L_grad_B", .vec), ("L_grad_B_inverse", .vec)]

/-- The arrays of order r^2 (84-178). -/
def r2Arrays : List (String × Dims) :=
  [("B20", .vec), ("B20_anomaly", .vec), ("X20", .vec), ("X2s", .vec), ("X2c", .vec),
   ("Y20", .vec), ("Y2s", .vec), ("Y2c", .vec), ("Z20", .vec), ("Z2s", .vec), ("Z2c", .vec),
   ("V1", .vec), ("V2", .vec), ("V3", .vec), ("rs", .vec), ("rc", .vec), ("qs", .vec),
   ("qc", .vec), ("r2_matrix", .mat2), ("r2_rhs", .vec2), ("r2_ipiv", .vec2),
   ("Y2s_from_X20", .vec), ("Y2s_inhomogeneous", .vec), ("Y2c_from_X20", .vec),
   ("Y2c_inhomogeneous", .vec), ("fX0_from_X20", .vec), ("fX0_from_Y20", .vec),
   ("fX0_inhomogeneous", .vec), ("fXs_from_X20", .vec), ("fXs_from_Y20", .vec),
   ("fXs_inhomogeneous", .vec), ("fXc_from_X20", .vec), ("fXc_from_Y20", .vec),
   ("fXc_inhomogeneous", .vec), ("fY0_from_X20", .vec), ("fY0_from_Y20", .vec),
   ("fY0_inhomogeneous", .vec), ("fYs_from_X20", .vec), ("fYs_from_Y20", .vec),
   ("fYs_inhomogeneous", .vec), ("fYc_from_X20", .vec), ("fYc_from_Y20", .vec),
   ("fYc_inhomogeneous", .vec), ("d_curvature_d_varphi", .vec), ("d_torsion_d_varphi", .vec),
   ("d_X20_d_varphi", .vec), ("d_X2s_d_varphi", .vec), ("d_X2c_d_varphi", .vec),
   ("d_Y20_d_varphi", .vec), ("d_Y2s_d_varphi", .vec), ("d_Y2c_d_varphi", .vec),
   ("d_Z20_d_varphi", .vec), ("d_Z2s_d_varphi", .vec), ("d_Z2c_d_varphi", .vec),
   ("d2_X1c_d_varphi2", .vec), ("d2_Y1c_d_varphi2", .vec), ("d2_Y1s_d_varphi2", .vec),
   ("d2_X20_d_varphi2", .vec), ("d2_X2s_d_varphi2", .vec), ("d2_X2c_d_varphi2", .vec),
   ("d2_Y20_d_varphi2", .vec), ("d2_Y2s_d_varphi2", .vec), ("d2_Y2c_d_varphi2", .vec),
   ("d2_Z20_d_varphi2", .vec), ("d2_Z2s_d_varphi2", .vec), ("d2_Z2c_d_varphi2", .vec),
   ("grad_grad_B_tensor", .n333), ("L_grad_grad_B", .vec), ("L_grad_grad_B_inverse", .vec),
   ("r_hat_singularity_robust", .vec)]

/-- Lines 180-182. -/
def r2p1Arrays : List (String × Dims) :=
  [("lambda_for_XY3", .vec)]

/-- The arrays of order r^3 (184-219). -/
def r3Arrays : List (String × Dims) :=
  [("X3c1", .vec), ("X3c3", .vec), ("X3s1", .vec), ("X3s3", .vec), ("Y3c1", .vec),
   ("Y3c3", .vec), ("Y3s1", .vec), ("Y3s3", .vec), ("Z3c1", .vec), ("Z3c3", .vec),
   ("Z3s1", .vec), ("Z3s3", .vec), ("d_X3c1_d_varphi", .vec), ("d_X3c3_d_varphi", .vec),
   ("d_X3s1_d_varphi", .vec), ("d_X3s3_d_varphi", .vec), ("d_Y3c1_d_varphi", .vec),
   ("d_Y3c3_d_varphi", .vec), ("d_Y3s1_d_varphi", .vec), ("d_Y3s3_d_varphi", .vec),
   ("d2_X3c1_d_varphi2", .vec), ("d2_X3c3_d_varphi2", .vec), ("d2_X3s1_d_varphi2", .vec),
   ("d2_X3s3_d_varphi2", .vec), ("d2_Y3c1_d_varphi2", .vec), ("d2_Y3c3_d_varphi2", .vec),
   ("d2_Y3s1_d_varphi2", .vec), ("d2_Y3s3_d_varphi2", .vec)]

/-- The grid and the dimensions of the arrays of a `Qsc` object; the order flags are `none` until
`validate` has run, because no constructor sets them (qsc.hpp 79, qsc.cpp 7-60). -/
structure Obj where
  order : Option Order
  nphi : Nat
  dims : String → Option (List Nat)

/-- `x.resize(...)` for a list of arrays (allocate.cpp lines 15-218). -/
def resize (n : Nat) (l : List (String × Dims)) (dims : String → Option (List Nat)) (x : String) :
    Option (List Nat) :=
  match l.find? fun a => a.1 = x with
  | some a => some (a.2.eval n)
  | none => dims x

/-- The arrays resized for given order flags (allocate.cpp lines 15-218). -/
def arrays (o : Order) : List (String × Dims) :=
  baseArrays ++ (if o.atLeastR2 then r2Arrays else []) ++
    (if o.r2p1 then r2p1Arrays else []) ++ (if o.r3 then r3Arrays else [])

/-- `Qsc::allocate` (allocate.cpp 9-227).  Reading a flag that was never set is undefined. -/
def allocate (q : Obj) : Except Err Obj :=
  match q.order with
  | none => .error (.undefined "order flags")
  | some o =>
    let n := oddNphi q.nphi
    .ok { q with
      nphi := n
      dims := resize n (arrays o) q.dims }

/-- `Qsc::init` (qsc.cpp 67-70). -/
def init (option : String) (q : Obj) : Except Err Obj :=
  (validate option).bind fun o => allocate { q with order := some o }

/-! ## How the calculations start

`fresh` is the object built by `Qsc::Qsc()` before any array is allocated. -/

/-- A new object (qsc.cpp 7-60); `input` sets the resolution. -/
def fresh (nphi : Nat) : Obj := ⟨none, nphi, fun _ => none⟩

/-- `Qsc::run` up to `calculate` (qsc.cpp 95-98). -/
def startSingle (option : String) (nphi : Nat) : Except Err Obj := init option (fresh nphi)

/-- `Scan::random` up to the loop (scan_random.cpp 81-82). -/
def startScan (option : String) (nphi : Nat) : Except Err Obj :=
  (validate option).bind fun o => allocate { fresh nphi with order := some o }

/-- `Opt::run` up to the first `calculate` (opt.cpp 60-65, opt_allocate.cpp 8, optimize.cpp 124):
`allocate` comes before `init`. -/
def startOpt (option : String) (nphi : Nat) : Except Err Obj :=
  (allocate (fresh nphi)).bind (init option)

/-! ## `driver.cpp` -/

/-- The calculations (driver.cpp lines 55-85). -/
inductive Job
  | single
  | random
  | opt
  | multiopt
  | multioptScan
  deriving DecidableEq, Repr

/-- What the driver does (driver.cpp 19-95): print the usage and return 1, or run one calculation
between optional `MPI_Init` and `MPI_Finalize` and return 0, or throw. -/
inductive Action
  | usage
  | run (j : Job) (mpi : Bool)
  | throw
  deriving DecidableEq, Repr

/-- `qsc::driver` (driver.cpp 19-95).  `option` is `general_option` of the input file, if present. -/
def driver (argc : Nat) (option : Option String) : Action :=
  if argc ≠ 2 then .usage
  else
    let g := option.getD "single"
    if g = "single" then .run .single false
    else if g = "random" then .run .random true
    else if g = "opt" then .run .opt false
    else if g = "multiopt" then .run .multiopt false
    else if g = "multiopt_scan" then .run .multioptScan true
    else .throw

/-! ## `configurations.cpp` -/

/-- The inputs of a configuration (qsc.hpp lines 61-63, 78). -/
structure Input where
  nfp : Nat
  I2 : ℚ
  p2 : ℚ
  order : String
  q : Config ℚ
  deriving DecidableEq

/-- `arr.resize(n, 0.0)` and then `arr[i] = v` for each pair; outside the array is undefined. -/
def fill (n : Nat) (vs : List (Nat × ℚ)) : Except Err (List ℚ) :=
  vs.foldl (fun r v => r.bind fun a =>
    if v.1 < a.length then .ok (a.set v.1 v.2) else .error (.undefined "axis array"))
    (.ok (List.replicate n 0))

/-- One branch: the sizes are those of the four `resize` calls (configurations.cpp lines 13-25 and
the other branches). -/
def branch (nfp : Nat) (etaBar sigma0 B2c B2s I2 p2 : ℚ) (order : String) (sizes : Nat × Nat × Nat × Nat)
    (R0c R0s Z0c Z0s : List (Nat × ℚ)) : Except Err Input :=
  (fill sizes.1 R0c).bind fun a =>
  (fill sizes.2.1 R0s).bind fun b =>
  (fill sizes.2.2.1 Z0c).bind fun c =>
  (fill sizes.2.2.2 Z0s).bind fun d =>
  .ok ⟨nfp, I2, p2, order, ⟨etaBar, sigma0, B2c, B2s, a, b, c, d⟩⟩

/-- `Qsc::Qsc(std::string)` (configurations.cpp 10-155) before `init` and `calculate`. -/
def named (name : String) : Except Err Input :=
  if name = "r1 section 5.1" then
    branch 3 (-(9 / 10)) 0 0 0 0 0 "r1"
      (2, 2, 2, 2)
      [(0, 1), (1, 9 / 200)]
      [] []
      [(1, -(9 / 200))]
  else if name = "r1 section 5.2" then
    branch 4 (-(9 / 4)) 0 0 0 0 0 "r1"
      (2, 2, 2, 2)
      [(0, 1), (1, 53 / 200)]
      [] []
      [(1, -(21 / 100))]
  else if name = "r1 section 5.3" then
    branch 3 (-(11 / 10)) (-(3 / 5)) 0 0 0 0 "r1"
      (2, 2, 2, 2)
      [(0, 1), (1, 21 / 500)]
      [] [(1, -(1 / 40))]
      [(1, -(21 / 500))]
  else if name = "r2 section 5.1" ∨ name = "1" then
    branch 2 (16 / 25) 0 (-(161 / 50000)) 0 0 0 "r2.1"
      (3, 3, 3, 3)
      [(0, 1), (1, 31 / 200), (2, 51 / 5000)]
      [] []
      [(1, 77 / 500), (2, 111 / 10000)]
  else if name = "r2 section 5.2" ∨ name = "2" then
    branch 2 (79 / 125) 0 (-(79 / 500)) 0 0 0 "r2.1"
      (4, 4, 4, 4)
      [(0, 1), (1, 173 / 1000), (2, 21 / 1250), (3, 101 / 100000)]
      [] []
      [(1, 159 / 1000), (2, 33 / 2000), (3, 197 / 200000)]
  else if name = "r2 section 5.3" ∨ name = "3" then
    branch 2 (19 / 20) 0 (-(7 / 10)) 0 (9 / 10) (-(600000)) "r2.1"
      (2, 2, 2, 2)
      [(0, 1), (1, 9 / 100)]
      [] []
      [(1, -(9 / 100))]
  else if name = "r2 section 5.4" ∨ name = "4" then
    branch 4 (1569 / 1000) 0 (337 / 2500) 0 0 0 "r2.1"
      (5, 5, 5, 5)
      [(0, 1), (1, 17 / 100), (2, 451 / 25000), (3, 1409 / 1000000), (4, 5877 / 100000000)]
      [] []
      [(1, 1581 / 10000), (2, 91 / 5000), (3, 387 / 250000), (4, 1943 / 25000000)]
  else if name = "r2 section 5.5" ∨ name = "5" then
    branch 5 (5 / 2) (3 / 10) 1 3 (8 / 5) (-(5000000)) "r2.1"
      (2, 2, 2, 2)
      [(0, 1), (1, 3 / 10)]
      [] []
      [(1, 3 / 10)]
  else .error (.throw "Configuration name not recognized")

end Qsc.Setup
