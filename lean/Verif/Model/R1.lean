import Verif.Model.Field
import Verif.Model.Newton
import Verif.Model.Axis

/-!
# `calculate_r1.cpp` and `Qsc::calculate_grad_B_tensor`

Quantities of the configuration that these functions read are collected in `Cfg`.  Printing and
timing are left out.
-/

namespace Qsc.R1

variable {K : Type}

/-- What is read: input values and results of `init_axis` (qsc.hpp lines 61-71; read in
calculate_r1.cpp). -/
structure Cfg (K : Type) where
  nphi : Nat
  nfp : Nat
  helicity : Int
  sG : Int
  spsi : Int
  etaBar : K
  sigma0 : K
  I2 : K
  B0 : K
  G0 : K
  dlDvarphi : K
  curvature : Nat → K
  torsion : Nat → K
  dl : Nat → K
  dDvarphi : Nat → Nat → K

/-- The configuration after `init_axis` (qsc.cpp, order of calls in `calculate`; members of qsc.hpp
lines 61-71). -/
def Cfg.ofAxis (a : Axis.Axis K) (nphi nfp : Nat) (sG spsi : Int) (etaBar sigma0 I2 B0 : K) : Cfg K :=
  { nphi := nphi
    nfp := nfp
    helicity := a.helicity
    sG := sG
    spsi := spsi
    etaBar := etaBar
    sigma0 := sigma0
    I2 := I2
    B0 := B0
    G0 := a.G0
    dlDvarphi := a.dlDvarphi
    curvature := fun j => (a.loc j).curvature
    torsion := fun j => (a.loc j).torsion
    dl := fun j => (a.loc j).dl
    dDvarphi := a.dDvarphi }

section
variable [Field K]

/-- `etabar_squared_over_curvature_squared` (calculate_r1.cpp 58). -/
def etaSq (p : Cfg K) (j : Nat) : K := (p.etaBar * p.etaBar) / (p.curvature j * p.curvature j)

/-- `iota` and `sigma`, which the residual stores in the configuration (calculate_r1.cpp lines
15-17). -/
structure Stored (K : Type) where
  iota : K
  sigma : Nat → K

/-- `sigma_eq_residual`, the assignments (15-17). -/
def store (p : Cfg K) (state : Nat → K) : Stored K :=
  ⟨state 0, fun j => if j = 0 then p.sigma0 else state j⟩

/-- `sigma_eq_residual`, the residual (20-24). -/
def residual (p : Cfg K) (state : Nat → K) (j : Nat) : K :=
  let q := store p state
  matVec p.nphi p.dDvarphi q.sigma j +
    ((q.iota + (p.helicity * p.nfp : Int)) *
      (etaSq p j * etaSq p j + 1 + q.sigma j * q.sigma j)
      - 2 * etaSq p j * (-(p.spsi : K) * p.torsion j + p.I2 / p.B0) * p.G0 / p.B0)

/-- `sigma_eq_jacobian` (29-52).  It reads `iota` and `sigma` of the last residual evaluation. -/
def jacobian (p : Cfg K) (q : Stored K) (j k : Nat) : K :=
  if k = 0 then etaSq p j * etaSq p j + 1 + q.sigma j * q.sigma j
  else if j = k then
    p.dDvarphi j k + (q.iota + (p.helicity * p.nfp : Int)) * 2 * q.sigma j
  else p.dDvarphi j k

/-- The problem handed to `newton_solve` (65-68).  `solve m b` is what `linear_solve` leaves in `b`.
The Jacobian is asked for at the state of the last residual evaluation (C27). -/
def env (o : Ops K) (p : Cfg K) (solve : Nat → (Nat → Nat → K) → (Nat → K) → Nat → K) (tol : K) :
    Newton.Env (Nat → K) (Nat → K) (Nat → K) K where
  res := residual p
  nrm := fun r => vsum p.nphi fun j => r j * r j
  lt := o.lt
  tolSq := tol * tol
  dir := fun i x r => solve i (jacobian p (store p x)) fun j => -r j
  move := fun x d k j => x j + (1 / 2 ^ k) * d j

/-- The initial state (62-63). -/
def start (p : Cfg K) (j : Nat) : K := if j = 0 then 0 else p.sigma0

/-- `solve_sigma_equation` (54-91): the stored `iota` and `sigma` are those of the last residual
evaluation (C51); there is always one. -/
def solveSigma (o : Ops K) (p : Cfg K) (solve : Nat → (Nat → Nat → K) → (Nat → K) → Nat → K) (tol : K)
    (maxNewton maxLinesearch : Int) : Newton.Status × Option (Stored K) :=
  let out := Newton.newton (env o p solve tol) maxNewton maxLinesearch (start p)
  (out.status, (Newton.lastEvaluated out.trace).map (store p))

/-- Results of `r1_diagnostics`. -/
structure R1 (K : Type) where
  iotaN : K
  X1s : Nat → K
  X1c : Nat → K
  Y1s : Nat → K
  Y1c : Nat → K
  elongation : Nat → K
  maxElongation : K
  meanElongation : K
  dX1c : Nat → K
  dY1s : Nat → K
  dY1c : Nat → K

/-- Lines 59-60 and `r1_diagnostics` (93-119). -/
def diagnostics (o : Ops K) (p : Cfg K) (q : Stored K) : R1 K :=
  let X1s := fun _ : Nat => (0 : K)
  let X1c := fun j => p.etaBar / p.curvature j
  let Y1s := fun j => ((p.sG * p.spsi : Int) : K) / p.etaBar * p.curvature j
  let Y1c := fun j => Y1s j * q.sigma j
  let pp := fun j => X1s j * X1s j + X1c j * X1c j + Y1s j * Y1s j + Y1c j * Y1c j
  let qq := fun j => X1s j * Y1c j - X1c j * Y1s j
  let elongation := fun j => (pp j + o.sqrt (pp j * pp j - 4 * qq j * qq j)) / (2 * o.abs (qq j))
  { iotaN := q.iota + (p.helicity * p.nfp : Int)
    X1s := X1s
    X1c := X1c
    Y1s := Y1s
    Y1c := Y1c
    elongation := elongation
    maxElongation := vmax o p.nphi elongation
    meanElongation := vsum p.nphi (fun j => elongation j * p.dl j) / vsum p.nphi p.dl
    dX1c := matVec p.nphi p.dDvarphi X1c
    dY1s := matVec p.nphi p.dDvarphi Y1s
    dY1c := matVec p.nphi p.dDvarphi Y1c }

/-- `grad_B_tensor` at a grid point, in the order normal, binormal, tangent (grad_B_tensor.cpp 10-43).
Entries that are not set keep the zero of `allocate` (allocate.cpp 80). -/
def gradB (p : Cfg K) (r : R1 K) (j : Nat) (i k : Nat) : K :=
  let factor := (p.spsi : K) * p.B0 / p.dlDvarphi
  match i, k with
  | 2, 0 => ((p.sG : K) * p.B0) * p.curvature j
  | 0, 2 => ((p.sG : K) * p.B0) * p.curvature j
  | 1, 1 => factor * (r.X1c j * r.dY1s j - r.iotaN * r.X1c j * r.Y1c j)
  | 0, 0 => factor * (r.dX1c j * r.Y1s j + r.iotaN * r.X1c j * r.Y1c j)
  | 1, 0 => factor * ((-(p.sG : K) * p.spsi * p.dlDvarphi) * p.torsion j
      - r.iotaN * r.X1c j * r.X1c j)
  | 0, 1 => factor * (r.dY1c j * r.Y1s j - r.dY1s j * r.Y1c j
      + ((p.sG : K) * p.spsi * p.dlDvarphi) * p.torsion j
      + r.iotaN * (r.Y1s j * r.Y1s j + r.Y1c j * r.Y1c j))
  | _, _ => 0

/-- `L_grad_B` (45-52). -/
def LgradB (o : Ops K) (p : Cfg K) (r : R1 K) (j : Nat) : K :=
  let t := gradB p r j
  p.B0 * o.sqrt (2 / (t 2 0 * t 2 0 + t 0 2 * t 0 2 + t 1 1 * t 1 1 + t 0 0 * t 0 0
    + t 1 0 * t 1 0 + t 0 1 * t 0 1))

/-- `L_grad_B_inverse` (53). -/
def LgradBInverse (o : Ops K) (p : Cfg K) (r : R1 K) (j : Nat) : K := 1 / LgradB o p r j

/-- `grid_min_L_grad_B` (54). -/
def minLgradB (o : Ops K) (p : Cfg K) (r : R1 K) : K := vmin o p.nphi (LgradB o p r)

end

end Qsc.R1
