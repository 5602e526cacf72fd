import Verif.Model.Field
import Verif.Model.DiffMat
import Verif.Model.Helicity
import Verif.Model.OptState

/-!
# `init_axis.cpp`

The loop over modes (30-49) treats all grid points at once; here it is written for one grid point,
because the array operations are elementwise.  Printing and timing are left out, and so are `int`
overflows in products such as `n*nfp*n*nfp*n*nfp`.
-/

namespace Qsc.Axis

open Qsc.OptState (Err)

variable {K : Type}

/-- The axis shape in the input (qsc.hpp) (qsc.hpp line 61). -/
structure Coeffs (K : Type) where
  nfp : Nat
  R0c : List K
  R0s : List K
  Z0c : List K
  Z0s : List K

/-- The four amplitudes of one mode (loop body over `n`, init_axis.cpp lines 30-49). -/
structure Mode (K : Type) where
  n : Nat
  rc : K
  rs : K
  zc : K
  zs : K

/-- `R0c[n], R0s[n], Z0c[n], Z0s[n]`; outside an array is undefined. -/
def Coeffs.mode (c : Coeffs K) (n : Nat) : Except Err (Mode K) :=
  match c.R0c[n]?, c.R0s[n]?, c.Z0c[n]?, c.Z0s[n]? with
  | some rc, some rs, some zc, some zs => .ok ⟨n, rc, rs, zc, zs⟩
  | _, _, _, _ => .error (.undefined "axis array")

/-- The modes `n = 1 .. R0c.size() - 1` in the order of the loop (30). -/
def Coeffs.modes (c : Coeffs K) : Except Err (List (Mode K)) :=
  ((List.range c.R0c.length).drop 1).mapM c.mode

/-- `R0`, `Z0` and their derivatives at one grid point. -/
structure Pt (K : Type) where
  R0 : K
  Z0 : K
  R0p : K
  Z0p : K
  R0pp : K
  Z0pp : K
  R0ppp : K
  Z0ppp : K

section Num
variable [Field K]

/-- Lines 33-48 for one mode. -/
def addMode (o : Ops K) (nfp : Nat) (phi : K) (p : Pt K) (m : Mode K) : Pt K :=
  let k : K := (m.n : K) * (nfp : K)
  let sinangle := o.sin (k * phi)
  let cosangle := o.cos (k * phi)
  { R0 := p.R0 + (m.rc * cosangle + m.rs * sinangle)
    Z0 := p.Z0 + (m.zc * cosangle + m.zs * sinangle)
    R0p := p.R0p + (m.rc * (-k) * sinangle + m.rs * k * cosangle)
    Z0p := p.Z0p + (m.zc * (-k) * sinangle + m.zs * k * cosangle)
    R0pp := p.R0pp + (m.rc * (-k * k) * cosangle + m.rs * (-k * k) * sinangle)
    Z0pp := p.Z0pp + (m.zc * (-k * k) * cosangle + m.zs * (-k * k) * sinangle)
    R0ppp := p.R0ppp + (m.rc * (k * k * k) * sinangle + m.rs * (-k * k * k) * cosangle)
    Z0ppp := p.Z0ppp + (m.zc * (k * k * k) * sinangle + m.zs * (-k * k * k) * cosangle) }

/-- Lines 22-49 at one grid point. -/
def point (o : Ops K) (nfp : Nat) (R00 Z00 : K) (ms : List (Mode K)) (phi : K) : Pt K :=
  ms.foldl (addMode o nfp phi) ⟨R00, Z00, 0, 0, 0, 0, 0, 0⟩

/-- `d_phi` (16). -/
def dPhi (o : Ops K) (nfp nphi : Nat) : K := 2 * o.pi / ((nfp * nphi : Nat) : K)

/-- `phi` (17-18). -/
def phiGrid (d : K) : Nat → K
  | 0 => 0
  | j + 1 => phiGrid d j + d

/-- The local quantities of one grid point (50-51, 72-82, 100-102, 119-140). -/
structure Local (K : Type) where
  dl : K
  d2l : K
  tangent : V3 K
  dTangent : V3 K
  curvature : K
  normal : V3 K
  binormal : V3 K
  torsion : K

/-- The aliases of 60-70. -/
def Pt.d1 (p : Pt K) : V3 K := ⟨p.R0p, p.R0, p.Z0p⟩
/-- The macros `d2_r_d_phi2_cylindrical1..3` (init_axis.cpp lines 64-66). -/
def Pt.d2 (p : Pt K) : V3 K := ⟨p.R0pp - p.R0, 2 * p.R0p, p.Z0pp⟩
/-- The macros `d3_r_d_phi3_cylindrical1..3` (init_axis.cpp lines 68-70). -/
def Pt.d3 (p : Pt K) : V3 K := ⟨p.R0ppp - 3 * p.R0p, 3 * p.R0pp - p.R0, p.Z0ppp⟩

/-- The quantities of one grid point (init_axis.cpp lines 50-51, 72-83, 100-102, 119-140). -/
def localOf (o : Ops K) (p : Pt K) : Local K :=
  let dl := o.sqrt (p.R0 * p.R0 + p.R0p * p.R0p + p.Z0p * p.Z0p)
  let d2l := (p.R0 * p.R0p + p.R0p * p.R0pp + p.Z0p * p.Z0pp) / dl
  let t : V3 K := ⟨p.d1.x / dl, p.d1.y / dl, p.d1.z / dl⟩
  let dt : V3 K :=
    ⟨(-p.d1.x * d2l / dl + p.d2.x) / (dl * dl), (-p.d1.y * d2l / dl + p.d2.y) / (dl * dl),
      (-p.d1.z * d2l / dl + p.d2.z) / (dl * dl)⟩
  let curvature := o.sqrt (dt.x * dt.x + dt.y * dt.y + dt.z * dt.z)
  let n : V3 K := ⟨dt.x / curvature, dt.y / curvature, dt.z / curvature⟩
  let b : V3 K := ⟨t.y * n.z - t.z * n.y, t.z * n.x - t.x * n.z, t.x * n.y - t.y * n.x⟩
  let num := 0 + p.d1.x * (p.d2.y * p.d3.z - p.d2.z * p.d3.y)
    + p.d1.y * (p.d2.z * p.d3.x - p.d2.x * p.d3.z) + p.d1.z * (p.d2.x * p.d3.y - p.d2.y * p.d3.x)
  let t1 := p.d1.y * p.d2.z - p.d1.z * p.d2.y
  let t2 := p.d1.z * p.d2.x - p.d1.x * p.d2.z
  let t3 := p.d1.x * p.d2.y - p.d1.y * p.d2.x
  let den := t1 * t1 + t2 * t2 + t3 * t3
  ⟨dl, d2l, t, dt, curvature, n, b, num / den⟩

/-- Lines 150-156, before the scaling. -/
def angleSum (dl : Nat → K) : Nat → K
  | 0 => 0
  | j + 1 => angleSum dl j + (dl j + dl (j + 1))

/-- Everything `init_axis` stores (members of qsc.hpp lines 64-72, set in init_axis.cpp lines
9-160). -/
structure Axis (K : Type) where
  dPhi : K
  phi : Nat → K
  pt : Nat → Pt K
  loc : Nat → Local K
  B0overG0 : K
  G0overB0 : K
  dlDvarphi : K
  G0 : K
  minR0 : K
  axisLength : K
  maxCurvature : K
  rmsCurvature : K
  meanR : K
  meanZ : K
  sdR : K
  sdZ : K
  dDphi : Nat → Nat → K
  dDvarphi : Nat → Nat → K
  boozer : Nat → K
  helicity : Int

/-- Lines 50-157, from the sums over modes and the matrix `d_d_phi`; `h` is the helicity. -/
def axisData (o : Ops K) (nfp nphi : Nat) (sG : Int) (B0 R00 Z00 : K) (ms : List (Mode K))
    (dDphi : Nat → Nat → K) (h : Int) : Axis K :=
  let d := dPhi o nfp nphi
  let pt := fun j => point o nfp R00 Z00 ms (phiGrid d j)
  let loc := fun j => localOf o (pt j)
  let dl := fun j => (loc j).dl
  let B0overG0 := (nphi : K) / vsum nphi dl
  let G0overB0 := 1 / B0overG0
  let axisLength := vsum nphi dl * d * nfp
  let meanR := vsum nphi (fun j => (pt j).R0 * dl j) * d * nfp / axisLength
  let meanZ := vsum nphi (fun j => (pt j).Z0 * dl j) * d * nfp / axisLength
  { dPhi := d
    phi := phiGrid d
    pt := pt
    loc := loc
    B0overG0 := B0overG0
    G0overB0 := G0overB0
    dlDvarphi := G0overB0
    G0 := sG * G0overB0 * B0
    minR0 := vmin o nphi fun j => (pt j).R0
    axisLength := axisLength
    maxCurvature := vmax o nphi fun j => (loc j).curvature
    rmsCurvature := o.sqrt (vsum nphi (fun j => (loc j).curvature * (loc j).curvature * dl j)
      * d * nfp / axisLength)
    meanR := meanR
    meanZ := meanZ
    sdR := o.sqrt (vsum nphi (fun j =>
      ((pt j).R0 - meanR) * ((pt j).R0 - meanR) * dl j) * d * nfp / axisLength)
    sdZ := o.sqrt (vsum nphi (fun j =>
      ((pt j).Z0 - meanZ) * ((pt j).Z0 - meanZ) * dl j) * d * nfp / axisLength)
    dDphi := dDphi
    dDvarphi := fun j k => dDphi j k / (B0overG0 * dl j)
    boozer := fun j => angleSum dl j * (1 / 2 * d * 2 * o.pi / axisLength)
    helicity := h }

/-- `Qsc::init_axis` (9-183).  `sG` and `spsi` are `int` members (qsc.hpp 68). -/
def initAxis (o : Ops K) (c : Coeffs K) (nphi : Nat) (sG spsi : Int) (B0 : K) :
    Except Err (Axis K) :=
  match DiffMat.differentiationMatrix ⟨o.pi, o.sin, o.tan⟩ nphi 0 (2 * o.pi / (c.nfp : K)),
      c.R0c[0]?, c.Z0c[0]? with
  | some m, some R00, some Z00 =>
    c.modes.bind fun ms =>
    let a := axisData o c.nfp nphi sG B0 R00 Z00 ms (fun j k => (m.get j k).getD 0)
    match Helicity.calculateHelicity o.ge0 nphi (fun j => ((a 0).loc j).normal.x)
        (fun j => ((a 0).loc j).normal.z) spsi sG with
    | .throwNotMultipleOf4 => .error (.throw "Axis helicity counter was not a multiple of 4")
    | .ok h => .ok (a h)
  | _, _, _ => .error (.undefined "axis array")

end Num

end Qsc.Axis
