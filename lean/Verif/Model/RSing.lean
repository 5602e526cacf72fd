import Verif.Model.R2
import Verif.Model.Quartic

/-!
# `r_singularity.cpp`

Exact arithmetic.  The three places where the floating point calculation leaves the numbers are
explicit: a zero `K4c` (line 237: `1.0 / K4c` is infinite, `K4c *= factor` and the first coefficient are
NaN, the test of line 258 gives up), a negative radicand (line 381: the root is NaN and no comparison
accepts it), and a zero `quadratic_A` (line 384: `rr` is NaN or infinite, the residual too, and it is not
below the tolerance).  Printing, timing and the angle of the minimum, which is stored nowhere, are left
out, and so is the code under `if (false)` (82-216).
-/

namespace Qsc.RSing

variable {K : Type}

/-- Coefficients of the Jacobian (r_singularity.cpp lines 45-90). -/
structure G (K : Type) where
  g0 : K
  g1c : K
  g20 : K
  g2s : K
  g2c : K

/-- Coefficients of the equation for the angle (r_singularity.cpp line 13). -/
structure Ks (K : Type) where
  K0 : K
  K2s : K
  K2c : K
  K4s : K
  K4c : K

/-- Tolerances (28-37). -/
structure Tol (K : Type) where
  sc : K
  res : K
  imag : K

section
variable [Field K]

/-- r_singularity.cpp 29-31. -/
def tolSingle : Tol K := ⟨1 / 10 ^ 6, 3 / 10 ^ 3, 3 / 10 ^ 4⟩

/-- r_singularity.cpp 34-36. -/
def tolDouble : Tol K := ⟨1 / 10 ^ 13, 1 / 10 ^ 5, 1 / 10 ^ 7⟩

/-- `1.0e+30` (255). -/
def huge : K := 10 ^ 30

/-- r_singularity.cpp 45-80. -/
def jac (i : R2.In K) (r : R2.R2 K) (j : Nat) : G K :=
  let lp := i.G0overB0
  let X1c := i.r1.X1c j
  let Y1s := i.r1.Y1s j
  let Y1c := i.r1.Y1c j
  let X20 := r.X20 j
  let X2s := (R2.pre i).X2s j
  let X2c := (R2.pre i).X2c j
  let Y20 := r.Y20 j
  let Y2s := r.Y2s j
  let Y2c := r.Y2c j
  let Z20 := (R2.pre i).Z20 j
  let Z2s := (R2.pre i).Z2s j
  let Z2c := (R2.pre i).Z2c j
  let dX1c := i.r1.dX1c j
  let dY1s := i.r1.dY1s j
  let dY1c := i.r1.dY1c j
  let dZ20 := (R2.pre i).dZ20 j
  let dZ2s := (R2.pre i).dZ2s j
  let dZ2c := (R2.pre i).dZ2c j
  let kap := i.cfg.curvature j
  let tor := i.cfg.torsion j
  { g0 := lp * X1c * Y1s
    g1c := lp * (-2 * X2s * Y1c + 2 * X20 * Y1s + 2 * X2c * Y1s + 2 * X1c * Y2s - X1c * X1c * Y1s * kap)
    g20 := -4 * lp * X2s * Y2c + 4 * lp * X2c * Y2s + lp * X1c * X2s * Y1c * kap
      - 2 * lp * X1c * X20 * Y1s * kap - lp * X1c * X2c * Y1s * kap
      - lp * X1c * X1c * Y2s * kap + 2 * lp * Y1c * Y1s * Z2c * tor
      - lp * X1c * X1c * Z2s * tor - lp * Y1c * Y1c * Z2s * tor + lp * Y1s * Y1s * Z2s * tor
      - Y1s * Z20 * dX1c - Y1s * Z2c * dX1c
      + Y1c * Z2s * dX1c - X1c * Z2s * dY1c
      - X1c * Z20 * dY1s + X1c * Z2c * dY1s
      + X1c * Y1s * dZ20
    g2c := -4 * lp * X2s * Y20 + 4 * lp * X20 * Y2s
      + lp * X1c * X2s * Y1c * kap - lp * X1c * X20 * Y1s * kap
      - 2 * lp * X1c * X2c * Y1s * kap - lp * X1c * X1c * Y2s * kap
      + 2 * lp * Y1c * Y1s * Z20 * tor - lp * X1c * X1c * Z2s * tor
      - lp * Y1c * Y1c * Z2s * tor - lp * Y1s * Y1s * Z2s * tor
      - Y1s * Z20 * dX1c - Y1s * Z2c * dX1c
      + Y1c * Z2s * dX1c - X1c * Z2s * dY1c
      + X1c * Z20 * dY1s - X1c * Z2c * dY1s
      + X1c * Y1s * dZ2c
    g2s := 4 * lp * X2c * Y20 - 4 * lp * X20 * Y2c
      + lp * X1c * X20 * Y1c * kap - lp * X1c * X2c * Y1c * kap
      - 2 * lp * X1c * X2s * Y1s * kap - lp * X1c * X1c * Y20 * kap
      + lp * X1c * X1c * Y2c * kap - lp * X1c * X1c * Z20 * tor
      - lp * Y1c * Y1c * Z20 * tor + lp * Y1s * Y1s * Z20 * tor
      + lp * X1c * X1c * Z2c * tor + lp * Y1c * Y1c * Z2c * tor
      + lp * Y1s * Y1s * Z2c * tor + Y1c * Z20 * dX1c
      - Y1c * Z2c * dX1c - Y1s * Z2s * dX1c
      - X1c * Z20 * dY1c + X1c * Z2c * dY1c
      - X1c * Z2s * dY1s + X1c * Y1s * dZ2s }

/-- r_singularity.cpp 226-234. -/
def unscaled (g : G K) : Ks K :=
  { K0 := 2 * g.g1c * g.g1c * g.g20 - 3 * g.g1c * g.g1c * g.g2c + 8 * g.g0 * g.g2c * g.g2c
      + 8 * g.g0 * g.g2s * g.g2s
    K2s := 2 * g.g1c * g.g1c * g.g2s
    K2c := -2 * g.g1c * g.g1c * g.g20 + 2 * g.g1c * g.g1c * g.g2c
    K4s := g.g1c * g.g1c * g.g2s - 16 * g.g0 * g.g2c * g.g2s
    K4c := g.g1c * g.g1c * g.g2c - 8 * g.g0 * g.g2c * g.g2c + 8 * g.g0 * g.g2s * g.g2s }

/-- r_singularity.cpp 237-242. -/
def scaled (g : G K) : Ks K :=
  let k := unscaled g
  let factor := 1 / k.K4c
  ⟨k.K0 * factor, k.K2s * factor, k.K2c * factor, k.K4s * factor, k.K4c * factor⟩

/-- r_singularity.cpp 244-252. -/
def coefficients (k : Ks K) : Nat → K
  | 0 => 4 * (k.K4c * k.K4c + k.K4s * k.K4s)
  | 1 => 4 * (k.K4s * k.K2c - k.K2s * k.K4c)
  | 2 => k.K2s * k.K2s + k.K2c * k.K2c - 4 * k.K0 * k.K4c - 4 * k.K4c * k.K4c - 4 * k.K4s * k.K4s
  | 3 => 2 * k.K0 * k.K2s + 2 * k.K4c * k.K2s - 4 * k.K4s * k.K2c
  | _ => (k.K0 + k.K4c) * (k.K0 + k.K4c) - k.K2c * k.K2c

/-- The residual of the `K` equation (319-324). -/
def residualK (o : Ops K) (k : Ks K) (s2 c2 : K) : K :=
  o.abs (k.K0 + k.K2s * s2 + k.K2c * c2 + k.K4s * 2 * s2 * c2 + k.K4c * (1 - 2 * s2 * s2))

/-- `cos2theta` (318-331). -/
def cos2 (o : Ops K) (k : Ks K) (s2 : K) : K :=
  let a := o.sqrt (1 - s2 * s2)
  if o.lt (residualK o k s2 (-a)) (residualK o k s2 a) then -1 * a else 1 * a

/-- `sintheta` and `costheta` (349-362). -/
def angle (o : Ops K) (s2 c2 varsigma : K) : K × K :=
  if o.lt 0 c2 then
    let c := varsigma * o.sqrt (1 / 2 * (1 + c2))
    (s2 / (2 * c), c)
  else
    let s := varsigma * o.sqrt (1 / 2 * (1 - c2))
    (s, s2 / (2 * s))

/-- The radius from the quadratic formula and the other residual (378-385); `none` when not a number. -/
def radius (o : Ops K) [DecidableEq K] (g : G K) (s2 c2 s c sign : K) : Option (K × K) :=
  let A := g.g20 + g.g2s * s2 + g.g2c * c2
  let B := c * g.g1c
  let C := g.g0
  let d := B * B - 4 * A * C
  if o.lt d 0 = true ∨ A = 0 then none
  else
    let rr := (-B + sign * o.sqrt d) / (2 * A)
    some (rr, -g.g1c * s + 2 * rr * (g.g2s * c2 - g.g2c * s2))

/-- r_singularity.cpp 383-396. -/
def tryRadius (o : Ops K) [DecidableEq K] (t : Tol K) (g : G K) (s2 c2 s c : K) (rc sign : K) : K :=
  match radius o g s2 c2 s c sign with
  | none => rc
  | some (rr, residual) =>
    if (o.lt 0 rr && o.lt (o.abs residual) t.res) && o.lt rr rc then rr else rc

/-- r_singularity.cpp 355-397. -/
def tryAngle (o : Ops K) [DecidableEq K] (t : Tol K) (g : G K) (s2 c2 : K) (rc varsigma : K) : Except String K :=
  let (s, c) := angle o s2 c2 varsigma
  if o.lt t.sc (o.abs (c * c + s * s - 1)) then .error "sin^2 + cos^2 is far from 1."
  else .ok ([-1, 1].foldl (tryRadius o t g s2 c2 s c) rc)

/-- r_singularity.cpp 299-398: one root. -/
def tryRoot (o : Ops K) [DecidableEq K] (t : Tol K) (g : G K) (k : Ks K) (roots : (Nat → K) × (Nat → K)) (rc : K)
    (jr : Nat) : Except String K :=
  if o.lt t.imag (o.abs (roots.2 jr)) then .ok rc
  else if o.lt 1 (o.abs (roots.1 jr)) then .ok rc
  else
    let s2 := roots.1 jr
    [-1, 1].foldlM (tryAngle o t g s2 (cos2 o k s2)) rc

/-- One grid point (226-399). -/
def gridPoint (o : Ops K) [DecidableEq K] (t : Tol K) (geev : Quartic.Geev K) (g : G K) : Except String K :=
  if (unscaled g).K4c = 0 then .ok huge
  else
    let k := scaled g
    match Quartic.roots geev (coefficients k) with
    | .error e => .error e
    | .ok r => [0, 1, 2, 3].foldlM (tryRoot o t g k r) huge

/-- One pass of the loop over the grid (40, 399), `s` being what the earlier passes stored. -/
def profileStep (o : Ops K) [DecidableEq K] (t : Tol K) (geev : Quartic.Geev K) (g : Nat → G K) (j : Nat)
    (s : Except String (Nat → K)) : Except String (Nat → K) :=
  match s with
  | .error e => .error e
  | .ok f =>
    match gridPoint o t geev (g j) with
    | .error e => .error e
    | .ok rc => .ok fun a => if a = j then rc else f a

/-- The loop over the grid (39-400): the stored values, or the first exception. -/
def profile (o : Ops K) [DecidableEq K] (t : Tol K) (geev : Quartic.Geev K) (n : Nat) (g : Nat → G K) :
    Except String (Nat → K) :=
  forLoop n (profileStep o t geev g) (.ok fun _ => 0)

/-- Results (qsc.hpp lines 94-95). -/
structure Out (K : Type) where
  rhat : Nat → K
  r : K
  beta : K

/-- `calculate_r_singularity` (10-412). -/
def calculate (o : Ops K) [DecidableEq K] (t : Tol K) (geev : Quartic.Geev K) (i : R2.In K) (r : R2.R2 K) :
    Except String (Out K) :=
  match profile o t geev i.cfg.nphi (jac i r) with
  | .error e => .error e
  | .ok f =>
    let m := vmin o i.cfg.nphi f
    let beta := -i.mu0 * i.p2 * m * m / (i.cfg.B0 * i.cfg.B0)
    .ok { rhat := f, r := m, beta := if o.lt huge beta then huge else beta }

end

end Qsc.RSing
