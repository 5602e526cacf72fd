import Verif.Model.R1

/-!
# `calculate_r2.cpp` and `mercier.cpp`

Profiles are functions of the grid index.  The 2 nphi x 2 nphi matrix is built by the loops of the code
on top of whatever it contained before (the factorization of the previous solve).  Printing and timing
are left out.
-/

namespace Qsc.R2

variable {K : Type}

/-- What is read: the first-order solution and the second-order input (qsc.hpp lines 62-77; read in
calculate_r2.cpp lines 24-60). -/
structure In (K : Type) where
  cfg : R1.Cfg K
  st : R1.Stored K
  r1 : R1.R1 K
  B0overG0 : K
  G0overB0 : K
  mu0 : K
  p2 : K
  B2s : K
  B2c : K

/-- After `init_axis` and the first-order solution (order of calls in `Qsc::calculate`; read in
calculate_r2.cpp lines 24-60). -/
def In.of (a : Axis.Axis K) (p : R1.Cfg K) (q : R1.Stored K) (r : R1.R1 K) (mu0 p2 B2s B2c : K) : In K :=
  { cfg := p, st := q, r1 := r, B0overG0 := a.B0overG0, G0overB0 := a.G0overB0, mu0 := mu0, p2 := p2
    B2s := B2s, B2c := B2c }

/-- Quantities computed first (calculate_r2.cpp 24-71). -/
structure Pre (K : Type) where
  G2 : K
  beta1s : K
  V1 : Nat → K
  V2 : Nat → K
  V3 : Nat → K
  Z20 : Nat → K
  Z2s : Nat → K
  Z2c : Nat → K
  dZ20 : Nat → K
  dZ2s : Nat → K
  dZ2c : Nat → K
  qs : Nat → K
  qc : Nat → K
  rs : Nat → K
  rc : Nat → K
  X2s : Nat → K
  X2c : Nat → K
  dX2s : Nat → K
  dX2c : Nat → K

/-- `Y2s` and `Y2c` as functions of `X20` (73-77). -/
structure Lin (K : Type) where
  Y2sX20 : Nat → K
  Y2sInh : Nat → K
  Y2cX20 : Nat → K
  Y2cInh : Nat → K

/-- The `fX`, `fY` quantities (84-128): coefficients of `X20` and `Y20`, and the rest. -/
structure Fs (K : Type) where
  fX0X20 : Nat → K
  fX0Y20 : Nat → K
  fX0Inh : Nat → K
  fXsX20 : Nat → K
  fXsY20 : Nat → K
  fXsInh : Nat → K
  fXcX20 : Nat → K
  fXcY20 : Nat → K
  fXcInh : Nat → K
  fY0X20 : Nat → K
  fY0Y20 : Nat → K
  fY0Inh : Nat → K
  fYsX20 : Nat → K
  fYsY20 : Nat → K
  fYsInh : Nat → K
  fYcX20 : Nat → K
  fYcY20 : Nat → K
  fYcInh : Nat → K

section
variable [Field K]

/-- calculate_r2.cpp 21-71. -/
def pre (i : In K) : Pre K :=
  let p := i.cfg
  let D := fun f => matVec p.nphi p.dDvarphi f
  let half : K := 1 / 2
  let sG : K := p.sG
  let spsi : K := p.spsi
  let iotaN := i.r1.iotaN
  let l := i.G0overB0
  let b := i.B0overG0
  let X1c := i.r1.X1c
  let Y1s := i.r1.Y1s
  let Y1c := i.r1.Y1c
  let kap := p.curvature
  let tor := p.torsion
  let eta := p.etaBar
  let G2 := -i.mu0 * i.p2 * p.G0 / (p.B0 * p.B0) - i.st.iota * p.I2
  let V1 := fun j => X1c j * X1c j + Y1c j * Y1c j + Y1s j * Y1s j
  let V2 := fun j => 2 * Y1s j * Y1c j
  let V3 := fun j => X1c j * X1c j + Y1c j * Y1c j - Y1s j * Y1s j
  let factor := -b / 8
  let Z20 := fun j => D V1 j * factor
  let Z2s := fun j => factor * (D V2 j - 2 * iotaN * V3 j)
  let Z2c := fun j => factor * (D V3 j + 2 * iotaN * V2 j)
  let qs := fun j => -iotaN * X1c j - l * Y1s j * tor j
  let qc := fun j => D X1c j - l * Y1c j * tor j
  let rs := fun j => D Y1s j - iotaN * Y1c j
  let rc := fun j => D Y1c j + (iotaN * Y1s j + X1c j * tor j * l)
  let X2s := fun j => b * (D Z2s j - (2 * iotaN) * Z2c j
    + b * (l * l * i.B2s / p.B0 + (qc j * qs j + rc j * rs j) * half)) / kap j
  let X2c := fun j => b * (D Z2c j + (2 * iotaN) * Z2s j
    - b * (-l * l * i.B2c / p.B0 + l * l * eta * eta / 2
      - (qc j * qc j - qs j * qs j + rc j * rc j - rs j * rs j) * (1 / 4))) / kap j
  let dX2s := D X2s
  let dX2c := D X2c
  let beta := -4 * spsi * sG * i.mu0 * i.p2 * eta * l / (iotaN * p.B0 * p.B0)
  { G2 := G2, beta1s := beta, V1 := V1, V2 := V2, V3 := V3, Z20 := Z20, Z2s := Z2s, Z2c := Z2c
    dZ20 := D Z20, dZ2s := D Z2s, dZ2c := D Z2c, qs := qs, qc := qc, rs := rs, rc := rc
    X2s := X2s, X2c := X2c, dX2s := dX2s, dX2c := dX2c }

/-- calculate_r2.cpp 73-77. -/
def lin (i : In K) (a : Pre K) : Lin K :=
  let sG : K := i.cfg.sG
  let spsi : K := i.cfg.spsi
  let kap := i.cfg.curvature
  let eta := i.cfg.etaBar
  let sigma := i.st.sigma
  let X2s := a.X2s
  let X2c := a.X2c
  { Y2sX20 := fun j => -sG * spsi * kap j * kap j / (eta * eta)
    Y2sInh := fun j => sG * spsi * (-kap j / 2 + kap j * kap j / (eta * eta)
    * (-X2c j + X2s j * sigma j))
    Y2cX20 := fun j => -sG * spsi * kap j * kap j * sigma j / (eta * eta)
    Y2cInh := fun j => sG * spsi * kap j * kap j / (eta * eta) * (X2s j + X2c j * sigma j) }

/-- calculate_r2.cpp 84-128. -/
def fs (i : In K) (a : Pre K) (y : Lin K) : Fs K :=
  let p := i.cfg
  let D := fun f => matVec p.nphi p.dDvarphi f
  let half : K := 1 / 2
  let sG : K := p.sG
  let spsi : K := p.spsi
  let iotaN := i.r1.iotaN
  let l := i.G0overB0
  let I2B := p.I2 / p.B0
  let X1c := i.r1.X1c
  let Y1s := i.r1.Y1s
  let Y1c := i.r1.Y1c
  let kap := p.curvature
  let tor := p.torsion
  let beta := a.beta1s
  let Z20 := a.Z20
  let Z2s := a.Z2s
  let Z2c := a.Z2c
  let X2s := a.X2s
  let X2c := a.X2c
  let dX2s := a.dX2s
  let dX2c := a.dX2c
  let Y2sX := y.Y2sX20
  let Y2sI := y.Y2sInh
  let Y2cX := y.Y2cX20
  let Y2cI := y.Y2cInh
  { fX0X20 := fun j => -4 * sG * spsi * l * (Y2cX j * Z2s j - Y2sX j * Z2c j)
    fX0Y20 := fun j => -tor j * l - 4 * sG * spsi * l * (Z2s j) - spsi * I2B * (-2) * l
    fX0Inh := fun j => kap j * l * Z20 j - 4 * sG * spsi * l * (Y2cI j * Z2s j - Y2sI j * Z2c j)
      - (spsi * I2B * half * sG * spsi * l) * kap j + beta * l / 2 * Y1c j
    fXsX20 := fun j => -tor j * l * Y2sX j - 4 * spsi * sG * l * (Y2cX j * Z20 j)
      - spsi * I2B * (-2 * Y2sX j) * l
    fXsY20 := fun j => -4 * spsi * sG * l * (-Z2c j + Z20 j)
    fXsInh := fun j => dX2s j - 2 * iotaN * X2c j - tor j * l * Y2sI j + kap j * l * Z2s j
      - 4 * spsi * sG * l * (Y2cI j * Z20 j)
      - spsi * I2B * ((half * spsi * sG) * kap j - 2 * Y2sI j) * l - half * l * beta * Y1s j
    fXcX20 := fun j => -tor j * l * Y2cX j - 4 * spsi * sG * l * (-Y2sX j * Z20 j)
      - spsi * I2B * (-2 * Y2cX j) * l
    fXcY20 := fun j => -tor j * l - 4 * spsi * sG * l * (Z2s j) - spsi * I2B * (-2) * l
    fXcInh := fun j => dX2c j + 2 * iotaN * X2s j - tor j * l * Y2cI j + kap j * l * Z2c j
      - 4 * spsi * sG * l * (-Y2sI j * Z20 j)
      - spsi * I2B * ((half * sG * spsi) * kap j - 2 * Y2cI j) * l - half * l * beta * Y1c j
    fY0X20 := fun j => tor j * l - spsi * I2B * 2 * l
    fY0Y20 := fun _ => 0
    fY0Inh := fun j => -4 * spsi * sG * l * (X2s j * Z2c j - X2c j * Z2s j)
      - spsi * I2B * (-half * kap j * X1c j * X1c j) * l - half * l * beta * X1c j
    fYsX20 := fun j => -2 * iotaN * Y2cX j - 4 * spsi * sG * l * (Z2c j)
    fYsY20 := fun _ => -2 * iotaN
    fYsInh := fun j => D Y2sI j - 2 * iotaN * Y2cI j + tor j * l * X2s j
      - 4 * spsi * sG * l * (-X2c j * Z20 j) - 2 * spsi * I2B * X2s j * l
    fYcX20 := fun j => 2 * iotaN * Y2sX j - 4 * spsi * sG * l * (-Z2s j)
    fYcY20 := fun _ => 0
    fYcInh := fun j => D Y2cI j + 2 * iotaN * Y2sI j + tor j * l * X2c j
      - 4 * spsi * sG * l * (X2s j * Z20 j)
      - spsi * I2B * (-half * kap j * X1c j * X1c j + 2 * X2c j) * l + half * l * beta * X1c j }

/-- Both, for the quantities computed from the input (calculate_r2.cpp lines 24-74). -/
def linOf (i : In K) : Lin K := lin i (pre i)
/-- The inhomogeneous terms and coefficients for the quantities computed from the input
(calculate_r2.cpp lines 24-120). -/
def fsOf (i : In K) : Fs K := fs i (pre i) (linOf i)

/-- `m(a, b) = v` (calculate_r2.cpp lines 129-164, `r2_matrix(j, k) = ...`). -/
def setE (m : Nat → Nat → K) (a b : Nat) (v : K) : Nat → Nat → K :=
  fun x y => if x = a ∧ y = b then v else m x y

/-- `r2_matrix` (130-173), from its previous contents `old`. -/
def matrix (i : In K) (old : Nat → Nat → K) : Nat → Nat → K :=
  let p := i.cfg
  let n := p.nphi
  let f := fsOf i
  let y := linOf i
  let X1c := i.r1.X1c
  let Y1s := i.r1.Y1s
  let Y1c := i.r1.Y1c
  forLoop n (fun j m =>
    let m := forLoop n (fun k m =>
      let m := setE m j k (Y1c j * p.dDvarphi j k * y.Y2sX20 k - Y1s j * p.dDvarphi j k * y.Y2cX20 k)
      let m := setE m j (k + n) (-2 * Y1s j * p.dDvarphi j k)
      let m := setE m (j + n) k (-X1c j * p.dDvarphi j k + Y1s j * p.dDvarphi j k * y.Y2sX20 k
        + Y1c j * p.dDvarphi j k * y.Y2cX20 k)
      setE m (j + n) (k + n) 0) m
    let m := setE m j j (m j j + X1c j * f.fXsX20 j - Y1s j * f.fY0X20 j + Y1c j * f.fYsX20 j
      - Y1s j * f.fYcX20 j)
    let m := setE m j (j + n) (m j (j + n) + X1c j * f.fXsY20 j - Y1s j * f.fY0Y20 j
      + Y1c j * f.fYsY20 j - Y1s j * f.fYcY20 j)
    let m := setE m (j + n) j (m (j + n) j - X1c j * f.fX0X20 j + X1c j * f.fXcX20 j
      - Y1c j * f.fY0X20 j + Y1s j * f.fYsX20 j + Y1c j * f.fYcX20 j)
    setE m (j + n) (j + n) (m (j + n) (j + n) - X1c j * f.fX0Y20 j + X1c j * f.fXcY20 j
      - Y1c j * f.fY0Y20 j + Y1s j * f.fYsY20 j + Y1c j * f.fYcY20 j)) old

/-- `r2_rhs` (176-181). -/
def rhs (i : In K) (a : Nat) : K :=
  let n := i.cfg.nphi
  let f := fsOf i
  let X1c := i.r1.X1c
  let Y1s := i.r1.Y1s
  let Y1c := i.r1.Y1c
  if a < n then
    -(X1c a * f.fXsInh a - Y1s a * f.fY0Inh a + Y1c a * f.fYsInh a - Y1s a * f.fYcInh a)
  else
    -(-X1c (a - n) * f.fX0Inh (a - n) + X1c (a - n) * f.fXcInh (a - n) - Y1c (a - n) * f.fY0Inh (a - n)
      + Y1s (a - n) * f.fYsInh (a - n) + Y1c (a - n) * f.fYcInh (a - n))

/-- Results after the solve (qsc.hpp lines 80-92, set in calculate_r2.cpp lines 182-217). -/
structure R2 (K : Type) where
  X20 : Nat → K
  Y20 : Nat → K
  Y2s : Nat → K
  Y2c : Nat → K
  B20 : Nat → K
  variation : K
  mean : K
  anomaly : Nat → K
  residual : K
  maxXY2 : K
  maxZ2 : K
  maxDXY2 : K
  maxD2XY2 : K
  maxDZ2 : K

/-- `std::max(a, b)` (library function, called in calculate_r2.cpp lines 222-356). -/
def max2 (o : Ops K) (a b : K) : K := if o.lt a b then b else a

/-- The running maximum of `std::abs` of several profiles, as in 220-276. -/
def absMax (o : Ops K) (n : Nat) (f : Nat → K) (fs : List (Nat → K)) : K :=
  fs.foldl (fun m g => max2 o m (vmax o n fun j => o.abs (g j))) (vmax o n fun j => o.abs (f j))

/-- calculate_r2.cpp 183-276, from the solution `x` of the linear system. -/
def finish (o : Ops K) (i : In K) (x : Nat → K) : R2 K :=
  let p := i.cfg
  let n := p.nphi
  let D := fun f => matVec n p.dDvarphi f
  let f := pre i
  let y := linOf i
  let b := i.B0overG0
  let X20 := fun j => x j
  let Y20 := fun j => x (j + n)
  let Y2s := fun j => y.Y2sInh j + y.Y2sX20 j * X20 j
  let Y2c := fun j => y.Y2cInh j + y.Y2cX20 j * X20 j + Y20 j
  let B20 := fun j => p.B0 * (p.curvature j * X20 j - b * f.dZ20 j + 1 / 2 * p.etaBar * p.etaBar
    - i.mu0 * i.p2 / (p.B0 * p.B0)
    - 1 / 4 * b * b * (f.qc j * f.qc j + f.qs j * f.qs j + f.rc j * f.rc j + f.rs j * f.rs j))
  let normalizer := 1 / vsum n p.dl
  let mean := vsum n (fun j => B20 j * p.dl j) * normalizer
  let anomaly := fun j => B20 j - mean
  { X20 := X20
    Y20 := Y20
    Y2s := Y2s
    Y2c := Y2c
    B20 := B20
    variation := vmax o n B20 - vmin o n B20
    mean := mean
    anomaly := anomaly
    residual := o.sqrt (vsum n (fun j => anomaly j * anomaly j * p.dl j) * normalizer) / p.B0
    maxXY2 := absMax o n X20 [f.X2s, f.X2c, Y20, Y2s, Y2c]
    maxZ2 := absMax o n f.Z20 [f.Z2s, f.Z2c]
    maxDXY2 := absMax o n (D X20) [f.dX2s, f.dX2c, D Y20, D Y2s, D Y2c]
    maxD2XY2 := absMax o n (D (D X20)) [D f.dX2s, D f.dX2c, D (D Y20), D (D Y2s), D (D Y2c)]
    maxDZ2 := absMax o n f.dZ20 [f.dZ2s, f.dZ2c] }

/-- `calculate_r2` (10-291); `solve m b` is what `linear_solve` leaves in `b`. -/
def calculate (o : Ops K) (i : In K) (old : Nat → Nat → K)
    (solve : (Nat → Nat → K) → (Nat → K) → Nat → K) : R2 K :=
  finish o i (solve (matrix i old) (rhs i))

/-- Results of `calculate_r2p1`. -/
structure R2p1 (K : Type) where
  lambda : Nat → K
  X3c1 : Nat → K
  Y3c1 : Nat → K
  Y3s1 : Nat → K
  maxXY3 : K
  maxDXY3 : K
  maxD2XY3 : K

/-- `calculate_r2p1` (316-357). -/
def r2p1 (o : Ops K) (i : In K) (r : R2 K) : R2p1 K :=
  let p := i.cfg
  let n := p.nphi
  let D := fun f => matVec n p.dDvarphi f
  let f := pre i
  let l := i.G0overB0
  let sG : K := p.sG
  let spsi : K := p.spsi
  let X1c := i.r1.X1c
  let Y1s := i.r1.Y1s
  let Y1c := i.r1.Y1c
  let lambda := fun j => -(1 / 2) / (sG * spsi) * (
    -spsi * p.B0 * l / (2 * p.G0 * p.G0) * (i.r1.iotaN * p.I2 + i.mu0 * i.p2 * p.G0 / (p.B0 * p.B0))
    + 2 * (f.X2c j * r.Y2s j - f.X2s j * r.Y2c j)
    + spsi * p.B0 / (2 * p.G0) * (l * r.X20 j * p.curvature j - f.dZ20 j)
    + p.I2 / (4 * p.G0) * (-l * p.torsion j * (X1c j * X1c j + Y1s j * Y1s j + Y1c j * Y1c j)
      + Y1c j * i.r1.dX1c j - X1c j * i.r1.dY1c j))
  let X3c1 := fun j => X1c j * lambda j
  let Y3c1 := fun j => Y1c j * lambda j
  let Y3s1 := fun j => Y1s j * lambda j
  { lambda := lambda
    X3c1 := X3c1
    Y3c1 := Y3c1
    Y3s1 := Y3s1
    maxXY3 := absMax o n X3c1 [Y3c1, Y3s1]
    maxDXY3 := absMax o n (D X3c1) [D Y3c1, D Y3s1]
    maxD2XY3 := absMax o n (D (D X3c1)) [D (D Y3c1), D (D Y3s1)] }

/-- Results of `mercier` (mercier.cpp lines 17-32). -/
structure Mercier (K : Type) where
  integral : K
  DGeod : K
  d2V : K
  DWell : K
  DMerc : K

/-- `mercier` (mercier.cpp 6-34); `dPhi` and `axisLength` are those of the axis. -/
def mercier (o : Ops K) (i : In K) (mean dPhi axisLength : K) : Mercier K :=
  let p := i.cfg
  let e := p.etaBar
  let G0 := p.G0
  let B0 := p.B0
  let absG0 := o.abs G0
  let iotaN := i.r1.iotaN
  let mu0 := i.mu0
  let p2 := i.p2
  let w := fun j =>
    let k := p.curvature j
    let s := i.st.sigma j
    p.dl j * (e * e * e * e + k * k * k * k * s * s + e * e * k * k)
      / (e * e * e * e + k * k * k * k * (1 + s * s) + 2 * e * e * k * k)
  let integral := vsum p.nphi w * dPhi * p.nfp * 2 * o.pi / axisLength
  let DGeod := -(2 * mu0 * mu0 * p2 * p2 * G0 * G0 * G0 * G0 * e * e
    / (o.pi * o.pi * o.pi * B0 * B0 * B0 * B0 * B0 * B0 * B0 * B0 * B0 * B0 * iotaN * iotaN)) * integral
  let d2V := 4 * o.pi * o.pi * absG0 / (B0 * B0 * B0)
    * (3 * e * e - 4 * mean / B0 + 2 * ((pre i).G2 + i.st.iota * p.I2) / G0)
  let DWell := (mu0 * p2 * absG0 / (8 * o.pi * o.pi * o.pi * o.pi * B0 * B0 * B0))
    * (d2V - 8 * o.pi * o.pi * mu0 * p2 * absG0 / (B0 * B0 * B0 * B0 * B0))
  ⟨integral, DGeod, d2V, DWell, DWell + DGeod⟩

end

end Qsc.R2
