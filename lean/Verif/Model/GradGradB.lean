import Verif.Model.R2

/-!
# `Qsc::calculate_grad_grad_B_tensor` and its alternative (grad_B_tensor.cpp 57-1211)

The code works on whole profiles, elementwise; `At` holds the values at one grid point.  In the code `lp`
stands for `abs_G0_over_B0`.  Indices 0, 1, 2 are normal, binormal, tangent.  Printing and timing are left
out.
-/

namespace Qsc.GradGradB

variable {K : Type}

/-- What the formulas read at a grid point (qsc.hpp lines 67-92; used in grad_B_tensor.cpp). -/
structure At (K : Type) where
  sG : K
  spsi : K
  B0 : K
  G0 : K
  G2 : K
  I2 : K
  iota : K
  iotaN : K
  lp : K
  kap : K
  tor : K
  dkap : K
  dtor : K
  X1c : K
  Y1s : K
  Y1c : K
  dX1c : K
  dY1s : K
  dY1c : K
  d2X1c : K
  d2Y1s : K
  d2Y1c : K
  X20 : K
  X2s : K
  X2c : K
  dX20 : K
  dX2s : K
  dX2c : K
  Y20 : K
  Y2s : K
  Y2c : K
  dY20 : K
  dY2s : K
  dY2c : K
  Z2s : K
  Z2c : K
  dZ20 : K
  dZ2s : K
  dZ2c : K
  B20 : K
  B2s : K
  B2c : K

section
variable [Field K]

/-- The values after `calculate_r2`; derivatives are products with `d_d_varphi` (calculate_r1.cpp 117-119,
calculate_r2.cpp 38-40, 63-64, 191-204). -/
def At.of (i : R2.In K) (r : R2.R2 K) (j : Nat) : At K :=
  let D := fun f => matVec i.cfg.nphi i.cfg.dDvarphi f
  let q := R2.pre i
  { sG := i.cfg.sG, spsi := i.cfg.spsi, B0 := i.cfg.B0, G0 := i.cfg.G0, G2 := q.G2, I2 := i.cfg.I2
    iota := i.st.iota, iotaN := i.r1.iotaN, lp := i.G0overB0
    kap := i.cfg.curvature j, tor := i.cfg.torsion j
    dkap := D i.cfg.curvature j, dtor := D i.cfg.torsion j
    X1c := i.r1.X1c j, Y1s := i.r1.Y1s j, Y1c := i.r1.Y1c j
    dX1c := i.r1.dX1c j, dY1s := i.r1.dY1s j, dY1c := i.r1.dY1c j
    d2X1c := D i.r1.dX1c j, d2Y1s := D i.r1.dY1s j, d2Y1c := D i.r1.dY1c j
    X20 := r.X20 j, X2s := q.X2s j, X2c := q.X2c j
    dX20 := D r.X20 j, dX2s := q.dX2s j, dX2c := q.dX2c j
    Y20 := r.Y20 j, Y2s := r.Y2s j, Y2c := r.Y2c j
    dY20 := D r.Y20 j, dY2s := D r.Y2s j, dY2c := D r.Y2c j
    Z2s := q.Z2s j, Z2c := q.Z2c j
    dZ20 := q.dZ20 j, dZ2s := q.dZ2s j, dZ2c := q.dZ2c j
    B20 := r.B20 j, B2s := i.B2s, B2c := i.B2c }

/-- Element 000 of `calculate_grad_grad_B_tensor` (68-87). -/
def main000 (a : At K) : K :=
  (a.B0 * a.B0 * a.B0 * a.B0 * a.lp * a.lp * (8 * a.iotaN * a.X2c * a.Y1c * a.Y1s + 4 * a.iotaN * a.X2s *
    (-a.Y1c * a.Y1c + a.Y1s * a.Y1s) + 2 * a.iotaN * a.X1c * a.Y1s * a.Y20 + 2 * a.iotaN * a.X1c * a.Y1s *
    a.Y2c - 2 * a.iotaN * a.X1c * a.Y1c * a.Y2s + 5 * a.iotaN * a.X1c * a.X1c * a.Y1c * a.Y1s * a.kap - 2 *
    a.Y1c * a.Y20 * a.dX1c + 2 * a.Y1c * a.Y2c * a.dX1c + 2 * a.Y1s * a.Y2s * a.dX1c + 5 * a.X1c * a.Y1s *
    a.Y1s * a.kap * a.dX1c + 2 * a.Y1c * a.Y1c * a.dX20 + 2 * a.Y1s * a.Y1s * a.dX20 - 2 * a.Y1c * a.Y1c *
    a.dX2c + 2 * a.Y1s * a.Y1s * a.dX2c - 4 * a.Y1c * a.Y1s * a.dX2s)) / (a.G0 * a.G0 * a.G0)

/-- Element 001 of `calculate_grad_grad_B_tensor` (90-123). -/
def main001 (a : At K) : K :=
  (a.B0 * a.B0 * a.B0 * a.B0 * a.lp * a.lp * (a.Y1c * a.Y1c * (-6 * a.iotaN * a.Y2s + 5 * a.iotaN * a.X1c *
    a.Y1s * a.kap + 2 * (a.lp * a.X20 * a.tor - a.lp * a.X2c * a.tor + a.dY20 - a.dY2c)) + a.Y1s * (5 *
    a.iotaN * a.X1c * a.Y1s * a.Y1s * a.kap + 2 * (a.lp * a.X1c * a.Y2s * a.tor + a.Y2s * a.dY1c - (a.Y20 +
    a.Y2c) * a.dY1s) + a.Y1s * (6 * a.iotaN * a.Y2s + 2 * a.lp * a.X20 * a.tor + 2 * a.lp * a.X2c * a.tor +
    5 * a.lp * a.X1c * a.X1c * a.kap * a.tor + 5 * a.X1c * a.kap * a.dY1c + 2 * a.dY20 + 2 * a.dY2c)) +
    a.Y1c * (2 * (a.lp * a.X1c * (-a.Y20 + a.Y2c) * a.tor - a.Y20 * a.dY1c + a.Y2c * a.dY1c + a.Y2s *
    a.dY1s) + a.Y1s * (12 * a.iotaN * a.Y2c - 4 * a.lp * a.X2s * a.tor - 5 * a.X1c * a.kap * a.dY1s - 4 *
    a.dY2s)))) / (a.G0 * a.G0 * a.G0)

/-- Element 002 of `calculate_grad_grad_B_tensor` (126-148). -/
def main002 (a : At K) : K :=
  -((a.B0 * a.B0 * a.B0 * a.lp * a.lp * (2 * a.Y1c * a.Y1c * (2 * a.B2c * a.G0 * a.lp + a.B0 * a.G2 * a.lp
    + a.B0 * a.I2 * a.lp * a.iota - 2 * a.G0 * a.lp * a.B20 + 2 * a.B0 * a.G0 * a.iotaN * a.Z2s + a.B0 *
    a.G0 * a.lp * a.X20 * a.kap - a.B0 * a.G0 * a.lp * a.X2c * a.kap - a.B0 * a.G0 * a.dZ20 + a.B0 * a.G0 *
    a.dZ2c) + a.Y1s * (-2 * a.B0 * a.G0 * a.lp * a.X1c * a.Y2s * a.kap + a.Y1s * (-4 * a.B2c * a.G0 * a.lp
    + 2 * a.B0 * a.G2 * a.lp + 2 * a.B0 * a.I2 * a.lp * a.iota - 4 * a.G0 * a.lp * a.B20 - 4 * a.B0 * a.G0
    * a.iotaN * a.Z2s + 2 * a.B0 * a.G0 * a.lp * a.X20 * a.kap + 2 * a.B0 * a.G0 * a.lp * a.X2c * a.kap +
    a.B0 * a.G0 * a.lp * a.X1c * a.X1c * a.kap * a.kap - 2 * a.B0 * a.G0 * a.dZ20 - 2 * a.B0 * a.G0 *
    a.dZ2c)) + 2 * a.G0 * a.Y1c * (a.B0 * a.lp * a.X1c * (a.Y20 - a.Y2c) * a.kap + 2 * a.Y1s * (2 * a.B2s *
    a.lp - 2 * a.B0 * a.iotaN * a.Z2c - a.B0 * a.lp * a.X2s * a.kap + a.B0 * a.dZ2s)))) / (a.G0 * a.G0 *
    a.G0 * a.G0))

/-- Element 010 of `calculate_grad_grad_B_tensor` (151-175). -/
def main010 (a : At K) : K :=
  -((a.B0 * a.B0 * a.B0 * a.B0 * a.lp * a.lp * (3 * a.iotaN * a.X1c * a.X1c * a.X1c * a.Y1s * a.kap + 3 *
    a.lp * a.X1c * a.X1c * a.Y1s * a.Y1s * a.kap * a.tor + 2 * (a.X2s * a.Y1s * (-2 * a.lp * a.Y1c * a.tor
    + a.dX1c) + a.X20 * (a.lp * a.Y1c * a.Y1c * a.tor + a.lp * a.Y1s * a.Y1s * a.tor - a.Y1c * a.dX1c) +
    a.X2c * (-(a.lp * a.Y1c * a.Y1c * a.tor) + a.lp * a.Y1s * a.Y1s * a.tor + a.Y1c * a.dX1c)) - 2 * a.X1c
    * (3 * a.iotaN * a.X2s * a.Y1c - a.iotaN * a.X20 * a.Y1s - 3 * a.iotaN * a.X2c * a.Y1s + a.lp * a.Y1c *
    a.Y20 * a.tor - a.lp * a.Y1c * a.Y2c * a.tor - a.lp * a.Y1s * a.Y2s * a.tor - a.Y1c * a.dX20 + a.Y1c *
    a.dX2c + a.Y1s * a.dX2s))) / (a.G0 * a.G0 * a.G0))

/-- Element 011 of `calculate_grad_grad_B_tensor` (178-197). -/
def main011 (a : At K) : K :=
  (a.B0 * a.B0 * a.B0 * a.B0 * a.lp * a.lp * (-4 * a.iotaN * a.X1c * a.Y1s * a.Y2c + 4 * a.iotaN * a.X1c *
    a.Y1c * a.Y2s - 3 * a.iotaN * a.X1c * a.X1c * a.Y1c * a.Y1s * a.kap + 2 * a.X20 * a.Y1c * a.dY1c + 2 *
    a.X20 * a.Y1s * a.dY1s + 3 * a.X1c * a.X1c * a.Y1s * a.kap * a.dY1s + 2 * a.X2s * (a.iotaN * a.Y1c *
    a.Y1c - a.Y1s * (a.iotaN * a.Y1s + a.dY1c) - a.Y1c * a.dY1s) - 2 * a.X2c * (a.Y1c * (2 * a.iotaN *
    a.Y1s + a.dY1c) - a.Y1s * a.dY1s) - 2 * a.X1c * a.Y1c * a.dY20 + 2 * a.X1c * a.Y1c * a.dY2c + 2 * a.X1c
    * a.Y1s * a.dY2s)) / (a.G0 * a.G0 * a.G0)

/-- Element 012 of `calculate_grad_grad_B_tensor` (200-210). -/
def main012 (a : At K) : K :=
  (2 * a.B0 * a.B0 * a.B0 * a.lp * a.lp * a.X1c * (a.Y1c * (2 * a.B2c * a.G0 * a.lp + a.B0 * a.G2 * a.lp +
    a.B0 * a.I2 * a.lp * a.iota - 2 * a.G0 * a.lp * a.B20 + 2 * a.B0 * a.G0 * a.iotaN * a.Z2s + 2 * a.B0 *
    a.G0 * a.lp * a.X20 * a.kap - 2 * a.B0 * a.G0 * a.lp * a.X2c * a.kap - a.B0 * a.G0 * a.dZ20 + a.B0 *
    a.G0 * a.dZ2c) + a.G0 * a.Y1s * (2 * a.B2s * a.lp - 2 * a.B0 * a.iotaN * a.Z2c - 2 * a.B0 * a.lp *
    a.X2s * a.kap + a.B0 * a.dZ2s))) / (a.G0 * a.G0 * a.G0 * a.G0)

/-- Element 020 of `calculate_grad_grad_B_tensor` (213-243). -/
def main020 (a : At K) : K :=
  (a.B0 * a.B0 * a.B0 * a.B0 * a.lp * (-4 * a.lp * a.lp * a.X2s * a.Y1c * a.Y1s * a.kap + 2 * a.lp * a.lp *
    a.X2c * (-a.Y1c * a.Y1c + a.Y1s * a.Y1s) * a.kap + 2 * a.lp * a.lp * a.X20 * (a.Y1c * a.Y1c + a.Y1s *
    a.Y1s) * a.kap - 2 * a.lp * a.lp * a.X1c * a.Y1c * a.Y20 * a.kap + 2 * a.lp * a.lp * a.X1c * a.Y1c *
    a.Y2c * a.kap + 2 * a.lp * a.lp * a.X1c * a.Y1s * a.Y2s * a.kap + 3 * a.lp * a.lp * a.X1c * a.X1c *
    a.Y1s * a.Y1s * a.kap * a.kap + a.lp * a.iotaN * a.X1c * a.X1c * a.X1c * a.Y1s * a.tor - a.lp * a.iotaN
    * a.X1c * a.Y1c * a.Y1c * a.Y1s * a.tor - a.lp * a.iotaN * a.X1c * a.Y1s * a.Y1s * a.Y1s * a.tor -
    a.Y1s * a.Y1s * a.dX1c * a.dX1c + a.iotaN * a.X1c * a.X1c * a.Y1s * a.dY1c - a.lp * a.X1c * a.Y1s *
    a.Y1s * a.tor * a.dY1c - a.iotaN * a.X1c * a.X1c * a.Y1c * a.dY1s + a.lp * a.X1c * a.Y1c * a.Y1s *
    a.tor * a.dY1s + a.X1c * a.Y1s * a.Y1s * a.d2X1c)) / (a.G0 * a.G0 * a.G0)

/-- Element 021 of `calculate_grad_grad_B_tensor` (246-265). -/
def main021 (a : At K) : K :=
  (a.B0 * a.B0 * a.B0 * a.B0 * a.lp * (-(a.Y1s * a.dX1c * (a.iotaN * a.Y1c * a.Y1c + a.Y1s * (a.iotaN *
    a.Y1s + a.dY1c) - a.Y1c * a.dY1s)) + a.lp * a.X1c * a.X1c * a.Y1s * (2 * a.iotaN * a.Y1c * a.tor -
    a.tor * a.dY1s + a.Y1s * a.dtor) + a.X1c * (a.Y1c * a.dY1s * (-(a.iotaN * a.Y1c) + a.dY1s) + a.Y1s *
    a.Y1s * (a.lp * a.tor * a.dX1c + a.iotaN * a.dY1s + a.d2Y1c) - a.Y1s * (a.dY1c * a.dY1s + a.Y1c * (-2 *
    a.iotaN * a.dY1c + a.d2Y1s))))) / (a.G0 * a.G0 * a.G0)

/-- Element 022 of `calculate_grad_grad_B_tensor` (268-275). -/
def main022 (a : At K) : K :=
  (a.B0 * a.B0 * a.B0 * a.B0 * a.lp * a.lp * a.X1c * a.Y1s * (-(a.Y1s * a.kap * a.dX1c) + a.X1c *
    (-(a.iotaN * a.Y1c * a.kap) + a.Y1s * a.dkap))) / (a.G0 * a.G0 * a.G0)

/-- Element 100 of `calculate_grad_grad_B_tensor` (278-290). -/
def main100 (a : At K) : K :=
  (-2 * a.B0 * a.B0 * a.B0 * a.B0 * a.lp * a.lp * a.X1c * (-2 * a.iotaN * a.X2s * a.Y1c + 2 * a.iotaN *
    a.X2c * a.Y1s - a.iotaN * a.X1c * a.Y2s + a.iotaN * a.X1c * a.X1c * a.Y1s * a.kap + a.lp * a.X1c *
    a.Y1s * a.Y1s * a.kap * a.tor - a.Y20 * a.dX1c + a.Y2c * a.dX1c + a.Y1c * a.dX20 - a.Y1c * a.dX2c -
    a.Y1s * a.dX2s)) / (a.G0 * a.G0 * a.G0)

/-- Element 101 of `calculate_grad_grad_B_tensor` (293-310). -/
def main101 (a : At K) : K :=
  (2 * a.B0 * a.B0 * a.B0 * a.B0 * a.lp * a.lp * a.X1c * (a.lp * a.X1c * a.Y20 * a.tor - a.lp * a.X1c *
    a.Y2c * a.tor + a.Y20 * a.dY1c - a.Y2c * a.dY1c - a.Y2s * a.dY1s + a.Y1c * (3 * a.iotaN * a.Y2s - a.lp
    * a.X20 * a.tor + a.lp * a.X2c * a.tor - a.dY20 + a.dY2c) + a.Y1s * (a.iotaN * a.Y20 - 3 * a.iotaN *
    a.Y2c - a.iotaN * a.X1c * a.Y1c * a.kap + a.lp * a.X2s * a.tor + a.X1c * a.kap * a.dY1s + a.dY2s))) /
    (a.G0 * a.G0 * a.G0)

/-- Element 102 of `calculate_grad_grad_B_tensor` (313-325). -/
def main102 (a : At K) : K :=
  (2 * a.B0 * a.B0 * a.B0 * a.lp * a.lp * a.X1c * (a.Y1c * (2 * a.B2c * a.G0 * a.lp + a.B0 * a.G2 * a.lp +
    a.B0 * a.I2 * a.lp * a.iota - 2 * a.G0 * a.lp * a.B20 + 2 * a.B0 * a.G0 * a.iotaN * a.Z2s + a.B0 * a.G0
    * a.lp * a.X20 * a.kap - a.B0 * a.G0 * a.lp * a.X2c * a.kap - a.B0 * a.G0 * a.dZ20 + a.B0 * a.G0 *
    a.dZ2c) + a.G0 * (a.B0 * a.lp * a.X1c * (a.Y20 - a.Y2c) * a.kap + a.Y1s * (2 * a.B2s * a.lp - 2 * a.B0
    * a.iotaN * a.Z2c - a.B0 * a.lp * a.X2s * a.kap + a.B0 * a.dZ2s)))) / (a.G0 * a.G0 * a.G0 * a.G0)

/-- Element 110 of `calculate_grad_grad_B_tensor` (328-339). -/
def main110 (a : At K) : K :=
  (-2 * a.B0 * a.B0 * a.B0 * a.B0 * a.lp * a.lp * a.X1c * (a.lp * a.X2c * a.Y1c * a.tor + a.lp * a.X2s *
    a.Y1s * a.tor - a.X2c * a.dX1c + a.X20 * (-(a.lp * a.Y1c * a.tor) + a.dX1c) + a.X1c * (3 * a.iotaN *
    a.X2s + a.lp * a.Y20 * a.tor - a.lp * a.Y2c * a.tor - a.dX20 + a.dX2c))) / (a.G0 * a.G0 * a.G0)

/-- Element 111 of `calculate_grad_grad_B_tensor` (342-352). -/
def main111 (a : At K) : K :=
  (-2 * a.B0 * a.B0 * a.B0 * a.B0 * a.lp * a.lp * a.X1c * (-(a.iotaN * a.X2c * a.Y1s) + 2 * a.iotaN * a.X1c
    * a.Y2s - a.X2c * a.dY1c + a.X20 * (a.iotaN * a.Y1s + a.dY1c) + a.X2s * (a.iotaN * a.Y1c - a.dY1s) -
    a.X1c * a.dY20 + a.X1c * a.dY2c)) / (a.G0 * a.G0 * a.G0)

/-- Element 112 of `calculate_grad_grad_B_tensor` (355-362). -/
def main112 (a : At K) : K :=
  (-2 * a.B0 * a.B0 * a.B0 * a.lp * a.lp * a.X1c * a.X1c * (2 * a.B2c * a.G0 * a.lp + a.B0 * a.G2 * a.lp +
    a.B0 * a.I2 * a.lp * a.iota - 2 * a.G0 * a.lp * a.B20 + 2 * a.B0 * a.G0 * a.iotaN * a.Z2s + 2 * a.B0 *
    a.G0 * a.lp * a.X20 * a.kap - 2 * a.B0 * a.G0 * a.lp * a.X2c * a.kap - a.B0 * a.G0 * a.dZ20 + a.B0 *
    a.G0 * a.dZ2c)) / (a.G0 * a.G0 * a.G0 * a.G0)

/-- Element 120 of `calculate_grad_grad_B_tensor` (365-381). -/
def main120 (a : At K) : K :=
  (a.B0 * a.B0 * a.B0 * a.B0 * a.lp * a.X1c * (-2 * a.lp * a.lp * a.X20 * a.Y1c * a.kap + 2 * a.lp * a.lp *
    a.X2c * a.Y1c * a.kap + 2 * a.lp * a.lp * a.X2s * a.Y1s * a.kap + 2 * a.lp * a.lp * a.X1c * a.Y20 *
    a.kap - 2 * a.lp * a.lp * a.X1c * a.Y2c * a.kap + 2 * a.lp * a.iotaN * a.X1c * a.Y1c * a.Y1s * a.tor -
    a.iotaN * a.X1c * a.Y1s * a.dX1c + a.lp * a.Y1s * a.Y1s * a.tor * a.dX1c + a.iotaN * a.X1c * a.X1c *
    a.dY1s - a.lp * a.X1c * a.Y1s * a.tor * a.dY1s - a.lp * a.X1c * a.Y1s * a.Y1s * a.dtor)) / (a.G0 * a.G0
    * a.G0)

/-- Element 121 of `calculate_grad_grad_B_tensor` (384-395). -/
def main121 (a : At K) : K :=
  (a.B0 * a.B0 * a.B0 * a.B0 * a.lp * a.X1c * (-(a.lp * a.iotaN * a.X1c * a.X1c * a.Y1s * a.tor) + a.lp *
    a.Y1s * a.tor * (a.iotaN * a.Y1c * a.Y1c + a.Y1s * (a.iotaN * a.Y1s + a.dY1c) - a.Y1c * a.dY1s) + a.X1c
    * ((a.iotaN * a.Y1c - a.dY1s) * a.dY1s + a.Y1s * (-(a.iotaN * a.dY1c) + a.d2Y1s)))) / (a.G0 * a.G0 *
    a.G0)

/-- Element 122 of `calculate_grad_grad_B_tensor` (398-401). -/
def main122 (a : At K) : K :=
  (a.B0 * a.B0 * a.B0 * a.B0 * a.lp * a.lp * a.X1c * a.X1c * a.Y1s * a.kap * (a.iotaN * a.X1c + 2 * a.lp *
    a.Y1s * a.tor)) / (a.G0 * a.G0 * a.G0)

/-- Element 200 of `calculate_grad_grad_B_tensor` (404-416). -/
def main200 (a : At K) : K :=
  (a.B0 * a.B0 * a.B0 * a.B0 * a.lp * a.X1c * a.Y1s * (a.lp * a.iotaN * a.X1c * a.X1c * a.tor - a.lp *
    a.iotaN * a.Y1c * a.Y1c * a.tor - a.lp * a.iotaN * a.Y1s * a.Y1s * a.tor - a.lp * a.Y1s * a.tor *
    a.dY1c + a.X1c * (2 * a.lp * a.lp * a.Y1s * a.kap * a.kap + a.iotaN * a.dY1c) + a.dX1c * a.dY1s + a.Y1c
    * (a.iotaN * a.dX1c + a.lp * a.tor * a.dY1s) + a.Y1s * a.d2X1c)) / (a.G0 * a.G0 * a.G0)

/-- Element 201 of `calculate_grad_grad_B_tensor` (420-430). -/
def main201 (a : At K) : K :=
  (a.B0 * a.B0 * a.B0 * a.B0 * a.lp * a.X1c * a.Y1s * (a.lp * a.X1c * (2 * a.iotaN * a.Y1c * a.tor + a.Y1s
    * a.dtor) + a.Y1s * (2 * a.lp * a.tor * a.dX1c + 2 * a.iotaN * a.dY1s + a.d2Y1c) + a.Y1c * (2 * a.iotaN
    * a.dY1c - a.d2Y1s))) / (a.G0 * a.G0 * a.G0)

/-- Element 202 of `calculate_grad_grad_B_tensor` (433-438). -/
def main202 (a : At K) : K :=
  (a.B0 * a.B0 * a.B0 * a.B0 * a.lp * a.lp * a.X1c * a.X1c * a.Y1s * (-(a.iotaN * a.Y1c * a.kap) + a.kap *
    a.dY1s + a.Y1s * a.dkap)) / (a.G0 * a.G0 * a.G0)

/-- Element 210 of `calculate_grad_grad_B_tensor` (441-447). -/
def main210 (a : At K) : K :=
  -((a.B0 * a.B0 * a.B0 * a.B0 * a.lp * a.X1c * a.X1c * a.Y1s * (-2 * a.lp * a.iotaN * a.Y1c * a.tor + 2 *
    a.iotaN * a.dX1c + 2 * a.lp * a.tor * a.dY1s + a.lp * a.Y1s * a.dtor)) / (a.G0 * a.G0 * a.G0))

/-- Element 211 of `calculate_grad_grad_B_tensor` (450-461). -/
def main211 (a : At K) : K :=
  -((a.B0 * a.B0 * a.B0 * a.B0 * a.lp * a.X1c * a.Y1s * (a.lp * a.iotaN * a.X1c * a.X1c * a.tor - a.lp *
    a.iotaN * a.Y1c * a.Y1c * a.tor - a.lp * a.iotaN * a.Y1s * a.Y1s * a.tor - a.lp * a.Y1s * a.tor *
    a.dY1c - a.dX1c * a.dY1s + a.Y1c * (a.iotaN * a.dX1c + a.lp * a.tor * a.dY1s) + a.X1c * (a.iotaN *
    a.dY1c - a.d2Y1s))) / (a.G0 * a.G0 * a.G0))

/-- Element 212 of `calculate_grad_grad_B_tensor` (464-467). -/
def main212 (a : At K) : K :=
  (a.B0 * a.B0 * a.B0 * a.B0 * a.lp * a.lp * a.X1c * a.X1c * a.Y1s * a.kap * (a.iotaN * a.X1c + 2 * a.lp *
    a.Y1s * a.tor)) / (a.G0 * a.G0 * a.G0)

/-- Element 220 of `calculate_grad_grad_B_tensor` (470-475). -/
def main220 (a : At K) : K :=
  (a.B0 * a.B0 * a.B0 * a.B0 * a.lp * a.lp * a.X1c * a.X1c * a.Y1s * (-(a.iotaN * a.Y1c * a.kap) + a.kap *
    a.dY1s + a.Y1s * a.dkap)) / (a.G0 * a.G0 * a.G0)

/-- Element 221 of `calculate_grad_grad_B_tensor` (478-483). -/
def main221 (a : At K) : K :=
  -((a.B0 * a.B0 * a.B0 * a.B0 * a.lp * a.lp * a.X1c * a.Y1s * a.kap * (a.iotaN * a.Y1c * a.Y1c + a.Y1s *
    (a.iotaN * a.Y1s + a.dY1c) - a.Y1c * a.dY1s)) / (a.G0 * a.G0 * a.G0))

/-- Element 222 of `calculate_grad_grad_B_tensor` (486-488). -/
def main222 (a : At K) : K :=
  (-2 * a.B0 * a.B0 * a.B0 * a.B0 * a.lp * a.lp * a.lp * a.X1c * a.X1c * a.Y1s * a.Y1s * a.kap * a.kap) /
    (a.G0 * a.G0 * a.G0)

/-- `calculate_grad_grad_B_tensor`: 57-488. -/
def main (a : At K) : Nat → Nat → Nat → K
  | 0, 0, 0 => main000 a
  | 0, 0, 1 => main001 a
  | 0, 0, 2 => main002 a
  | 0, 1, 0 => main010 a
  | 0, 1, 1 => main011 a
  | 0, 1, 2 => main012 a
  | 0, 2, 0 => main020 a
  | 0, 2, 1 => main021 a
  | 0, 2, 2 => main022 a
  | 1, 0, 0 => main100 a
  | 1, 0, 1 => main101 a
  | 1, 0, 2 => main102 a
  | 1, 1, 0 => main110 a
  | 1, 1, 1 => main111 a
  | 1, 1, 2 => main112 a
  | 1, 2, 0 => main120 a
  | 1, 2, 1 => main121 a
  | 1, 2, 2 => main122 a
  | 2, 0, 0 => main200 a
  | 2, 0, 1 => main201 a
  | 2, 0, 2 => main202 a
  | 2, 1, 0 => main210 a
  | 2, 1, 1 => main211 a
  | 2, 1, 2 => main212 a
  | 2, 2, 0 => main220 a
  | 2, 2, 1 => main221 a
  | 2, 2, 2 => main222 a
  | _, _, _ => 0

/-- Element 000 of `calculate_grad_grad_B_tensor_alt` (543-590). -/
def alt000 (a : At K) : K :=
  (-2 * a.B0 * (-4 * a.sG * a.spsi * a.iotaN * a.X2c * a.Y1c * a.Y1s + a.iotaN * a.X1c * a.X1c * a.Y1c *
    (a.Y1c * (-a.Y20 + a.Y2c) + a.Y1s * (a.Y2s - 2 * a.sG * a.spsi * a.kap)) + a.X20 * a.Y1c * a.Y1c *
    a.Y1s * a.dX1c - a.X2c * a.Y1c * a.Y1c * a.Y1s * a.dX1c + a.X20 * a.Y1s * a.Y1s * a.Y1s * a.dX1c +
    a.X2c * a.Y1s * a.Y1s * a.Y1s * a.dX1c + a.sG * a.spsi * a.Y1c * a.Y20 * a.dX1c - a.sG * a.spsi * a.Y1c
    * a.Y2c * a.dX1c - a.sG * a.spsi * a.Y1s * a.Y2s * a.dX1c - 2 * a.X2s * (a.sG * a.spsi * a.iotaN *
    a.Y1s * a.Y1s + a.Y1c * a.Y1c * (-(a.sG * a.spsi * a.iotaN) + a.iotaN * a.X1c * a.Y1s) + a.Y1c * a.Y1s
    * a.Y1s * a.dX1c) + a.X1c * (a.iotaN * a.X2c * a.Y1c * (-a.Y1c * a.Y1c + a.Y1s * a.Y1s) + a.iotaN *
    a.X20 * a.Y1c * (a.Y1c * a.Y1c + a.Y1s * a.Y1s) - a.sG * a.spsi * a.iotaN * a.Y1s * a.Y20 - a.sG *
    a.spsi * a.iotaN * a.Y1s * a.Y2c + a.sG * a.spsi * a.iotaN * a.Y1c * a.Y2s - a.Y1c * a.Y1s * a.Y20 *
    a.dX1c + a.Y1c * a.Y1s * a.Y2c * a.dX1c + a.Y1s * a.Y1s * a.Y2s * a.dX1c - 2 * a.sG * a.spsi * a.Y1s *
    a.Y1s * a.kap * a.dX1c) - a.sG * a.spsi * a.Y1c * a.Y1c * a.dX20 - a.sG * a.spsi * a.Y1s * a.Y1s *
    a.dX20 + a.sG * a.spsi * a.Y1c * a.Y1c * a.dX2c - a.sG * a.spsi * a.Y1s * a.Y1s * a.dX2c + 2 * a.sG *
    a.spsi * a.Y1c * a.Y1s * a.dX2s)) / (a.lp * a.spsi)

/-- Element 001 of `calculate_grad_grad_B_tensor_alt` (593-680). -/
def alt001 (a : At K) : K :=
  (2 * a.B0 * (2 * a.iotaN * a.X2s * a.Y1c * a.Y1c * a.Y1c * a.Y1s + 2 * a.iotaN * a.X2s * a.Y1c * a.Y1s *
    a.Y1s * a.Y1s + a.iotaN * a.X1c * a.Y1c * a.Y1c * a.Y1c * a.Y20 + a.iotaN * a.X1c * a.Y1c * a.Y1s *
    a.Y1s * a.Y20 - a.iotaN * a.X1c * a.Y1c * a.Y1c * a.Y1c * a.Y2c + 6 * a.sG * a.spsi * a.iotaN * a.Y1c *
    a.Y1s * a.Y2c - a.iotaN * a.X1c * a.Y1c * a.Y1s * a.Y1s * a.Y2c - 3 * a.sG * a.spsi * a.iotaN * a.Y1c *
    a.Y1c * a.Y2s - a.iotaN * a.X1c * a.Y1c * a.Y1c * a.Y1s * a.Y2s + 3 * a.sG * a.spsi * a.iotaN * a.Y1s *
    a.Y1s * a.Y2s - a.iotaN * a.X1c * a.Y1s * a.Y1s * a.Y1s * a.Y2s + 2 * a.sG * a.spsi * a.iotaN * a.X1c *
    a.Y1c * a.Y1c * a.Y1s * a.kap + 2 * a.sG * a.spsi * a.iotaN * a.X1c * a.Y1s * a.Y1s * a.Y1s * a.kap - 2
    * a.lp * a.sG * a.spsi * a.X2s * a.Y1c * a.Y1s * a.tor + 2 * a.lp * a.X1c * a.X2s * a.Y1c * a.Y1s *
    a.Y1s * a.tor - a.lp * a.sG * a.spsi * a.X1c * a.Y1c * a.Y20 * a.tor + a.lp * a.X1c * a.X1c * a.Y1c *
    a.Y1s * a.Y20 * a.tor + a.lp * a.sG * a.spsi * a.X1c * a.Y1c * a.Y2c * a.tor - a.lp * a.X1c * a.X1c *
    a.Y1c * a.Y1s * a.Y2c * a.tor + a.lp * a.sG * a.spsi * a.X1c * a.Y1s * a.Y2s * a.tor - a.lp * a.X1c *
    a.X1c * a.Y1s * a.Y1s * a.Y2s * a.tor + 2 * a.lp * a.sG * a.spsi * a.X1c * a.X1c * a.Y1s * a.Y1s *
    a.kap * a.tor + 2 * a.X2s * a.Y1c * a.Y1s * a.Y1s * a.dY1c - a.sG * a.spsi * a.Y1c * a.Y20 * a.dY1c +
    a.X1c * a.Y1c * a.Y1s * a.Y20 * a.dY1c + a.sG * a.spsi * a.Y1c * a.Y2c * a.dY1c - a.X1c * a.Y1c * a.Y1s
    * a.Y2c * a.dY1c + a.sG * a.spsi * a.Y1s * a.Y2s * a.dY1c - a.X1c * a.Y1s * a.Y1s * a.Y2s * a.dY1c + 2
    * a.sG * a.spsi * a.X1c * a.Y1s * a.Y1s * a.kap * a.dY1c - 2 * a.X2s * a.Y1c * a.Y1c * a.Y1s * a.dY1s -
    a.X1c * a.Y1c * a.Y1c * a.Y20 * a.dY1s - a.sG * a.spsi * a.Y1s * a.Y20 * a.dY1s + a.X1c * a.Y1c * a.Y1c
    * a.Y2c * a.dY1s - a.sG * a.spsi * a.Y1s * a.Y2c * a.dY1s + a.sG * a.spsi * a.Y1c * a.Y2s * a.dY1s +
    a.X1c * a.Y1c * a.Y1s * a.Y2s * a.dY1s - 2 * a.sG * a.spsi * a.X1c * a.Y1c * a.Y1s * a.kap * a.dY1s +
    a.X2c * (a.Y1c * a.Y1c - a.Y1s * a.Y1s) * (a.iotaN * a.Y1c * a.Y1c + a.iotaN * a.Y1s * a.Y1s - a.lp *
    a.sG * a.spsi * a.tor + a.Y1s * (a.lp * a.X1c * a.tor + a.dY1c) - a.Y1c * a.dY1s) - a.X20 * (a.Y1c *
    a.Y1c + a.Y1s * a.Y1s) * (a.iotaN * a.Y1c * a.Y1c + a.iotaN * a.Y1s * a.Y1s - a.lp * a.sG * a.spsi *
    a.tor + a.Y1s * (a.lp * a.X1c * a.tor + a.dY1c) - a.Y1c * a.dY1s) + a.sG * a.spsi * a.Y1c * a.Y1c *
    a.dY20 + a.sG * a.spsi * a.Y1s * a.Y1s * a.dY20 - a.sG * a.spsi * a.Y1c * a.Y1c * a.dY2c + a.sG *
    a.spsi * a.Y1s * a.Y1s * a.dY2c - 2 * a.sG * a.spsi * a.Y1c * a.Y1s * a.dY2s)) / (a.lp * a.spsi)

/-- Element 002 of `calculate_grad_grad_B_tensor_alt` (683-728). -/
def alt002 (a : At K) : K :=
  (-2 * (a.Y1c * a.Y1c * (a.G2 * a.spsi + a.I2 * a.spsi * a.iota - 2 * a.lp * a.sG * a.spsi * a.B20 + 2 *
    a.lp * a.sG * a.spsi * a.B2c + 2 * a.B0 * a.sG * a.spsi * a.iotaN * a.Z2s + a.B0 * a.lp * a.sG * a.spsi
    * a.X20 * a.kap - a.B0 * a.lp * a.sG * a.spsi * a.X2c * a.kap + a.B0 * a.lp * a.X1c * a.X20 * a.Y1s *
    a.kap - a.B0 * a.lp * a.X1c * a.X2c * a.Y1s * a.kap - a.B0 * a.sG * a.spsi * a.dZ20 + a.B0 * a.sG *
    a.spsi * a.dZ2c) + a.Y1s * (a.B0 * a.lp * a.X1c * (a.X20 + a.X2c) * a.Y1s * a.Y1s * a.kap - a.B0 * a.lp
    * a.sG * a.spsi * a.X1c * a.Y2s * a.kap + a.Y1s * (a.G2 * a.spsi + a.I2 * a.spsi * a.iota - 2 * a.lp *
    a.sG * a.spsi * a.B20 - 2 * a.lp * a.sG * a.spsi * a.B2c - 2 * a.B0 * a.sG * a.spsi * a.iotaN * a.Z2s +
    a.B0 * a.lp * a.sG * a.spsi * a.X20 * a.kap + a.B0 * a.lp * a.sG * a.spsi * a.X2c * a.kap + a.B0 * a.lp
    * a.X1c * a.X1c * a.Y2s * a.kap + a.B0 * a.lp * a.sG * a.spsi * a.X1c * a.X1c * a.kap * a.kap - a.B0 *
    a.sG * a.spsi * a.dZ20 - a.B0 * a.sG * a.spsi * a.dZ2c)) + a.Y1c * (4 * a.lp * a.sG * a.spsi * a.B2s *
    a.Y1s - a.B0 * (2 * a.lp * a.X1c * a.X2s * a.Y1s * a.Y1s * a.kap + a.lp * a.sG * a.spsi * a.X1c *
    (-a.Y20 + a.Y2c) * a.kap + a.Y1s * (4 * a.sG * a.spsi * a.iotaN * a.Z2c + 2 * a.lp * a.sG * a.spsi *
    a.X2s * a.kap + a.lp * a.X1c * a.X1c * a.Y20 * a.kap - a.lp * a.X1c * a.X1c * a.Y2c * a.kap - 2 * a.sG
    * a.spsi * a.dZ2s))))) / (a.lp * a.spsi)

/-- Element 010 of `calculate_grad_grad_B_tensor_alt` (731-780). -/
def alt010 (a : At K) : K :=
  (-2 * a.B0 * (a.iotaN * a.X1c * a.X1c * a.X1c * (a.Y1c * (a.Y20 - a.Y2c) + a.Y1s * (-a.Y2s + a.sG *
    a.spsi * a.kap)) - a.X1c * a.X1c * (a.iotaN * a.X2c * (-a.Y1c * a.Y1c + a.Y1s * a.Y1s) + a.iotaN *
    a.X20 * (a.Y1c * a.Y1c + a.Y1s * a.Y1s) + a.Y1s * (-2 * a.iotaN * a.X2s * a.Y1c + a.lp * (a.Y1c *
    (-a.Y20 + a.Y2c) + a.Y1s * (a.Y2s - a.sG * a.spsi * a.kap)) * a.tor)) + a.sG * a.spsi * (a.X2s * a.Y1s
    * (-2 * a.lp * a.Y1c * a.tor + a.dX1c) + a.X20 * (a.lp * a.Y1c * a.Y1c * a.tor + a.lp * a.Y1s * a.Y1s *
    a.tor - a.Y1c * a.dX1c) + a.X2c * (-(a.lp * a.Y1c * a.Y1c * a.tor) + a.lp * a.Y1s * a.Y1s * a.tor +
    a.Y1c * a.dX1c)) + a.X1c * (3 * a.sG * a.spsi * a.iotaN * a.X2c * a.Y1s + a.lp * a.X2c * a.Y1c * a.Y1c
    * a.Y1s * a.tor - a.lp * a.X2c * a.Y1s * a.Y1s * a.Y1s * a.tor - a.lp * a.sG * a.spsi * a.Y1c * a.Y20 *
    a.tor + a.lp * a.sG * a.spsi * a.Y1c * a.Y2c * a.tor + a.lp * a.sG * a.spsi * a.Y1s * a.Y2s * a.tor -
    a.X20 * a.Y1s * (-(a.sG * a.spsi * a.iotaN) + a.lp * a.Y1c * a.Y1c * a.tor + a.lp * a.Y1s * a.Y1s *
    a.tor) + a.X2s * a.Y1c * (-3 * a.sG * a.spsi * a.iotaN + 2 * a.lp * a.Y1s * a.Y1s * a.tor) + a.sG *
    a.spsi * a.Y1c * a.dX20 - a.sG * a.spsi * a.Y1c * a.dX2c - a.sG * a.spsi * a.Y1s * a.dX2s))) / (a.lp *
    a.spsi)

/-- Element 011 of `calculate_grad_grad_B_tensor_alt` (783-816). -/
def alt011 (a : At K) : K :=
  (2 * a.B0 * (-(a.X1c * a.X1c * (a.Y1c * (a.Y20 - a.Y2c) + a.Y1s * (-a.Y2s + a.sG * a.spsi * a.kap)) *
    (a.iotaN * a.Y1c - a.dY1s)) + a.X2s * (a.iotaN * a.Y1c * a.Y1c * (a.sG * a.spsi - 2 * a.X1c * a.Y1s) -
    a.sG * a.spsi * a.Y1s * (a.iotaN * a.Y1s + a.dY1c) + a.Y1c * (-(a.sG * a.spsi) + 2 * a.X1c * a.Y1s) *
    a.dY1s) + a.sG * a.spsi * (a.X20 * (a.Y1c * a.dY1c + a.Y1s * a.dY1s) + a.X2c * (-(a.Y1c * (2 * a.iotaN
    * a.Y1s + a.dY1c)) + a.Y1s * a.dY1s)) + a.X1c * (-(a.X2c * (a.Y1c * a.Y1c - a.Y1s * a.Y1s) * (a.iotaN *
    a.Y1c - a.dY1s)) + a.X20 * (a.Y1c * a.Y1c + a.Y1s * a.Y1s) * (a.iotaN * a.Y1c - a.dY1s) + a.sG * a.spsi
    * (a.Y1c * (2 * a.iotaN * a.Y2s - a.dY20 + a.dY2c) + a.Y1s * (-2 * a.iotaN * a.Y2c + a.dY2s))))) /
    (a.lp * a.spsi)

/-- Element 012 of `calculate_grad_grad_B_tensor_alt` (819-831). -/
def alt012 (a : At K) : K :=
  (2 * a.X1c * (a.Y1c * (a.G2 + a.I2 * a.iota - 2 * a.lp * a.sG * a.B20 + 2 * a.lp * a.sG * a.B2c + 2 *
    a.B0 * a.sG * a.iotaN * a.Z2s + 2 * a.B0 * a.lp * a.sG * a.X20 * a.kap - 2 * a.B0 * a.lp * a.sG * a.X2c
    * a.kap - a.B0 * a.sG * a.dZ20 + a.B0 * a.sG * a.dZ2c) + a.sG * a.Y1s * (2 * a.lp * a.B2s + a.B0 * (-2
    * a.iotaN * a.Z2c - 2 * a.lp * a.X2s * a.kap + a.dZ2s)))) / (a.lp)

/-- Element 020 of `calculate_grad_grad_B_tensor_alt` (834-858). -/
def alt020 (a : At K) : K :=
  (a.B0 * (-(a.lp * a.sG * a.spsi * a.iotaN * a.Y1c * a.Y1c * a.tor) + a.lp * a.iotaN * a.X1c * a.X1c *
    a.X1c * a.Y1s * a.tor + a.X1c * a.X1c * (a.lp * a.lp * a.Y1s * a.Y1s * a.tor * a.tor + a.iotaN * a.Y1s
    * a.dY1c - a.iotaN * a.Y1c * a.dY1s) + a.sG * a.spsi * a.Y1c * (a.iotaN * a.dX1c + 2 * a.lp * a.tor *
    a.dY1s) + a.X1c * a.Y1s * (2 * a.lp * a.lp * a.sG * a.spsi * a.kap * a.kap - a.lp * a.lp * a.sG *
    a.spsi * a.tor * a.tor - a.iotaN * a.Y1c * a.dX1c + a.lp * a.tor * (a.Y1s * a.dY1c - a.Y1c * a.dY1s)) -
    a.Y1s * (a.Y1s * (a.lp * a.sG * a.spsi * a.iotaN * a.tor + a.dX1c * a.dX1c) + a.sG * a.spsi * (2 * a.lp
    * a.tor * a.dY1c - a.d2X1c)))) / (a.lp * a.lp * a.sG)

/-- Element 021 of `calculate_grad_grad_B_tensor_alt` (861-891). -/
def alt021 (a : At K) : K :=
  (a.B0 * (-(a.iotaN * a.Y1c * a.Y1c * a.Y1s * a.dX1c) + a.lp * a.X1c * a.X1c * a.Y1s * a.tor * (a.iotaN *
    a.Y1c - a.dY1s) + a.X1c * (-(a.iotaN * a.Y1c * a.Y1c * a.dY1s) + a.Y1c * (a.lp * a.sG * a.spsi *
    a.iotaN * a.tor + a.iotaN * a.Y1s * a.dY1c + a.dY1s * a.dY1s) - a.Y1s * (a.lp * a.Y1s * a.tor * a.dX1c
    + a.dY1c * a.dY1s - a.lp * a.sG * a.spsi * a.dtor)) + a.Y1s * (-(a.iotaN * a.Y1s * a.Y1s * a.dX1c) -
    a.Y1s * a.dX1c * a.dY1c + a.sG * a.spsi * (2 * a.lp * a.tor * a.dX1c + a.iotaN * a.dY1s + a.d2Y1c)) +
    a.Y1c * (a.sG * a.spsi * a.iotaN * a.dY1c + a.Y1s * a.dX1c * a.dY1s - a.sG * a.spsi * a.d2Y1s))) /
    (a.lp * a.lp * a.sG)

/-- Element 022 of `calculate_grad_grad_B_tensor_alt` (894-900). -/
def alt022 (a : At K) : K :=
  -((a.B0 * (a.Y1s * a.kap * a.dX1c + a.X1c * (a.iotaN * a.Y1c * a.kap - a.Y1s * a.dkap))) / (a.lp *
    a.spsi))

/-- Element 100 of `calculate_grad_grad_B_tensor_alt` (903-931). -/
def alt100 (a : At K) : K :=
  (-2 * a.B0 * a.X1c * (2 * a.sG * a.spsi * a.iotaN * a.X2c * a.Y1s + a.iotaN * a.X1c * a.X1c * (a.Y1c *
    (a.Y20 - a.Y2c) + a.sG * a.spsi * a.Y1s * a.kap) - a.X20 * a.Y1c * a.Y1s * a.dX1c + a.X2c * a.Y1c *
    a.Y1s * a.dX1c - a.sG * a.spsi * a.Y20 * a.dX1c + a.sG * a.spsi * a.Y2c * a.dX1c + a.X2s * (a.Y1c * (-2
    * a.sG * a.spsi * a.iotaN + a.iotaN * a.X1c * a.Y1s) + a.Y1s * a.Y1s * a.dX1c) + a.X1c * (-(a.iotaN *
    a.X20 * a.Y1c * a.Y1c) + a.iotaN * a.X2c * a.Y1c * a.Y1c - a.sG * a.spsi * a.iotaN * a.Y2s + a.lp *
    a.sG * a.spsi * a.Y1s * a.Y1s * a.kap * a.tor + a.Y1s * a.Y20 * a.dX1c - a.Y1s * a.Y2c * a.dX1c) + a.sG
    * a.spsi * a.Y1c * a.dX20 - a.sG * a.spsi * a.Y1c * a.dX2c - a.sG * a.spsi * a.Y1s * a.dX2s)) / (a.lp *
    a.spsi)

/-- Element 101 of `calculate_grad_grad_B_tensor_alt` (934-993). -/
def alt101 (a : At K) : K :=
  (-2 * a.B0 * a.X1c * (a.iotaN * a.X2s * a.Y1c * a.Y1c * a.Y1s + a.iotaN * a.X2s * a.Y1s * a.Y1s * a.Y1s +
    a.iotaN * a.X1c * a.Y1c * a.Y1c * a.Y20 - a.sG * a.spsi * a.iotaN * a.Y1s * a.Y20 + a.iotaN * a.X1c *
    a.Y1s * a.Y1s * a.Y20 - a.iotaN * a.X1c * a.Y1c * a.Y1c * a.Y2c + 3 * a.sG * a.spsi * a.iotaN * a.Y1s *
    a.Y2c - a.iotaN * a.X1c * a.Y1s * a.Y1s * a.Y2c - 3 * a.sG * a.spsi * a.iotaN * a.Y1c * a.Y2s + a.sG *
    a.spsi * a.iotaN * a.X1c * a.Y1c * a.Y1s * a.kap - a.lp * a.sG * a.spsi * a.X2s * a.Y1s * a.tor + a.lp
    * a.X1c * a.X2s * a.Y1s * a.Y1s * a.tor - a.lp * a.sG * a.spsi * a.X1c * a.Y20 * a.tor + a.lp * a.X1c *
    a.X1c * a.Y1s * a.Y20 * a.tor + a.lp * a.sG * a.spsi * a.X1c * a.Y2c * a.tor - a.lp * a.X1c * a.X1c *
    a.Y1s * a.Y2c * a.tor + a.X2s * a.Y1s * a.Y1s * a.dY1c - a.sG * a.spsi * a.Y20 * a.dY1c + a.X1c * a.Y1s
    * a.Y20 * a.dY1c + a.sG * a.spsi * a.Y2c * a.dY1c - a.X1c * a.Y1s * a.Y2c * a.dY1c - a.X2s * a.Y1c *
    a.Y1s * a.dY1s - a.X1c * a.Y1c * a.Y20 * a.dY1s + a.X1c * a.Y1c * a.Y2c * a.dY1s + a.sG * a.spsi *
    a.Y2s * a.dY1s - a.sG * a.spsi * a.X1c * a.Y1s * a.kap * a.dY1s - a.X20 * a.Y1c * (a.iotaN * a.Y1c *
    a.Y1c + a.iotaN * a.Y1s * a.Y1s - a.lp * a.sG * a.spsi * a.tor + a.Y1s * (a.lp * a.X1c * a.tor +
    a.dY1c) - a.Y1c * a.dY1s) + a.X2c * a.Y1c * (a.iotaN * a.Y1c * a.Y1c + a.iotaN * a.Y1s * a.Y1s - a.lp *
    a.sG * a.spsi * a.tor + a.Y1s * (a.lp * a.X1c * a.tor + a.dY1c) - a.Y1c * a.dY1s) + a.sG * a.spsi *
    a.Y1c * a.dY20 - a.sG * a.spsi * a.Y1c * a.dY2c - a.sG * a.spsi * a.Y1s * a.dY2s)) / (a.lp * a.spsi)

/-- Element 102 of `calculate_grad_grad_B_tensor_alt` (996-1023). -/
def alt102 (a : At K) : K :=
  (2 * a.X1c * (2 * a.lp * a.sG * a.spsi * a.B2s * a.Y1s + a.Y1c * (a.G2 * a.spsi + a.I2 * a.spsi * a.iota
    - 2 * a.lp * a.sG * a.spsi * a.B20 + 2 * a.lp * a.sG * a.spsi * a.B2c + 2 * a.B0 * a.sG * a.spsi *
    a.iotaN * a.Z2s + a.B0 * a.lp * a.sG * a.spsi * a.X20 * a.kap - a.B0 * a.lp * a.sG * a.spsi * a.X2c *
    a.kap + a.B0 * a.lp * a.X1c * a.X20 * a.Y1s * a.kap - a.B0 * a.lp * a.X1c * a.X2c * a.Y1s * a.kap -
    a.B0 * a.sG * a.spsi * a.dZ20 + a.B0 * a.sG * a.spsi * a.dZ2c) - a.B0 * (a.lp * a.X1c * a.X2s * a.Y1s *
    a.Y1s * a.kap + a.lp * a.sG * a.spsi * a.X1c * (-a.Y20 + a.Y2c) * a.kap + a.Y1s * (2 * a.sG * a.spsi *
    a.iotaN * a.Z2c + a.lp * a.sG * a.spsi * a.X2s * a.kap + a.lp * a.X1c * a.X1c * a.Y20 * a.kap - a.lp *
    a.X1c * a.X1c * a.Y2c * a.kap - a.sG * a.spsi * a.dZ2s)))) / (a.lp * a.spsi)

/-- Element 110 of `calculate_grad_grad_B_tensor_alt` (1026-1051). -/
def alt110 (a : At K) : K :=
  (2 * a.B0 * a.X1c * (a.iotaN * a.X1c * a.X1c * a.X1c * (a.Y20 - a.Y2c) + a.X1c * a.X1c * (-(a.iotaN *
    a.X20 * a.Y1c) + a.iotaN * a.X2c * a.Y1c + a.Y1s * (a.iotaN * a.X2s + a.lp * (a.Y20 - a.Y2c) * a.tor))
    - a.sG * a.spsi * (a.lp * a.X2s * a.Y1s * a.tor + a.X2c * (a.lp * a.Y1c * a.tor - a.dX1c) + a.X20 *
    (-(a.lp * a.Y1c * a.tor) + a.dX1c)) + a.X1c * (-(a.lp * a.X20 * a.Y1c * a.Y1s * a.tor) + a.lp * a.X2c *
    a.Y1c * a.Y1s * a.tor - a.lp * a.sG * a.spsi * a.Y20 * a.tor + a.lp * a.sG * a.spsi * a.Y2c * a.tor +
    a.X2s * (-3 * a.sG * a.spsi * a.iotaN + a.lp * a.Y1s * a.Y1s * a.tor) + a.sG * a.spsi * a.dX20 - a.sG *
    a.spsi * a.dX2c))) / (a.lp * a.spsi)

/-- Element 111 of `calculate_grad_grad_B_tensor_alt` (1054-1070). -/
def alt111 (a : At K) : K :=
  (-2 * a.B0 * a.X1c * (a.sG * a.spsi * (a.X20 - a.X2c) * (a.iotaN * a.Y1s + a.dY1c) + a.X2s * (a.sG *
    a.spsi - a.X1c * a.Y1s) * (a.iotaN * a.Y1c - a.dY1s) - a.X1c * a.X1c * (a.Y20 - a.Y2c) * (a.iotaN *
    a.Y1c - a.dY1s) + a.X1c * (a.X20 * a.Y1c * (a.iotaN * a.Y1c - a.dY1s) + a.X2c * a.Y1c * (-(a.iotaN *
    a.Y1c) + a.dY1s) + a.sG * a.spsi * (2 * a.iotaN * a.Y2s - a.dY20 + a.dY2c)))) / (a.lp * a.spsi)

/-- Element 112 of `calculate_grad_grad_B_tensor_alt` (1073-1079). -/
def alt112 (a : At K) : K :=
  (-2 * a.X1c * a.X1c * (a.G2 + a.I2 * a.iota - 2 * a.lp * a.sG * a.B20 + 2 * a.lp * a.sG * a.B2c + 2 *
    a.B0 * a.sG * a.iotaN * a.Z2s + 2 * a.B0 * a.lp * a.sG * a.X20 * a.kap - 2 * a.B0 * a.lp * a.sG * a.X2c
    * a.kap - a.B0 * a.sG * a.dZ20 + a.B0 * a.sG * a.dZ2c)) / (a.lp)

/-- Element 120 of `calculate_grad_grad_B_tensor_alt` (1082-1095). -/
def alt120 (a : At K) : K :=
  (a.B0 * a.X1c * (a.lp * a.iotaN * a.Y1c * (a.sG * a.spsi + a.X1c * a.Y1s) * a.tor + (-(a.sG * a.spsi *
    a.iotaN) + a.lp * a.Y1s * a.Y1s * a.tor) * a.dX1c + a.iotaN * a.X1c * a.X1c * a.dY1s - 2 * a.lp * a.sG
    * a.spsi * a.tor * a.dY1s + a.lp * a.X1c * a.Y1s * a.tor * a.dY1s - a.lp * a.sG * a.spsi * a.Y1s *
    a.dtor)) / (a.lp * a.lp * a.sG)

/-- Element 121 of `calculate_grad_grad_B_tensor_alt` (1098-1113). -/
def alt121 (a : At K) : K :=
  (a.B0 * a.X1c * (a.lp * a.iotaN * a.Y1c * a.Y1c * a.Y1s * a.tor + a.lp * a.iotaN * a.Y1s * a.Y1s * a.Y1s
    * a.tor - a.lp * a.lp * a.sG * a.spsi * a.Y1s * a.tor * a.tor - a.sG * a.spsi * a.iotaN * a.dY1c + a.lp
    * a.Y1s * a.Y1s * a.tor * a.dY1c - a.lp * a.Y1c * a.Y1s * a.tor * a.dY1s + a.X1c * (-(a.lp * a.sG *
    a.spsi * a.iotaN * a.tor) + a.lp * a.lp * a.Y1s * a.Y1s * a.tor * a.tor + (a.iotaN * a.Y1c - a.dY1s) *
    a.dY1s) + a.sG * a.spsi * a.d2Y1s)) / (a.lp * a.lp * a.sG)

/-- Element 122 of `calculate_grad_grad_B_tensor_alt` (1116-1119). -/
def alt122 (a : At K) : K :=
  (a.B0 * a.X1c * a.kap * (a.iotaN * a.X1c + 2 * a.lp * a.Y1s * a.tor)) / (a.lp * a.spsi)

/-- Element 200 of `calculate_grad_grad_B_tensor_alt` (1122-1135). -/
def alt200 (a : At K) : K :=
  (a.B0 * (2 * a.lp * a.lp * a.sG * a.spsi * a.kap * a.kap + a.lp * a.iotaN * a.X1c * a.X1c * a.tor - a.lp
    * a.iotaN * a.Y1c * a.Y1c * a.tor - a.lp * a.iotaN * a.Y1s * a.Y1s * a.tor + a.iotaN * a.Y1c * a.dX1c +
    a.iotaN * a.X1c * a.dY1c - a.lp * a.Y1s * a.tor * a.dY1c + a.lp * a.Y1c * a.tor * a.dY1s + a.dX1c *
    a.dY1s + a.Y1s * a.d2X1c)) / (a.lp * a.lp * a.spsi)

/-- Element 201 of `calculate_grad_grad_B_tensor_alt` (1138-1147). -/
def alt201 (a : At K) : K :=
  (a.B0 * (a.lp * a.X1c * (2 * a.iotaN * a.Y1c * a.tor + a.Y1s * a.dtor) + a.Y1s * (2 * a.lp * a.tor *
    a.dX1c + 2 * a.iotaN * a.dY1s + a.d2Y1c) + a.Y1c * (2 * a.iotaN * a.dY1c - a.d2Y1s))) / (a.lp * a.lp *
    a.spsi)

/-- Element 202 of `calculate_grad_grad_B_tensor_alt` (1150-1155). -/
def alt202 (a : At K) : K :=
  (a.B0 * (-(a.iotaN * a.X1c * a.Y1c * a.kap) - a.Y1s * a.kap * a.dX1c + a.sG * a.spsi * a.dkap)) / (a.lp *
    a.spsi)

/-- Element 210 of `calculate_grad_grad_B_tensor_alt` (1158-1164). -/
def alt210 (a : At K) : K :=
  (a.B0 * a.X1c * (2 * a.lp * a.iotaN * a.Y1c * a.tor - 2 * a.iotaN * a.dX1c - a.lp * (2 * a.tor * a.dY1s +
    a.Y1s * a.dtor))) / (a.lp * a.lp * a.spsi)

/-- Element 211 of `calculate_grad_grad_B_tensor_alt` (1167-1179). -/
def alt211 (a : At K) : K :=
  -((a.B0 * (a.iotaN * a.Y1c * a.dX1c + a.iotaN * a.X1c * a.dY1c - a.dX1c * a.dY1s + a.lp * a.tor *
    (a.iotaN * a.X1c * a.X1c - a.iotaN * a.Y1c * a.Y1c - a.Y1s * (a.iotaN * a.Y1s + a.dY1c) + a.Y1c *
    a.dY1s) - a.X1c * a.d2Y1s)) / (a.lp * a.lp * a.spsi))

/-- Element 212 of `calculate_grad_grad_B_tensor_alt` (1182-1186). -/
def alt212 (a : At K) : K :=
  (a.B0 * a.kap * (a.iotaN * a.X1c * a.X1c + a.lp * a.sG * a.spsi * a.tor + a.lp * a.X1c * a.Y1s * a.tor))
    / (a.lp * a.spsi)

/-- Element 220 of `calculate_grad_grad_B_tensor_alt` (1189-1194). -/
def alt220 (a : At K) : K :=
  (a.B0 * (-(a.iotaN * a.X1c * a.Y1c * a.kap) - a.Y1s * a.kap * a.dX1c + a.sG * a.spsi * a.dkap)) / (a.lp *
    a.spsi)

/-- Element 221 of `calculate_grad_grad_B_tensor_alt` (1197-1204). -/
def alt221 (a : At K) : K :=
  -((a.B0 * a.kap * (a.iotaN * a.Y1c * a.Y1c + a.iotaN * a.Y1s * a.Y1s - a.lp * a.sG * a.spsi * a.tor +
    a.Y1s * (a.lp * a.X1c * a.tor + a.dY1c) - a.Y1c * a.dY1s)) / (a.lp * a.spsi))

/-- Element 222 of `calculate_grad_grad_B_tensor_alt` (1207-1208). -/
def alt222 (a : At K) : K :=
  (-2 * a.B0 * a.kap * a.kap) / a.sG

/-- `calculate_grad_grad_B_tensor_alt`: 537-1211. -/
def alt (a : At K) : Nat → Nat → Nat → K
  | 0, 0, 0 => alt000 a
  | 0, 0, 1 => alt001 a
  | 0, 0, 2 => alt002 a
  | 0, 1, 0 => alt010 a
  | 0, 1, 1 => alt011 a
  | 0, 1, 2 => alt012 a
  | 0, 2, 0 => alt020 a
  | 0, 2, 1 => alt021 a
  | 0, 2, 2 => alt022 a
  | 1, 0, 0 => alt100 a
  | 1, 0, 1 => alt101 a
  | 1, 0, 2 => alt102 a
  | 1, 1, 0 => alt110 a
  | 1, 1, 1 => alt111 a
  | 1, 1, 2 => alt112 a
  | 1, 2, 0 => alt120 a
  | 1, 2, 1 => alt121 a
  | 1, 2, 2 => alt122 a
  | 2, 0, 0 => alt200 a
  | 2, 0, 1 => alt201 a
  | 2, 0, 2 => alt202 a
  | 2, 1, 0 => alt210 a
  | 2, 1, 1 => alt211 a
  | 2, 1, 2 => alt212 a
  | 2, 2, 0 => alt220 a
  | 2, 2, 1 => alt221 a
  | 2, 2, 2 => alt222 a
  | _, _, _ => 0

/-- `L_grad_grad_B` (490-520). -/
def LgradGradB (o : Ops K) (a : At K) : K :=
  let t := main a
  o.sqrt (4 * a.B0 / o.sqrt (t 0 0 0 * t 0 0 0
      + t 0 0 1 * t 0 0 1
      + t 0 0 2 * t 0 0 2
      + t 0 1 0 * t 0 1 0
      + t 0 1 1 * t 0 1 1
      + t 0 1 2 * t 0 1 2
      + t 0 2 0 * t 0 2 0
      + t 0 2 1 * t 0 2 1
      + t 0 2 2 * t 0 2 2
      + t 1 0 0 * t 1 0 0
      + t 1 0 1 * t 1 0 1
      + t 1 0 2 * t 1 0 2
      + t 1 1 0 * t 1 1 0
      + t 1 1 1 * t 1 1 1
      + t 1 1 2 * t 1 1 2
      + t 1 2 0 * t 1 2 0
      + t 1 2 1 * t 1 2 1
      + t 1 2 2 * t 1 2 2
      + t 2 0 0 * t 2 0 0
      + t 2 0 1 * t 2 0 1
      + t 2 0 2 * t 2 0 2
      + t 2 1 0 * t 2 1 0
      + t 2 1 1 * t 2 1 1
      + t 2 1 2 * t 2 1 2
      + t 2 2 0 * t 2 2 0
      + t 2 2 1 * t 2 2 1
      + t 2 2 2 * t 2 2 2))

/-- `L_grad_grad_B_inverse` (521). -/
def LgradGradBInverse (o : Ops K) (a : At K) : K := 1 / LgradGradB o a

/-- `grid_min_L_grad_grad_B` (522). -/
def minLgradGradB (o : Ops K) (i : R2.In K) (r : R2.R2 K) : K :=
  vmin o i.cfg.nphi fun j => LgradGradB o (At.of i r j)

end

end Qsc.GradGradB
