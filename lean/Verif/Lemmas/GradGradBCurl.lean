import Verif.Lemmas.GradGradBDiv

/-!
# The antisymmetric part of the grad grad B tensor
-/

namespace Qsc.GradGradB

/-- The relations of the covariant representation of the field: the sigma equation and its derivative, the
tangential coefficients and their derivatives, the field strength and the two solvability conditions. -/
structure Covariant (a : At ℝ) (eta z20 beta p : ℝ) : Prop where
  sigma : a.Y1s * a.dY1c - a.Y1c * a.dY1s + a.iotaN * (a.X1c ^ 2 + a.Y1s ^ 2 + a.Y1c ^ 2) +
    2 * a.lp * (a.tor - a.I2 / (a.spsi * a.B0)) * (a.X1c * a.Y1s) = 0
  dsigma : a.Y1s * a.d2Y1c - a.Y1c * a.d2Y1s + 2 * a.iotaN * (a.X1c * a.dX1c + a.Y1s * a.dY1s + a.Y1c * a.dY1c) +
    2 * a.lp * a.dtor * (a.X1c * a.Y1s) = 0
  z20 : 4 * a.lp * z20 = -(a.X1c * a.dX1c + a.Y1c * a.dY1c + a.Y1s * a.dY1s)
  z2s : 4 * a.lp * a.Z2s = -(a.Y1s * a.dY1c + a.Y1c * a.dY1s - a.iotaN * (a.X1c ^ 2 + a.Y1c ^ 2 - a.Y1s ^ 2))
  z2c : 4 * a.lp * a.Z2c = -(a.X1c * a.dX1c + a.Y1c * a.dY1c - a.Y1s * a.dY1s + 2 * a.iotaN * a.Y1s * a.Y1c)
  dz20 : 4 * a.lp * a.dZ20 = -(a.dX1c ^ 2 + a.X1c * a.d2X1c + a.dY1c ^ 2 + a.Y1c * a.d2Y1c + a.dY1s ^ 2 +
    a.Y1s * a.d2Y1s)
  dz2s : 4 * a.lp * a.dZ2s = -(2 * a.dY1s * a.dY1c + a.Y1s * a.d2Y1c + a.Y1c * a.d2Y1s -
    2 * a.iotaN * (a.X1c * a.dX1c + a.Y1c * a.dY1c - a.Y1s * a.dY1s))
  dz2c : 4 * a.lp * a.dZ2c = -(a.dX1c ^ 2 + a.X1c * a.d2X1c + a.dY1c ^ 2 + a.Y1c * a.d2Y1c - a.dY1s ^ 2 -
    a.Y1s * a.d2Y1s + 2 * a.iotaN * (a.dY1s * a.Y1c + a.Y1s * a.dY1c))
  pressure : a.G2 + a.iota * a.I2 = -p * a.G0 / a.B0 ^ 2
  b20 : a.B20 = a.B0 * (a.kap * a.X20 - a.dZ20 / a.lp + eta ^ 2 / 2 - p / a.B0 ^ 2 -
    ((a.dX1c - a.lp * a.tor * a.Y1c) ^ 2 + (-a.iotaN * a.X1c - a.lp * a.tor * a.Y1s) ^ 2 +
      (a.dY1c + a.iotaN * a.Y1s + a.lp * a.tor * a.X1c) ^ 2 + (a.dY1s - a.iotaN * a.Y1c) ^ 2) / (4 * a.lp ^ 2))
  x2s : a.kap * a.X2s = (a.dZ2s - 2 * a.iotaN * a.Z2c) / a.lp + a.B2s / a.B0 +
    ((a.dX1c - a.lp * a.tor * a.Y1c) * (-a.iotaN * a.X1c - a.lp * a.tor * a.Y1s) +
      (a.dY1c + a.iotaN * a.Y1s + a.lp * a.tor * a.X1c) * (a.dY1s - a.iotaN * a.Y1c)) / (2 * a.lp ^ 2)
  x2c : a.kap * a.X2c = (a.dZ2c + 2 * a.iotaN * a.Z2s) / a.lp + a.B2c / a.B0 - eta ^ 2 / 2 +
    ((a.dX1c - a.lp * a.tor * a.Y1c) ^ 2 - (-a.iotaN * a.X1c - a.lp * a.tor * a.Y1s) ^ 2 +
      (a.dY1c + a.iotaN * a.Y1s + a.lp * a.tor * a.X1c) ^ 2 - (a.dY1s - a.iotaN * a.Y1c) ^ 2) / (4 * a.lp ^ 2)

section
variable {a : At ℝ} {eta z20 beta p : ℝ}

theorem Covariant.dY1c (v : Covariant a eta z20 beta p) (h : First a eta) : a.dY1c =
    (a.Y1c * a.dY1s - a.iotaN * (a.X1c ^ 2 + a.Y1s ^ 2 + a.Y1c ^ 2) -
    2 * a.lp * (a.tor - a.I2 / (a.spsi * a.B0)) * (a.X1c * a.Y1s)) * a.X1c * (a.sG * a.spsi) := by
  have h1 := v.sigma
  have h2 := h.area
  have h3 : (a.sG * a.spsi) ^ 2 = 1 := by
    rcases h.sG with g | g <;> rcases h.spsi with g' | g' <;> rw [g, g'] <;> norm_num
  linear_combination a.X1c * (a.sG * a.spsi) * h1 - (a.dY1c * (a.sG * a.spsi)) * h2 - a.dY1c * h3

theorem Covariant.d2Y1c (v : Covariant a eta z20 beta p) (h : First a eta) : a.d2Y1c =
    (a.Y1c * a.d2Y1s - 2 * a.iotaN * (a.X1c * a.dX1c + a.Y1s * a.dY1s + a.Y1c * a.dY1c) -
    2 * a.lp * a.dtor * (a.X1c * a.Y1s)) * a.X1c * (a.sG * a.spsi) := by
  have h1 := v.dsigma
  have h2 := h.area
  have h3 : (a.sG * a.spsi) ^ 2 = 1 := by
    rcases h.sG with g | g <;> rcases h.spsi with g' | g' <;> rw [g, g'] <;> norm_num
  linear_combination a.X1c * (a.sG * a.spsi) * h1 - (a.d2Y1c * (a.sG * a.spsi)) * h2 - a.d2Y1c * h3

theorem Covariant.Z2s' (v : Covariant a eta z20 beta p) (h : First a eta) : a.Z2s =
    -(a.Y1s * a.dY1c + a.Y1c * a.dY1s - a.iotaN * (a.X1c ^ 2 + a.Y1c ^ 2 - a.Y1s ^ 2)) / (4 * a.lp) := by
  have := h.lp
  rw [eq_div_iff (mul_ne_zero four_ne_zero this)]; linear_combination v.z2s
theorem Covariant.Z2c' (v : Covariant a eta z20 beta p) (h : First a eta) : a.Z2c =
    -(a.X1c * a.dX1c + a.Y1c * a.dY1c - a.Y1s * a.dY1s + 2 * a.iotaN * a.Y1s * a.Y1c) / (4 * a.lp) := by
  have := h.lp
  rw [eq_div_iff (mul_ne_zero four_ne_zero this)]; linear_combination v.z2c
theorem Covariant.dZ20' (v : Covariant a eta z20 beta p) (h : First a eta) : a.dZ20 =
    -(a.dX1c ^ 2 + a.X1c * a.d2X1c + a.dY1c ^ 2 + a.Y1c * a.d2Y1c + a.dY1s ^ 2 +
    a.Y1s * a.d2Y1s) / (4 * a.lp) := by
  have := h.lp
  rw [eq_div_iff (mul_ne_zero four_ne_zero this)]; linear_combination v.dz20
theorem Covariant.dZ2s' (v : Covariant a eta z20 beta p) (h : First a eta) : a.dZ2s =
    -(2 * a.dY1s * a.dY1c + a.Y1s * a.d2Y1c + a.Y1c * a.d2Y1s -
    2 * a.iotaN * (a.X1c * a.dX1c + a.Y1c * a.dY1c - a.Y1s * a.dY1s)) / (4 * a.lp) := by
  have := h.lp
  rw [eq_div_iff (mul_ne_zero four_ne_zero this)]; linear_combination v.dz2s
theorem Covariant.dZ2c' (v : Covariant a eta z20 beta p) (h : First a eta) : a.dZ2c =
    -(a.dX1c ^ 2 + a.X1c * a.d2X1c + a.dY1c ^ 2 + a.Y1c * a.d2Y1c - a.dY1s ^ 2 -
    a.Y1s * a.d2Y1s + 2 * a.iotaN * (a.dY1s * a.Y1c + a.Y1s * a.dY1c)) / (4 * a.lp) := by
  have := h.lp
  rw [eq_div_iff (mul_ne_zero four_ne_zero this)]; linear_combination v.dz2c
theorem Covariant.B2s' (v : Covariant a eta z20 beta p) (h : First a eta) : a.B2s = a.B0 *
    (a.kap * a.X2s - (a.dZ2s - 2 * a.iotaN * a.Z2c) / a.lp -
    ((a.dX1c - a.lp * a.tor * a.Y1c) * (-a.iotaN * a.X1c - a.lp * a.tor * a.Y1s) +
      (a.dY1c + a.iotaN * a.Y1s + a.lp * a.tor * a.X1c) * (a.dY1s - a.iotaN * a.Y1c)) / (2 * a.lp ^ 2)) := by
  rw [v.x2s]
  have := h.B0
  field_simp
  ring
theorem Covariant.B2c' (v : Covariant a eta z20 beta p) (h : First a eta) : a.B2c = a.B0 *
    (a.kap * a.X2c - (a.dZ2c + 2 * a.iotaN * a.Z2s) / a.lp + eta ^ 2 / 2 -
    ((a.dX1c - a.lp * a.tor * a.Y1c) ^ 2 - (-a.iotaN * a.X1c - a.lp * a.tor * a.Y1s) ^ 2 +
      (a.dY1c + a.iotaN * a.Y1s + a.lp * a.tor * a.X1c) ^ 2 - (a.dY1s - a.iotaN * a.Y1c) ^ 2) / (4 * a.lp ^ 2)) := by
  rw [v.x2c]
  have := h.B0
  field_simp
  ring
theorem Covariant.G2' (v : Covariant a eta z20 beta p) :
    a.G2 = -p * a.G0 / a.B0 ^ 2 - a.iota * a.I2 := by linear_combination v.pressure

/-- Derivatives of `G` and `I` in the flux, and the factor `B0^2 / G0`. -/
noncomputable def gPrime (a : At ℝ) : ℝ := 2 * (a.G2 + (a.iota - a.iotaN) * a.I2) / (a.spsi * a.B0)
noncomputable def iPrime (a : At ℝ) : ℝ := 2 * a.I2 / (a.spsi * a.B0)
noncomputable def fac (a : At ℝ) : ℝ := a.B0 ^ 2 / a.G0

theorem curl10 (h : First a eta) (q : Second a) (s : Smooth a) (w : SecondRule a) (v : Covariant a eta z20 beta p) :
    (alt112 a - alt121 a) * a.Y1s = fac a * (gPrime a * a.X1c - iPrime a * (a.lp * a.tor * a.Y1s)) := by
  simp only [alt112, alt121, v.b20, v.B2s' h, v.B2c' h, v.dZ20' h, v.dZ2s' h, v.dZ2c' h, v.Z2s' h, v.Z2c' h, v.G2', v.d2Y1c h, v.dY1c h, w.dkap h,
    q.Y2s h, q.Y2c h, s.d2Y1s h, s.dY1s h, h.G0, h.Y1s, h.kap', gPrime, iPrime, fac]
  have := h.X1c
  have := h.lp
  have := h.B0
  rcases h.sG with g | g <;> rcases h.spsi with g' | g' <;> simp only [g, g'] <;> field_simp <;> ring

theorem curl00 (h : First a eta) (q : Second a) (s : Smooth a) (w : SecondRule a) (v : Covariant a eta z20 beta p) :
    (alt012 a - alt021 a) * a.X1c + (alt112 a - alt121 a) * a.Y1c =
      fac a * (iPrime a * (a.dX1c - a.lp * a.tor * a.Y1c)) := by
  simp only [alt012, alt021, alt112, alt121, v.b20, v.B2s' h, v.B2c' h, v.dZ20' h, v.dZ2s' h, v.dZ2c' h, v.Z2s' h, v.Z2c' h, v.G2', v.d2Y1c h, v.dY1c h, w.dkap h,
    q.Y2s h, q.Y2c h, s.d2Y1s h, s.dY1s h, h.G0, h.Y1s, h.kap', gPrime, iPrime, fac]
  have := h.X1c
  have := h.lp
  have := h.B0
  rcases h.sG with g | g <;> rcases h.spsi with g' | g' <;> simp only [g, g'] <;> field_simp <;> ring

theorem curl11 (h : First a eta) (q : Second a) (s : Smooth a) (w : SecondRule a) (v : Covariant a eta z20 beta p) :
    (alt120 a - alt102 a) * a.Y1s = fac a * (gPrime a * a.Y1c + iPrime a * a.dY1s) := by
  simp only [alt120, alt102, v.b20, v.B2s' h, v.B2c' h, v.dZ20' h, v.dZ2s' h, v.dZ2c' h, v.Z2s' h, v.Z2c' h, v.G2', v.d2Y1c h, v.dY1c h, w.dkap h,
    q.Y2s h, q.Y2c h, s.d2Y1s h, s.dY1s h, h.G0, h.Y1s, h.kap', gPrime, iPrime, fac]
  have := h.X1c
  have := h.lp
  have := h.B0
  rcases h.sG with g | g <;> rcases h.spsi with g' | g' <;> simp only [g, g'] <;> field_simp <;> ring

set_option maxHeartbeats 1000000 in
theorem curl01 (h : First a eta) (q : Second a) (s : Smooth a) (w : SecondRule a) (v : Covariant a eta z20 beta p) :
    (alt020 a - alt002 a) * a.X1c + (alt120 a - alt102 a) * a.Y1c =
      fac a * (-gPrime a * a.Y1s + iPrime a * (a.dY1c + a.lp * a.tor * a.X1c)) := by
  simp only [alt020, alt002, alt120, alt102, v.b20, v.B2s' h, v.B2c' h, v.dZ20' h, v.dZ2s' h, v.dZ2c' h, v.Z2s' h, v.Z2c' h, v.G2', v.d2Y1c h, v.dY1c h, w.dkap h,
    q.Y2s h, q.Y2c h, s.d2Y1s h, s.dY1s h, h.G0, h.Y1s, h.kap', gPrime, iPrime, fac]
  have := h.X1c
  have := h.lp
  have := h.B0
  rcases h.sG with g | g <;> rcases h.spsi with g' | g' <;> simp only [g, g'] <;> field_simp <;> ring

theorem curl20 (h : First a eta) (q : Second a) (s : Smooth a) (w : SecondRule a) (v : Covariant a eta z20 beta p) :
    alt212 a - alt221 a = 2 * a.sG * a.spsi * a.I2 * a.kap := by
  simp only [alt212, alt221, v.b20, v.B2s' h, v.B2c' h, v.dZ20' h, v.dZ2s' h, v.dZ2c' h, v.Z2s' h, v.Z2c' h, v.G2', v.d2Y1c h, v.dY1c h, w.dkap h,
    q.Y2s h, q.Y2c h, s.d2Y1s h, s.dY1s h, h.G0, h.Y1s, h.kap', gPrime, iPrime, fac]
  have := h.X1c
  have := h.lp
  have := h.B0
  rcases h.sG with g | g <;> rcases h.spsi with g' | g' <;> simp only [g, g'] <;> field_simp <;> ring

theorem curl21 (h : First a eta) (q : Second a) (s : Smooth a) (w : SecondRule a) (v : Covariant a eta z20 beta p) :
    alt220 a - alt202 a = 0 := by
  simp only [alt220, alt202, v.b20, v.B2s' h, v.B2c' h, v.dZ20' h, v.dZ2s' h, v.dZ2c' h, v.Z2s' h, v.Z2c' h, v.G2', v.d2Y1c h, v.dY1c h, w.dkap h,
    q.Y2s h, q.Y2c h, s.d2Y1s h, s.dY1s h, h.G0, h.Y1s, h.kap', gPrime, iPrime, fac]
  have := h.X1c
  have := h.lp
  have := h.B0
  rcases h.sG with g | g <;> rcases h.spsi with g' | g' <;> simp only [g, g'] <;> field_simp <;> ring

theorem curl22 (h : First a eta) (q : Second a) (s : Smooth a) (w : SecondRule a) (v : Covariant a eta z20 beta p) :
    alt201 a - alt210 a = 0 := by
  simp only [alt201, alt210, v.b20, v.B2s' h, v.B2c' h, v.dZ20' h, v.dZ2s' h, v.dZ2c' h, v.Z2s' h, v.Z2c' h, v.G2', v.d2Y1c h, v.dY1c h, w.dkap h,
    q.Y2s h, q.Y2c h, s.d2Y1s h, s.dY1s h, h.G0, h.Y1s, h.kap', gPrime, iPrime, fac]
  have := h.X1c
  have := h.lp
  have := h.B0
  rcases h.sG with g | g <;> rcases h.spsi with g' | g' <;> simp only [g, g'] <;> field_simp <;> ring

/-! ## The tangential component -/

/-- The two solvability conditions. -/
structure Solv (a : At ℝ) (z20 beta : ℝ) : Prop where
  one : ∀ fXs fY0 fYs fYc : ℝ,
    fXs = a.dX2s - 2 * a.iotaN * a.X2c - a.tor * a.lp * a.Y2s + a.kap * a.lp * a.Z2s -
      4 * (a.G0 / (a.spsi * a.B0)) * (a.Y2c * z20 - a.Y20 * a.Z2c) -
      a.I2 / (a.spsi * a.B0) * a.lp * (a.kap * a.X1c * a.Y1s / 2 - 2 * a.Y2s) - a.lp * beta * a.Y1s / 2 →
    fY0 = a.dY20 + a.tor * a.lp * a.X20 - 4 * (a.G0 / (a.spsi * a.B0)) * (a.X2s * a.Z2c - a.X2c * a.Z2s) -
      a.I2 / (a.spsi * a.B0) * a.lp * (2 * a.X20 - a.kap * a.X1c ^ 2 / 2) - a.lp * beta * a.X1c / 2 →
    fYs = a.dY2s - 2 * a.iotaN * a.Y2c + a.tor * a.lp * a.X2s -
      4 * (a.G0 / (a.spsi * a.B0)) * (a.X20 * a.Z2c - a.X2c * z20) -
      a.I2 / (a.spsi * a.B0) * a.lp * (2 * a.X2s) →
    fYc = a.dY2c + 2 * a.iotaN * a.Y2s + a.tor * a.lp * a.X2c -
      4 * (a.G0 / (a.spsi * a.B0)) * (a.X2s * z20 - a.X20 * a.Z2s) -
      a.I2 / (a.spsi * a.B0) * a.lp * (2 * a.X2c - a.kap * a.X1c ^ 2 / 2) + a.lp * beta * a.X1c / 2 →
    a.X1c * fXs - a.Y1s * fY0 + a.Y1c * fYs - a.Y1s * fYc = 0
  two : ∀ fX0 fXc fY0 fYs fYc : ℝ,
    fX0 = a.dX20 - a.tor * a.lp * a.Y20 + a.kap * a.lp * z20 -
      4 * (a.G0 / (a.spsi * a.B0)) * (a.Y2c * a.Z2s - a.Y2s * a.Z2c) -
      a.I2 / (a.spsi * a.B0) * a.lp * (a.kap * a.X1c * a.Y1c / 2 - 2 * a.Y20) + a.lp * beta * a.Y1c / 2 →
    fXc = a.dX2c + 2 * a.iotaN * a.X2s - a.tor * a.lp * a.Y2c + a.kap * a.lp * a.Z2c -
      4 * (a.G0 / (a.spsi * a.B0)) * (a.Y20 * a.Z2s - a.Y2s * z20) -
      a.I2 / (a.spsi * a.B0) * a.lp * (a.kap * a.X1c * a.Y1c / 2 - 2 * a.Y2c) - a.lp * beta * a.Y1c / 2 →
    fY0 = a.dY20 + a.tor * a.lp * a.X20 - 4 * (a.G0 / (a.spsi * a.B0)) * (a.X2s * a.Z2c - a.X2c * a.Z2s) -
      a.I2 / (a.spsi * a.B0) * a.lp * (2 * a.X20 - a.kap * a.X1c ^ 2 / 2) - a.lp * beta * a.X1c / 2 →
    fYs = a.dY2s - 2 * a.iotaN * a.Y2c + a.tor * a.lp * a.X2s -
      4 * (a.G0 / (a.spsi * a.B0)) * (a.X20 * a.Z2c - a.X2c * z20) -
      a.I2 / (a.spsi * a.B0) * a.lp * (2 * a.X2s) →
    fYc = a.dY2c + 2 * a.iotaN * a.Y2s + a.tor * a.lp * a.X2c -
      4 * (a.G0 / (a.spsi * a.B0)) * (a.X2s * z20 - a.X20 * a.Z2s) -
      a.I2 / (a.spsi * a.B0) * a.lp * (2 * a.X2c - a.kap * a.X1c ^ 2 / 2) + a.lp * beta * a.X1c / 2 →
    -a.X1c * fX0 + a.X1c * fXc - a.Y1c * fY0 + a.Y1s * fYs + a.Y1c * fYc = 0

theorem comb {x y : ℝ} (hx : x = 0) (hy : y = 0) (c d : ℝ) : c * x + d * y = 0 := by rw [hx, hy]; ring

theorem Covariant.z20' (v : Covariant a eta z20 beta p) (h : First a eta) : z20 =
    -(a.X1c * a.dX1c + a.Y1c * a.dY1c + a.Y1s * a.dY1s) / (4 * a.lp) := by
  have := h.lp
  rw [eq_div_iff (mul_ne_zero four_ne_zero this)]; linear_combination v.z20

set_option maxHeartbeats 1000000 in
theorem curl12 (h : First a eta) (q : Second a) (s : Smooth a) (w : SecondRule a) (v : Covariant a eta z20 beta p)
    (t : Solv a z20 beta) : alt101 a - alt110 a = 0 := by
  have e1 := t.one _ _ _ _ rfl rfl rfl rfl
  have e2 := t.two _ _ _ _ _ rfl rfl rfl rfl rfl
  have := h.X1c
  have := h.lp
  have := h.B0
  refine sub_eq_zero.1 ?_
  refine Eq.trans ?_ (mul_eq_zero_of_right (2 * a.X1c * (a.sG * a.B0 / a.lp)) e2)
  simp only [alt101, alt110, v.z20' h, v.Z2s' h, v.Z2c' h, v.dY1c h, w.dY2s s.toSmooth1 h, w.dY2c h,
    q.Y2s h, q.Y2c h, s.dY1s h, h.G0, h.Y1s, h.kap', iPrime, fac]
  rcases h.sG with g | g <;> rcases h.spsi with g' | g' <;> simp only [g, g'] <;> field_simp <;> ring

set_option maxHeartbeats 2000000 in
theorem curl02 (h : First a eta) (q : Second a) (s : Smooth a) (w : SecondRule a) (v : Covariant a eta z20 beta p)
    (t : Solv a z20 beta) : alt001 a - alt010 a =
      fac a * (-(a.lp * a.kap * iPrime a) - beta * a.lp / a.X1c + 2 * eta * a.lp * iPrime a / a.X1c) := by
  have e1 := t.one _ _ _ _ rfl rfl rfl rfl
  have e2 := t.two _ _ _ _ _ rfl rfl rfl rfl rfl
  have := h.X1c
  have := h.lp
  have := h.B0
  refine sub_eq_zero.1 ?_
  refine Eq.trans ?_ (comb e1 e2 (-2 * a.Y1s * (a.sG * a.B0 / a.lp)) (-2 * a.Y1c * (a.sG * a.B0 / a.lp)))
  simp only [alt001, alt010, v.z20' h, v.Z2s' h, v.Z2c' h, v.dY1c h, w.dY2s s.toSmooth1 h, w.dY2c h,
    q.Y2s h, q.Y2c h, s.dY1s h, h.G0, h.Y1s, h.kap', iPrime, fac]
  rcases h.sG with g | g <;> rcases h.spsi with g' | g' <;> simp only [g, g'] <;> field_simp <;> ring

end

end Qsc.GradGradB
