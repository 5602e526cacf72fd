import Verif.Model.GradGradB
import Mathlib.Data.Real.Basic
import Mathlib.Tactic.Ring
import Mathlib.Tactic.FieldSimp
import Mathlib.Tactic.LinearCombination

/-!
# Identities between the elements of the grad grad B tensor
-/

namespace Qsc.GradGradB

/-- What the first-order calculation provides at a grid point. -/
structure First (a : At ℝ) (eta : ℝ) : Prop where
  sG : a.sG = 1 ∨ a.sG = -1
  spsi : a.spsi = 1 ∨ a.spsi = -1
  lp : a.lp ≠ 0
  B0 : a.B0 ≠ 0
  G0 : a.G0 = a.sG * a.lp * a.B0
  area : a.X1c * a.Y1s = a.sG * a.spsi
  kap : a.kap * a.X1c = eta

/-- The product rule for the area, once and twice. -/
structure Smooth1 (a : At ℝ) : Prop where
  one : a.dX1c * a.Y1s + a.X1c * a.dY1s = 0

structure Smooth (a : At ℝ) : Prop extends Smooth1 a where
  two : a.d2X1c * a.Y1s + 2 * (a.dX1c * a.dY1s) + a.X1c * a.d2Y1s = 0

/-- The two relations that the second-order calculation imposes on `Y2c` and `Y2s`. -/
structure Second (a : At ℝ) : Prop where
  cos : -a.X1c * a.Y2c + a.X1c * a.Y20 + a.X2s * a.Y1s + a.X2c * a.Y1c - a.X20 * a.Y1c = 0
  sin : a.X1c * a.Y2s + a.X2c * a.Y1s - a.X2s * a.Y1c + a.X20 * a.Y1s +
    a.X1c * a.Y1s * (a.kap * a.X1c) / 2 = 0

section
variable {a : At ℝ} {eta : ℝ}

theorem First.s_ne (h : First a eta) : a.sG * a.spsi ≠ 0 := by
  rcases h.sG with g | g <;> rcases h.spsi with g' | g' <;> rw [g, g'] <;> norm_num

theorem First.X1c (h : First a eta) : a.X1c ≠ 0 := by
  intro h0
  have := h.area
  rw [h0, zero_mul] at this
  exact h.s_ne this.symm

theorem First.Y1s (h : First a eta) : a.Y1s = a.sG * a.spsi / a.X1c := by
  rw [eq_div_iff h.X1c, mul_comm]; exact h.area

theorem First.kap' (h : First a eta) : a.kap = eta / a.X1c := by
  rw [eq_div_iff h.X1c]; exact h.kap

theorem Smooth1.dY1s (s : Smooth1 a) (h : First a eta) : a.dY1s = -(a.sG * a.spsi * a.dX1c) / a.X1c ^ 2 := by
  have := h.X1c
  have h1 := s.one
  rw [h.Y1s] at h1
  rw [eq_div_iff (pow_ne_zero 2 this)]
  field_simp at h1
  linear_combination h1

theorem Smooth.d2Y1s (s : Smooth a) (h : First a eta) :
    a.d2Y1s = -(a.sG * a.spsi * a.d2X1c) / a.X1c ^ 2 + 2 * a.sG * a.spsi * a.dX1c ^ 2 / a.X1c ^ 3 := by
  have := h.X1c
  have h1 := s.two
  rw [h.Y1s, s.dY1s h] at h1
  field_simp at h1 ⊢
  linear_combination h1

theorem Second.Y2c (q : Second a) (h : First a eta) :
    a.Y2c = a.Y20 + (a.X2s * (a.sG * a.spsi / a.X1c) + (a.X2c - a.X20) * a.Y1c) / a.X1c := by
  have := h.X1c
  have h1 := q.cos
  rw [h.Y1s] at h1
  field_simp at h1 ⊢
  linear_combination -h1

theorem Second.Y2s (q : Second a) (h : First a eta) :
    a.Y2s = -((a.X2c + a.X20) * (a.sG * a.spsi / a.X1c) - a.X2s * a.Y1c + a.sG * a.spsi * eta / 2) / a.X1c := by
  have := h.X1c
  have h1 := q.sin
  rw [h.Y1s, h.kap'] at h1
  field_simp at h1 ⊢
  linear_combination h1

/-! ## The two calculations agree -/

/-! ## The two calculations agree -/

/-! ## The two calculations agree -/

/-! ## The two calculations agree -/

theorem same000 (h : First a eta) (q : Second a) (s : Smooth1 a) : main000 a = alt000 a := by
  simp only [main000, alt000, h.Y1s, h.kap', h.G0, q.Y2s h, q.Y2c h, s.dY1s h]
  have := h.X1c
  have := h.lp
  have := h.B0
  rcases h.sG with g | g <;> rcases h.spsi with g' | g' <;> simp only [g, g'] <;> field_simp <;> ring

theorem same001 (h : First a eta) (q : Second a) (s : Smooth1 a) : main001 a = alt001 a := by
  simp only [main001, alt001, h.Y1s, h.kap', h.G0, q.Y2s h, q.Y2c h, s.dY1s h]
  have := h.X1c
  have := h.lp
  have := h.B0
  rcases h.sG with g | g <;> rcases h.spsi with g' | g' <;> simp only [g, g'] <;> field_simp <;> ring

theorem same002 (h : First a eta) (q : Second a) (s : Smooth1 a) : main002 a = alt002 a := by
  simp only [main002, alt002, h.Y1s, h.kap', h.G0, q.Y2s h, q.Y2c h, s.dY1s h]
  have := h.X1c
  have := h.lp
  have := h.B0
  rcases h.sG with g | g <;> rcases h.spsi with g' | g' <;> simp only [g, g'] <;> field_simp <;> ring

theorem same010 (h : First a eta) (q : Second a) (s : Smooth1 a) : main010 a = alt010 a := by
  simp only [main010, alt010, h.Y1s, h.kap', h.G0, q.Y2s h, q.Y2c h, s.dY1s h]
  have := h.X1c
  have := h.lp
  have := h.B0
  rcases h.sG with g | g <;> rcases h.spsi with g' | g' <;> simp only [g, g'] <;> field_simp <;> ring

theorem same011 (h : First a eta) (q : Second a) (s : Smooth1 a) : main011 a = alt011 a := by
  simp only [main011, alt011, h.Y1s, h.kap', h.G0, q.Y2s h, q.Y2c h, s.dY1s h]
  have := h.X1c
  have := h.lp
  have := h.B0
  rcases h.sG with g | g <;> rcases h.spsi with g' | g' <;> simp only [g, g'] <;> field_simp <;> ring

theorem same012 (h : First a eta) (q : Second a) (s : Smooth1 a) : main012 a = alt012 a := by
  simp only [main012, alt012, h.Y1s, h.kap', h.G0, q.Y2s h, q.Y2c h, s.dY1s h]
  have := h.X1c
  have := h.lp
  have := h.B0
  rcases h.sG with g | g <;> rcases h.spsi with g' | g' <;> simp only [g, g'] <;> field_simp <;> ring

theorem same020 (h : First a eta) (q : Second a) (s : Smooth1 a) : main020 a = alt020 a := by
  simp only [main020, alt020, h.Y1s, h.kap', h.G0, q.Y2s h, q.Y2c h, s.dY1s h]
  have := h.X1c
  have := h.lp
  have := h.B0
  rcases h.sG with g | g <;> rcases h.spsi with g' | g' <;> simp only [g, g'] <;> field_simp <;> ring

theorem same021 (h : First a eta) (q : Second a) (s : Smooth a) : main021 a = alt021 a := by
  simp only [main021, alt021, h.Y1s, h.kap', h.G0, q.Y2s h, q.Y2c h, s.dY1s h, s.d2Y1s h]
  have := h.X1c
  have := h.lp
  have := h.B0
  rcases h.sG with g | g <;> rcases h.spsi with g' | g' <;> simp only [g, g'] <;> field_simp <;> ring

theorem same022 (h : First a eta) (q : Second a) (s : Smooth1 a) : main022 a = alt022 a := by
  simp only [main022, alt022, h.Y1s, h.kap', h.G0, q.Y2s h, q.Y2c h, s.dY1s h]
  have := h.X1c
  have := h.lp
  have := h.B0
  rcases h.sG with g | g <;> rcases h.spsi with g' | g' <;> simp only [g, g'] <;> field_simp <;> ring

theorem same100 (h : First a eta) (q : Second a) (s : Smooth1 a) : main100 a = alt100 a := by
  simp only [main100, alt100, h.Y1s, h.kap', h.G0, q.Y2s h, q.Y2c h, s.dY1s h]
  have := h.X1c
  have := h.lp
  have := h.B0
  rcases h.sG with g | g <;> rcases h.spsi with g' | g' <;> simp only [g, g'] <;> field_simp <;> ring

theorem same101 (h : First a eta) (q : Second a) (s : Smooth1 a) : main101 a = alt101 a := by
  simp only [main101, alt101, h.Y1s, h.kap', h.G0, q.Y2s h, q.Y2c h, s.dY1s h]
  have := h.X1c
  have := h.lp
  have := h.B0
  rcases h.sG with g | g <;> rcases h.spsi with g' | g' <;> simp only [g, g'] <;> field_simp <;> ring

theorem same102 (h : First a eta) (q : Second a) (s : Smooth1 a) : main102 a = alt102 a := by
  simp only [main102, alt102, h.Y1s, h.kap', h.G0, q.Y2s h, q.Y2c h, s.dY1s h]
  have := h.X1c
  have := h.lp
  have := h.B0
  rcases h.sG with g | g <;> rcases h.spsi with g' | g' <;> simp only [g, g'] <;> field_simp <;> ring

theorem same110 (h : First a eta) (q : Second a) (s : Smooth1 a) : main110 a = alt110 a := by
  simp only [main110, alt110, h.Y1s, h.kap', h.G0, q.Y2s h, q.Y2c h, s.dY1s h]
  have := h.X1c
  have := h.lp
  have := h.B0
  rcases h.sG with g | g <;> rcases h.spsi with g' | g' <;> simp only [g, g'] <;> field_simp <;> ring

theorem same111 (h : First a eta) (q : Second a) (s : Smooth1 a) : main111 a = alt111 a := by
  simp only [main111, alt111, h.Y1s, h.kap', h.G0, q.Y2s h, q.Y2c h, s.dY1s h]
  have := h.X1c
  have := h.lp
  have := h.B0
  rcases h.sG with g | g <;> rcases h.spsi with g' | g' <;> simp only [g, g'] <;> field_simp <;> ring

theorem same112 (h : First a eta) (q : Second a) (s : Smooth1 a) : main112 a = alt112 a := by
  simp only [main112, alt112, h.Y1s, h.kap', h.G0, q.Y2s h, q.Y2c h, s.dY1s h]
  have := h.X1c
  have := h.lp
  have := h.B0
  rcases h.sG with g | g <;> rcases h.spsi with g' | g' <;> simp only [g, g'] <;> field_simp <;> ring

theorem same120 (h : First a eta) (q : Second a) (s : Smooth1 a) : main120 a = alt120 a := by
  simp only [main120, alt120, h.Y1s, h.kap', h.G0, q.Y2s h, q.Y2c h, s.dY1s h]
  have := h.X1c
  have := h.lp
  have := h.B0
  rcases h.sG with g | g <;> rcases h.spsi with g' | g' <;> simp only [g, g'] <;> field_simp <;> ring

theorem same121 (h : First a eta) (q : Second a) (s : Smooth a) : main121 a = alt121 a := by
  simp only [main121, alt121, h.Y1s, h.kap', h.G0, q.Y2s h, q.Y2c h, s.dY1s h, s.d2Y1s h]
  have := h.X1c
  have := h.lp
  have := h.B0
  rcases h.sG with g | g <;> rcases h.spsi with g' | g' <;> simp only [g, g'] <;> field_simp <;> ring

theorem same122 (h : First a eta) (q : Second a) (s : Smooth1 a) : main122 a = alt122 a := by
  simp only [main122, alt122, h.Y1s, h.kap', h.G0, q.Y2s h, q.Y2c h, s.dY1s h]
  have := h.X1c
  have := h.lp
  have := h.B0
  rcases h.sG with g | g <;> rcases h.spsi with g' | g' <;> simp only [g, g'] <;> field_simp <;> ring

theorem same200 (h : First a eta) (q : Second a) (s : Smooth1 a) : main200 a = alt200 a := by
  simp only [main200, alt200, h.Y1s, h.kap', h.G0, q.Y2s h, q.Y2c h, s.dY1s h]
  have := h.X1c
  have := h.lp
  have := h.B0
  rcases h.sG with g | g <;> rcases h.spsi with g' | g' <;> simp only [g, g'] <;> field_simp <;> ring

theorem same201 (h : First a eta) (q : Second a) (s : Smooth a) : main201 a = alt201 a := by
  simp only [main201, alt201, h.Y1s, h.kap', h.G0, q.Y2s h, q.Y2c h, s.dY1s h, s.d2Y1s h]
  have := h.X1c
  have := h.lp
  have := h.B0
  rcases h.sG with g | g <;> rcases h.spsi with g' | g' <;> simp only [g, g'] <;> field_simp <;> ring

theorem same202 (h : First a eta) (q : Second a) (s : Smooth1 a) : main202 a = alt202 a := by
  simp only [main202, alt202, h.Y1s, h.kap', h.G0, q.Y2s h, q.Y2c h, s.dY1s h]
  have := h.X1c
  have := h.lp
  have := h.B0
  rcases h.sG with g | g <;> rcases h.spsi with g' | g' <;> simp only [g, g'] <;> field_simp <;> ring

theorem same210 (h : First a eta) (q : Second a) (s : Smooth1 a) : main210 a = alt210 a := by
  simp only [main210, alt210, h.Y1s, h.kap', h.G0, q.Y2s h, q.Y2c h, s.dY1s h]
  have := h.X1c
  have := h.lp
  have := h.B0
  rcases h.sG with g | g <;> rcases h.spsi with g' | g' <;> simp only [g, g'] <;> field_simp <;> ring

theorem same211 (h : First a eta) (q : Second a) (s : Smooth a) : main211 a = alt211 a := by
  simp only [main211, alt211, h.Y1s, h.kap', h.G0, q.Y2s h, q.Y2c h, s.dY1s h, s.d2Y1s h]
  have := h.X1c
  have := h.lp
  have := h.B0
  rcases h.sG with g | g <;> rcases h.spsi with g' | g' <;> simp only [g, g'] <;> field_simp <;> ring

theorem same212 (h : First a eta) (q : Second a) (s : Smooth1 a) : main212 a = alt212 a := by
  simp only [main212, alt212, h.Y1s, h.kap', h.G0, q.Y2s h, q.Y2c h, s.dY1s h]
  have := h.X1c
  have := h.lp
  have := h.B0
  rcases h.sG with g | g <;> rcases h.spsi with g' | g' <;> simp only [g, g'] <;> field_simp <;> ring

theorem same220 (h : First a eta) (q : Second a) (s : Smooth1 a) : main220 a = alt220 a := by
  simp only [main220, alt220, h.Y1s, h.kap', h.G0, q.Y2s h, q.Y2c h, s.dY1s h]
  have := h.X1c
  have := h.lp
  have := h.B0
  rcases h.sG with g | g <;> rcases h.spsi with g' | g' <;> simp only [g, g'] <;> field_simp <;> ring

theorem same221 (h : First a eta) (q : Second a) (s : Smooth1 a) : main221 a = alt221 a := by
  simp only [main221, alt221, h.Y1s, h.kap', h.G0, q.Y2s h, q.Y2c h, s.dY1s h]
  have := h.X1c
  have := h.lp
  have := h.B0
  rcases h.sG with g | g <;> rcases h.spsi with g' | g' <;> simp only [g, g'] <;> field_simp <;> ring

theorem same222 (h : First a eta) (q : Second a) (s : Smooth1 a) : main222 a = alt222 a := by
  simp only [main222, alt222, h.Y1s, h.kap', h.G0, q.Y2s h, q.Y2c h, s.dY1s h]
  have := h.X1c
  have := h.lp
  have := h.B0
  rcases h.sG with g | g <;> rcases h.spsi with g' | g' <;> simp only [g, g'] <;> field_simp <;> ring

/-! ## Symmetry and derivatives along the axis -/

/-- The grad B tensor, and its derivative along the axis by the product rule. -/
noncomputable def gradM (a : At ℝ) : Nat → Nat → ℝ
  | 2, 0 => a.sG * a.B0 * a.kap
  | 0, 2 => a.sG * a.B0 * a.kap
  | 1, 1 => a.spsi * a.B0 / a.lp * (a.X1c * a.dY1s - a.iotaN * a.X1c * a.Y1c)
  | 0, 0 => a.spsi * a.B0 / a.lp * (a.dX1c * a.Y1s + a.iotaN * a.X1c * a.Y1c)
  | 1, 0 => a.spsi * a.B0 / a.lp * (-a.sG * a.spsi * a.lp * a.tor - a.iotaN * a.X1c * a.X1c)
  | 0, 1 => a.spsi * a.B0 / a.lp * (a.dY1c * a.Y1s - a.dY1s * a.Y1c + a.sG * a.spsi * a.lp * a.tor +
      a.iotaN * (a.Y1s * a.Y1s + a.Y1c * a.Y1c))
  | _, _ => 0

noncomputable def dGradM (a : At ℝ) : Nat → Nat → ℝ
  | 2, 0 => a.sG * a.B0 * a.dkap
  | 0, 2 => a.sG * a.B0 * a.dkap
  | 1, 1 => a.spsi * a.B0 / a.lp * (a.dX1c * a.dY1s + a.X1c * a.d2Y1s -
      a.iotaN * (a.dX1c * a.Y1c + a.X1c * a.dY1c))
  | 0, 0 => a.spsi * a.B0 / a.lp * (a.d2X1c * a.Y1s + a.dX1c * a.dY1s +
      a.iotaN * (a.dX1c * a.Y1c + a.X1c * a.dY1c))
  | 1, 0 => a.spsi * a.B0 / a.lp * (-a.sG * a.spsi * a.lp * a.dtor - 2 * a.iotaN * a.X1c * a.dX1c)
  | 0, 1 => a.spsi * a.B0 / a.lp * (a.d2Y1c * a.Y1s - a.d2Y1s * a.Y1c + a.sG * a.spsi * a.lp * a.dtor +
      2 * a.iotaN * (a.Y1s * a.dY1s + a.Y1c * a.dY1c))
  | _, _ => 0

theorem along200 (h : First a eta) (s : Smooth a) : alt200 a = dGradM a 0 0 / a.lp +
    (gradM a 1 0 * (-a.tor) + gradM a 0 1 * (-a.tor) + gradM a 2 0 * a.kap + gradM a 0 2 * a.kap) := by
  simp only [alt200, gradM, dGradM, h.Y1s, h.kap', s.dY1s h, s.d2Y1s h]
  have := h.X1c
  have := h.lp
  have := h.B0
  rcases h.sG with g | g <;> rcases h.spsi with g' | g' <;> simp only [g, g'] <;> field_simp <;> ring

theorem along201 (h : First a eta) (s : Smooth a) : alt201 a = dGradM a 0 1 / a.lp +
    (gradM a 0 0 * a.tor + gradM a 1 1 * (-a.tor)) := by
  simp only [alt201, gradM, dGradM, h.Y1s, h.kap', s.dY1s h, s.d2Y1s h]
  have := h.X1c
  have := h.lp
  have := h.B0
  rcases h.sG with g | g <;> rcases h.spsi with g' | g' <;> simp only [g, g'] <;> field_simp <;> ring

theorem along202 (h : First a eta) (s : Smooth a) : alt202 a = dGradM a 0 2 / a.lp +
    (gradM a 0 0 * (-a.kap)) := by
  simp only [alt202, gradM, dGradM, h.Y1s, h.kap', s.dY1s h, s.d2Y1s h]
  have := h.X1c
  have := h.lp
  have := h.B0
  rcases h.sG with g | g <;> rcases h.spsi with g' | g' <;> simp only [g, g'] <;> field_simp <;> ring

theorem along210 (h : First a eta) (s : Smooth a) : alt210 a = dGradM a 1 0 / a.lp +
    (gradM a 0 0 * a.tor + gradM a 1 1 * (-a.tor)) := by
  simp only [alt210, gradM, dGradM, h.Y1s, h.kap', s.dY1s h, s.d2Y1s h]
  have := h.X1c
  have := h.lp
  have := h.B0
  rcases h.sG with g | g <;> rcases h.spsi with g' | g' <;> simp only [g, g'] <;> field_simp <;> ring

theorem along211 (h : First a eta) (s : Smooth a) : alt211 a = dGradM a 1 1 / a.lp +
    (gradM a 0 1 * a.tor + gradM a 1 0 * a.tor) := by
  simp only [alt211, gradM, dGradM, h.Y1s, h.kap', s.dY1s h, s.d2Y1s h]
  have := h.X1c
  have := h.lp
  have := h.B0
  rcases h.sG with g | g <;> rcases h.spsi with g' | g' <;> simp only [g, g'] <;> field_simp <;> ring

theorem along212 (h : First a eta) (s : Smooth a) : alt212 a = dGradM a 1 2 / a.lp +
    (gradM a 0 2 * a.tor + gradM a 1 0 * (-a.kap)) := by
  simp only [alt212, gradM, dGradM, h.Y1s, h.kap', s.dY1s h, s.d2Y1s h]
  have := h.X1c
  have := h.lp
  have := h.B0
  rcases h.sG with g | g <;> rcases h.spsi with g' | g' <;> simp only [g, g'] <;> field_simp <;> ring

theorem along220 (h : First a eta) (s : Smooth a) : alt220 a = dGradM a 2 0 / a.lp +
    (gradM a 0 0 * (-a.kap)) := by
  simp only [alt220, gradM, dGradM, h.Y1s, h.kap', s.dY1s h, s.d2Y1s h]
  have := h.X1c
  have := h.lp
  have := h.B0
  rcases h.sG with g | g <;> rcases h.spsi with g' | g' <;> simp only [g, g'] <;> field_simp <;> ring

theorem along221 (h : First a eta) (s : Smooth a) : alt221 a = dGradM a 2 1 / a.lp +
    (gradM a 0 1 * (-a.kap) + gradM a 2 0 * a.tor) := by
  simp only [alt221, gradM, dGradM, h.Y1s, h.kap', s.dY1s h, s.d2Y1s h]
  have := h.X1c
  have := h.lp
  have := h.B0
  rcases h.sG with g | g <;> rcases h.spsi with g' | g' <;> simp only [g, g'] <;> field_simp <;> ring

theorem along222 (h : First a eta) (s : Smooth a) : alt222 a = dGradM a 2 2 / a.lp +
    (gradM a 0 2 * (-a.kap) + gradM a 2 0 * (-a.kap)) := by
  simp only [alt222, gradM, dGradM, h.Y1s, h.kap', s.dY1s h, s.d2Y1s h]
  have := h.X1c
  have := h.lp
  have := h.B0
  rcases h.sG with g | g <;> rcases h.spsi with g' | g' <;> simp only [g, g'] <;> field_simp <;> ring

theorem symm010 (h : First a eta) (s : Smooth1 a) : alt010 a = alt100 a := by
  simp only [alt010, alt100, h.Y1s, h.kap', s.dY1s h]
  have := h.X1c
  have := h.lp
  have := h.B0
  rcases h.sG with g | g <;> rcases h.spsi with g' | g' <;> simp only [g, g'] <;> field_simp <;> ring

theorem symm011 (h : First a eta) (s : Smooth1 a) : alt011 a = alt101 a := by
  simp only [alt011, alt101, h.Y1s, h.kap', s.dY1s h]
  have := h.X1c
  have := h.lp
  have := h.B0
  rcases h.sG with g | g <;> rcases h.spsi with g' | g' <;> simp only [g, g'] <;> field_simp <;> ring

theorem symm012 (h : First a eta) (s : Smooth1 a) : alt012 a = alt102 a := by
  simp only [alt012, alt102, h.Y1s, h.kap', s.dY1s h]
  have := h.X1c
  have := h.lp
  have := h.B0
  rcases h.sG with g | g <;> rcases h.spsi with g' | g' <;> simp only [g, g'] <;> field_simp <;> ring

theorem symm020 (h : First a eta) (s : Smooth1 a) : alt020 a = alt200 a := by
  simp only [alt020, alt200, h.Y1s, h.kap', s.dY1s h]
  have := h.X1c
  have := h.lp
  have := h.B0
  rcases h.sG with g | g <;> rcases h.spsi with g' | g' <;> simp only [g, g'] <;> field_simp <;> ring

theorem symm021 (h : First a eta) (s : Smooth a) : alt021 a = alt201 a := by
  simp only [alt021, alt201, h.Y1s, h.kap', s.dY1s h, s.d2Y1s h]
  have := h.X1c
  have := h.lp
  have := h.B0
  rcases h.sG with g | g <;> rcases h.spsi with g' | g' <;> simp only [g, g'] <;> field_simp <;> ring

theorem symm022 (h : First a eta) (s : Smooth1 a) : alt022 a = alt202 a := by
  simp only [alt022, alt202, h.Y1s, h.kap', s.dY1s h]
  have := h.X1c
  have := h.lp
  have := h.B0
  rcases h.sG with g | g <;> rcases h.spsi with g' | g' <;> simp only [g, g'] <;> field_simp <;> ring

theorem symm120 (h : First a eta) (s : Smooth1 a) : alt120 a = alt210 a := by
  simp only [alt120, alt210, h.Y1s, h.kap', s.dY1s h]
  have := h.X1c
  have := h.lp
  have := h.B0
  rcases h.sG with g | g <;> rcases h.spsi with g' | g' <;> simp only [g, g'] <;> field_simp <;> ring

theorem symm121 (h : First a eta) (s : Smooth a) : alt121 a = alt211 a := by
  simp only [alt121, alt211, h.Y1s, h.kap', s.dY1s h, s.d2Y1s h]
  have := h.X1c
  have := h.lp
  have := h.B0
  rcases h.sG with g | g <;> rcases h.spsi with g' | g' <;> simp only [g, g'] <;> field_simp <;> ring

theorem symm122 (h : First a eta) (s : Smooth1 a) : alt122 a = alt212 a := by
  simp only [alt122, alt212, h.Y1s, h.kap', s.dY1s h]
  have := h.X1c
  have := h.lp
  have := h.B0
  rcases h.sG with g | g <;> rcases h.spsi with g' | g' <;> simp only [g, g'] <;> field_simp <;> ring

end

end Qsc.GradGradB
