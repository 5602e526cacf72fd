import Verif.Spec.NearAxis
import Mathlib.Analysis.Calculus.Deriv.Pow
import Mathlib.Analysis.Calculus.Deriv.Add
import Mathlib.Analysis.Calculus.Deriv.Mul
import Mathlib.Analysis.Asymptotics.Lemmas
import Mathlib.Analysis.SpecialFunctions.Trigonometric.Chebyshev.Basic
import Mathlib.Tactic.LinearCombination
import Mathlib.Tactic.FieldSimp

/-!
# Expansion of the field equations near the axis
-/

namespace Qsc.Spec.NearAxis

open Real

/-! ## Second-order expansions in `r` -/

/-- `f r = a0 + a1 r + a2 r^2 + r^3 q r` with continuous `q`. -/
def HasJet (f : ℝ → ℝ) (a0 a1 a2 : ℝ) : Prop :=
  ∃ q : ℝ → ℝ, Continuous q ∧ ∀ r, r ≠ 0 → f r = a0 + a1 * r + a2 * r ^ 2 + r ^ 3 * q r

theorem HasJet.mk {f q : ℝ → ℝ} {a0 a1 a2 : ℝ} (hq : Continuous q)
    (h : ∀ r, r ≠ 0 → f r = a0 + a1 * r + a2 * r ^ 2 + r ^ 3 * q r) : HasJet f a0 a1 a2 := ⟨q, hq, h⟩

theorem HasJet.congr {f : ℝ → ℝ} {a0 a1 a2 b0 b1 b2 : ℝ} (h : HasJet f a0 a1 a2) (e0 : a0 = b0)
    (e1 : a1 = b1) (e2 : a2 = b2) : HasJet f b0 b1 b2 := e0 ▸ e1 ▸ e2 ▸ h

theorem HasJet.of_eq {f g : ℝ → ℝ} {a0 a1 a2 : ℝ} (h : HasJet g a0 a1 a2)
    (e : ∀ r, r ≠ 0 → f r = g r) : HasJet f a0 a1 a2 := by
  obtain ⟨q, hq, hf⟩ := h
  exact ⟨q, hq, fun r hr => (e r hr).trans (hf r hr)⟩

theorem HasJet.const (a : ℝ) : HasJet (fun _ => a) a 0 0 :=
  ⟨fun _ => 0, continuous_const, fun r _ => by ring⟩

theorem HasJet.add {f g : ℝ → ℝ} {a0 a1 a2 b0 b1 b2 : ℝ} (hf : HasJet f a0 a1 a2)
    (hg : HasJet g b0 b1 b2) : HasJet (fun r => f r + g r) (a0 + b0) (a1 + b1) (a2 + b2) := by
  obtain ⟨q, hq, hf⟩ := hf
  obtain ⟨p, hp, hg⟩ := hg
  refine ⟨fun r => q r + p r, hq.add hp, fun r hr => ?_⟩
  dsimp only; rw [hf r hr, hg r hr]; ring

theorem HasJet.sub {f g : ℝ → ℝ} {a0 a1 a2 b0 b1 b2 : ℝ} (hf : HasJet f a0 a1 a2)
    (hg : HasJet g b0 b1 b2) : HasJet (fun r => f r - g r) (a0 - b0) (a1 - b1) (a2 - b2) := by
  obtain ⟨q, hq, hf⟩ := hf
  obtain ⟨p, hp, hg⟩ := hg
  refine ⟨fun r => q r - p r, hq.sub hp, fun r hr => ?_⟩
  dsimp only; rw [hf r hr, hg r hr]; ring

theorem HasJet.mul {f g : ℝ → ℝ} {a0 a1 a2 b0 b1 b2 : ℝ} (hf : HasJet f a0 a1 a2)
    (hg : HasJet g b0 b1 b2) :
    HasJet (fun r => f r * g r) (a0 * b0) (a0 * b1 + a1 * b0) (a0 * b2 + a1 * b1 + a2 * b0) := by
  obtain ⟨q, hq, hf⟩ := hf
  obtain ⟨p, hp, hg⟩ := hg
  refine ⟨fun r => a1 * b2 + a2 * b1 + a2 * b2 * r + q r * (b0 + b1 * r + b2 * r ^ 2) +
    p r * (a0 + a1 * r + a2 * r ^ 2) + r ^ 3 * (q r * p r), by fun_prop, fun r hr => ?_⟩
  dsimp only; rw [hf r hr, hg r hr]; ring

theorem HasJet.order_three {f : ℝ → ℝ} (h : HasJet f 0 0 0) : Order 3 f := by
  obtain ⟨q, hq, hf⟩ := h
  have h1 : Asymptotics.IsBigO (nhdsWithin (0 : ℝ) {0}ᶜ) q fun _ => (1 : ℝ) :=
    ((hq.tendsto 0).mono_left nhdsWithin_le_nhds).isBigO_one ℝ
  refine ((h1.mul (Asymptotics.isBigO_refl (fun r : ℝ => r ^ 3) _)).congr' ?_ ?_)
  · filter_upwards [self_mem_nhdsWithin] with r hr
    rw [hf r hr]; ring
  · exact Filter.Eventually.of_forall fun r => by simp

theorem HasJet.order_two {f : ℝ → ℝ} {a : ℝ} (h : HasJet f 0 0 a) : Order 2 f := by
  obtain ⟨q, hq, hf⟩ := h
  have hc : Continuous fun r => a + r * q r := by fun_prop
  have h1 : Asymptotics.IsBigO (nhdsWithin (0 : ℝ) {0}ᶜ) (fun r => a + r * q r) fun _ => (1 : ℝ) :=
    ((hc.tendsto 0).mono_left nhdsWithin_le_nhds).isBigO_one ℝ
  refine ((h1.mul (Asymptotics.isBigO_refl (fun r : ℝ => r ^ 2) _)).congr' ?_ ?_)
  · filter_upwards [self_mem_nhdsWithin] with r hr
    rw [hf r hr]; ring
  · exact Filter.Eventually.of_forall fun r => by simp

/-! ## The pieces -/

section
variable (c d : Coef) (θ : ℝ)

/-- Coefficients of powers of `r`, and their derivatives in theta. -/
noncomputable def x1 : ℝ := c.X1c * cos θ
noncomputable def x2 : ℝ := c.X20 + c.X2s * sin (2 * θ) + c.X2c * cos (2 * θ)
noncomputable def x3 : ℝ := c.X3c1 * cos θ
noncomputable def y1 : ℝ := c.Y1s * sin θ + c.Y1c * cos θ
noncomputable def y2 : ℝ := c.Y20 + c.Y2s * sin (2 * θ) + c.Y2c * cos (2 * θ)
noncomputable def y3 : ℝ := c.Y3s1 * sin θ + c.Y3c1 * cos θ
noncomputable def z2 : ℝ := c.Z20 + c.Z2s * sin (2 * θ) + c.Z2c * cos (2 * θ)
noncomputable def z3 : ℝ := c.Z3s1 * sin θ + c.Z3c1 * cos θ + c.Z3s3 * sin (3 * θ) + c.Z3c3 * cos (3 * θ)

noncomputable def x1t : ℝ := -(c.X1c * sin θ)
noncomputable def x2t : ℝ := 2 * (c.X2s * cos (2 * θ) - c.X2c * sin (2 * θ))
noncomputable def x3t : ℝ := -(c.X3c1 * sin θ)
noncomputable def y1t : ℝ := c.Y1s * cos θ - c.Y1c * sin θ
noncomputable def y2t : ℝ := 2 * (c.Y2s * cos (2 * θ) - c.Y2c * sin (2 * θ))
noncomputable def y3t : ℝ := c.Y3s1 * cos θ - c.Y3c1 * sin θ
noncomputable def z2t : ℝ := 2 * (c.Z2s * cos (2 * θ) - c.Z2c * sin (2 * θ))
noncomputable def z3t : ℝ := c.Z3s1 * cos θ - c.Z3c1 * sin θ + 3 * (c.Z3s3 * cos (3 * θ) - c.Z3c3 * sin (3 * θ))

theorem X_eq (r : ℝ) : X c r θ = r * x1 c θ + r ^ 2 * x2 c θ + r ^ 3 * x3 c θ := rfl
theorem Y_eq (r : ℝ) : Y c r θ = r * y1 c θ + r ^ 2 * y2 c θ + r ^ 3 * y3 c θ := rfl
theorem Z_eq (r : ℝ) : Z c r θ = r * 0 + r ^ 2 * z2 c θ + r ^ 3 * z3 c θ := by
  rw [mul_zero, zero_add]; rfl

theorem deriv_cubic (a b e r : ℝ) :
    deriv (fun s => s * a + s ^ 2 * b + s ^ 3 * e) r = a + 2 * r * b + 3 * r ^ 2 * e := by
  have h := (((hasDerivAt_id r).mul_const a).add ((hasDerivAt_pow 2 r).mul_const b)).add
    ((hasDerivAt_pow 3 r).mul_const e)
  refine (h.congr_deriv ?_).deriv
  norm_num

theorem dr_eq (r : ℝ) : dr c r θ = ⟨x1 c θ + 2 * r * x2 c θ + 3 * r ^ 2 * x3 c θ,
    y1 c θ + 2 * r * y2 c θ + 3 * r ^ 2 * y3 c θ, 2 * r * z2 c θ + 3 * r ^ 2 * z3 c θ⟩ := by
  have hz := deriv_cubic 0 (z2 c θ) (z3 c θ) r
  rw [zero_add] at hz
  unfold dr
  rw [← deriv_cubic, ← deriv_cubic, ← hz]
  simp only [X_eq, Y_eq, Z_eq]

theorem hasDerivAt_sin_mul (k θ : ℝ) : HasDerivAt (fun t => sin (k * t)) (k * cos (k * θ)) θ := by
  have := ((hasDerivAt_id θ).const_mul k).sin
  refine this.congr_deriv ?_
  simp only [id]; ring

theorem hasDerivAt_cos_mul (k θ : ℝ) : HasDerivAt (fun t => cos (k * t)) (-(k * sin (k * θ))) θ := by
  have := ((hasDerivAt_id θ).const_mul k).cos
  refine this.congr_deriv ?_
  simp only [id]; ring

theorem x1_d : HasDerivAt (x1 c) (x1t c θ) θ :=
  ((hasDerivAt_cos θ).const_mul c.X1c).congr_deriv (by unfold x1t; ring)
theorem x3_d : HasDerivAt (x3 c) (x3t c θ) θ :=
  ((hasDerivAt_cos θ).const_mul c.X3c1).congr_deriv (by unfold x3t; ring)
theorem y1_d : HasDerivAt (y1 c) (y1t c θ) θ :=
  (((hasDerivAt_sin θ).const_mul c.Y1s).add ((hasDerivAt_cos θ).const_mul c.Y1c)).congr_deriv
    (by unfold y1t; ring)
theorem y3_d : HasDerivAt (y3 c) (y3t c θ) θ :=
  (((hasDerivAt_sin θ).const_mul c.Y3s1).add ((hasDerivAt_cos θ).const_mul c.Y3c1)).congr_deriv
    (by unfold y3t; ring)

theorem two_d (a s k : ℝ) : HasDerivAt (fun t => a + s * sin (2 * t) + k * cos (2 * t))
    (2 * (s * cos (2 * θ) - k * sin (2 * θ))) θ :=
  ((((hasDerivAt_sin_mul 2 θ).const_mul s).const_add a).add
    ((hasDerivAt_cos_mul 2 θ).const_mul k)).congr_deriv (by ring)

theorem x2_d : HasDerivAt (x2 c) (x2t c θ) θ := two_d θ c.X20 c.X2s c.X2c
theorem y2_d : HasDerivAt (y2 c) (y2t c θ) θ := two_d θ c.Y20 c.Y2s c.Y2c
theorem z2_d : HasDerivAt (z2 c) (z2t c θ) θ := two_d θ c.Z20 c.Z2s c.Z2c
theorem z3_d : HasDerivAt (z3 c) (z3t c θ) θ :=
  (((((hasDerivAt_sin θ).const_mul c.Z3s1).add ((hasDerivAt_cos θ).const_mul c.Z3c1)).add
    ((hasDerivAt_sin_mul 3 θ).const_mul c.Z3s3)).add
    ((hasDerivAt_cos_mul 3 θ).const_mul c.Z3c3)).congr_deriv (by unfold z3t; ring)

theorem dtheta_eq (r : ℝ) : dtheta c r θ = ⟨r * (x1t c θ + r * x2t c θ + r ^ 2 * x3t c θ),
    r * (y1t c θ + r * y2t c θ + r ^ 2 * y3t c θ), r * (r * z2t c θ + r ^ 2 * z3t c θ)⟩ := by
  have hx : HasDerivAt (X c r) (r * (x1t c θ + r * x2t c θ + r ^ 2 * x3t c θ)) θ :=
    ((((x1_d c θ).const_mul r).add ((x2_d c θ).const_mul (r ^ 2))).add
      ((x3_d c θ).const_mul (r ^ 3))).congr_deriv (by ring)
  have hy : HasDerivAt (Y c r) (r * (y1t c θ + r * y2t c θ + r ^ 2 * y3t c θ)) θ :=
    ((((y1_d c θ).const_mul r).add ((y2_d c θ).const_mul (r ^ 2))).add
      ((y3_d c θ).const_mul (r ^ 3))).congr_deriv (by ring)
  have hz : HasDerivAt (Z c r) (r * (r * z2t c θ + r ^ 2 * z3t c θ)) θ :=
    (((z2_d c θ).const_mul (r ^ 2)).add ((z3_d c θ).const_mul (r ^ 3))).congr_deriv (by ring)
  unfold dtheta
  rw [hx.deriv, hy.deriv, hz.deriv]

/-- `d position / d theta`, divided by `r`. -/
noncomputable def dthetaR (c : Coef) (r θ : ℝ) : Vec :=
  ⟨x1t c θ + r * x2t c θ + r ^ 2 * x3t c θ, y1t c θ + r * y2t c θ + r ^ 2 * y3t c θ,
    r * z2t c θ + r ^ 2 * z3t c θ⟩

theorem jet_quad (a b k : ℝ) : HasJet (fun r => a + r * b + r ^ 2 * k) a b k :=
  ⟨fun _ => 0, continuous_const, fun r _ => by ring⟩

theorem jet_lin (b k : ℝ) : HasJet (fun r => r * b + r ^ 2 * k) 0 b k :=
  ⟨fun _ => 0, continuous_const, fun r _ => by ring⟩

theorem dthetaR_n : HasJet (fun r => (dthetaR c r θ).n) (x1t c θ) (x2t c θ) (x3t c θ) := jet_quad _ _ _
theorem dthetaR_b : HasJet (fun r => (dthetaR c r θ).b) (y1t c θ) (y2t c θ) (y3t c θ) := jet_quad _ _ _
theorem dthetaR_t : HasJet (fun r => (dthetaR c r θ).t) 0 (z2t c θ) (z3t c θ) := jet_lin _ _

theorem dtheta_n : HasJet (fun r => (dtheta c r θ).n) 0 (x1t c θ) (x2t c θ) := by
  refine HasJet.mk (q := fun _ => x3t c θ) continuous_const fun r _ => ?_
  simp only [dtheta_eq]; ring
theorem dtheta_b : HasJet (fun r => (dtheta c r θ).b) 0 (y1t c θ) (y2t c θ) := by
  refine HasJet.mk (q := fun _ => y3t c θ) continuous_const fun r _ => ?_
  simp only [dtheta_eq]; ring
theorem dtheta_t : HasJet (fun r => (dtheta c r θ).t) 0 0 (z2t c θ) := by
  refine HasJet.mk (q := fun _ => z3t c θ) continuous_const fun r _ => ?_
  simp only [dtheta_eq]; ring

variable (e : Pt)

theorem dphi_n : HasJet (fun r => (dphi e c d r θ).n) 0 (x1 d θ - e.l * e.tau * y1 c θ)
    (x2 d θ - e.l * e.tau * y2 c θ + e.l * e.kappa * z2 c θ) := by
  refine HasJet.mk (q := fun _ => x3 d θ - e.l * e.tau * y3 c θ + e.l * e.kappa * z3 c θ)
    continuous_const fun r _ => ?_
  simp only [dphi, X_eq, Y_eq, Z_eq]; ring
theorem dphi_b : HasJet (fun r => (dphi e c d r θ).b) 0 (y1 d θ + e.l * e.tau * x1 c θ)
    (y2 d θ + e.l * e.tau * x2 c θ) := by
  refine HasJet.mk (q := fun _ => y3 d θ + e.l * e.tau * x3 c θ) continuous_const fun r _ => ?_
  simp only [dphi, X_eq, Y_eq]; ring
theorem dphi_t : HasJet (fun r => (dphi e c d r θ).t) e.l (-(e.l * e.kappa * x1 c θ))
    (z2 d θ - e.l * e.kappa * x2 c θ) := by
  refine HasJet.mk (q := fun _ => z3 d θ - e.l * e.kappa * x3 c θ) continuous_const fun r _ => ?_
  simp only [dphi, X_eq, Z_eq]; ring

theorem rdpsi_n : HasJet (fun r => (rdpsi e c r θ).n) (x1 c θ / (e.spsi * e.B0))
    (2 * x2 c θ / (e.spsi * e.B0)) (3 * x3 c θ / (e.spsi * e.B0)) := by
  refine HasJet.mk (q := fun _ => 0) continuous_const fun r _ => ?_
  simp only [rdpsi, dr_eq]; ring
theorem rdpsi_b : HasJet (fun r => (rdpsi e c r θ).b) (y1 c θ / (e.spsi * e.B0))
    (2 * y2 c θ / (e.spsi * e.B0)) (3 * y3 c θ / (e.spsi * e.B0)) := by
  refine HasJet.mk (q := fun _ => 0) continuous_const fun r _ => ?_
  simp only [rdpsi, dr_eq]; ring
theorem rdpsi_t : HasJet (fun r => (rdpsi e c r θ).t) 0
    (2 * z2 c θ / (e.spsi * e.B0)) (3 * z3 c θ / (e.spsi * e.B0)) := by
  refine HasJet.mk (q := fun _ => 0) continuous_const fun r _ => ?_
  simp only [rdpsi, dr_eq]; ring

theorem G_j : HasJet (G e) e.G0 0 e.G2 :=
  HasJet.mk (q := fun _ => 0) continuous_const fun r _ => by unfold G; ring
theorem I_j : HasJet (fun r => e.I2 * r) 0 e.I2 0 :=
  HasJet.mk (q := fun _ => 0) continuous_const fun r _ => by ring
theorem beta_j : HasJet (fun r => beta e r θ) 0 (e.beta1s * sin θ) 0 :=
  HasJet.mk (q := fun _ => 0) continuous_const fun r _ => by unfold beta; ring

/-- The covariant side without divisions by `r`. -/
theorem co_eq {r : ℝ} (hr : r ≠ 0) : co e c d r θ =
    let a := cross (dtheta c r θ) (dphi e c d r θ)
    let u := cross (dphi e c d r θ) (rdpsi e c r θ)
    let v := cross (rdpsi e c r θ) (dthetaR c r θ)
    ⟨beta e r θ * a.n + (e.I2 * r) * u.n + G e r * v.n,
     beta e r θ * a.b + (e.I2 * r) * u.b + G e r * v.b,
     beta e r θ * a.t + (e.I2 * r) * u.t + G e r * v.t⟩ := by
  have h1 : (dtheta c r θ).n = r * (dthetaR c r θ).n := by rw [dtheta_eq]; rfl
  have h2 : (dtheta c r θ).b = r * (dthetaR c r θ).b := by rw [dtheta_eq]; rfl
  have h3 : (dtheta c r θ).t = r * (dthetaR c r θ).t := by rw [dtheta_eq]; rfl
  simp only [co, cross, I, h1, h2, h3]
  congr 1 <;> · field_simp

theorem cross_n {u v : ℝ → Vec} {a0 a1 a2 b0 b1 b2 p0 p1 p2 q0 q1 q2 : ℝ}
    (h1 : HasJet (fun r => (u r).b) a0 a1 a2) (h2 : HasJet (fun r => (v r).t) b0 b1 b2)
    (h3 : HasJet (fun r => (u r).t) p0 p1 p2) (h4 : HasJet (fun r => (v r).b) q0 q1 q2) :
    HasJet (fun r => (cross (u r) (v r)).n) (a0 * b0 - p0 * q0)
      (a0 * b1 + a1 * b0 - (p0 * q1 + p1 * q0))
      (a0 * b2 + a1 * b1 + a2 * b0 - (p0 * q2 + p1 * q1 + p2 * q0)) := (h1.mul h2).sub (h3.mul h4)
theorem cross_b {u v : ℝ → Vec} {a0 a1 a2 b0 b1 b2 p0 p1 p2 q0 q1 q2 : ℝ}
    (h1 : HasJet (fun r => (u r).t) a0 a1 a2) (h2 : HasJet (fun r => (v r).n) b0 b1 b2)
    (h3 : HasJet (fun r => (u r).n) p0 p1 p2) (h4 : HasJet (fun r => (v r).t) q0 q1 q2) :
    HasJet (fun r => (cross (u r) (v r)).b) (a0 * b0 - p0 * q0)
      (a0 * b1 + a1 * b0 - (p0 * q1 + p1 * q0))
      (a0 * b2 + a1 * b1 + a2 * b0 - (p0 * q2 + p1 * q1 + p2 * q0)) := (h1.mul h2).sub (h3.mul h4)
theorem cross_t {u v : ℝ → Vec} {a0 a1 a2 b0 b1 b2 p0 p1 p2 q0 q1 q2 : ℝ}
    (h1 : HasJet (fun r => (u r).n) a0 a1 a2) (h2 : HasJet (fun r => (v r).b) b0 b1 b2)
    (h3 : HasJet (fun r => (u r).b) p0 p1 p2) (h4 : HasJet (fun r => (v r).n) q0 q1 q2) :
    HasJet (fun r => (cross (u r) (v r)).t) (a0 * b0 - p0 * q0)
      (a0 * b1 + a1 * b0 - (p0 * q1 + p1 * q0))
      (a0 * b2 + a1 * b1 + a2 * b0 - (p0 * q2 + p1 * q1 + p2 * q0)) := (h1.mul h2).sub (h3.mul h4)

/-- First and second order of the normal component of the field equation. -/
noncomputable def N1 : ℝ := x1 d θ + e.iotaN * x1t c θ - e.l * e.tau * y1 c θ +
  e.I2 / (e.spsi * e.B0) * (e.l * y1 c θ) -
  e.G0 / (e.spsi * e.B0) * (y1 c θ * z2t c θ - 2 * z2 c θ * y1t c θ)
noncomputable def N2 : ℝ := x2 d θ + e.iotaN * x2t c θ - e.l * e.tau * y2 c θ + e.l * e.kappa * z2 c θ -
  e.beta1s * sin θ * (e.l * y1t c θ) -
  e.I2 / (e.spsi * e.B0) * (e.l * e.kappa * x1 c θ * y1 c θ - 2 * e.l * y2 c θ) -
  e.G0 / (e.spsi * e.B0) * (y1 c θ * z3t c θ - 3 * z3 c θ * y1t c θ + 2 * y2 c θ * z2t c θ -
    2 * z2 c θ * y2t c θ)
noncomputable def B1 : ℝ := y1 d θ + e.iotaN * y1t c θ + e.l * e.tau * x1 c θ -
  e.I2 / (e.spsi * e.B0) * (e.l * x1 c θ) -
  e.G0 / (e.spsi * e.B0) * (2 * z2 c θ * x1t c θ - x1 c θ * z2t c θ)
noncomputable def B2 : ℝ := y2 d θ + e.iotaN * y2t c θ + e.l * e.tau * x2 c θ +
  e.beta1s * sin θ * (e.l * x1t c θ) -
  e.I2 / (e.spsi * e.B0) * (2 * e.l * x2 c θ - e.l * e.kappa * x1 c θ ^ 2) -
  e.G0 / (e.spsi * e.B0) * (3 * z3 c θ * x1t c θ - x1 c θ * z3t c θ + 2 * z2 c θ * x2t c θ -
    2 * x2 c θ * z2t c θ)
/-- Orders zero to two of the tangential component. -/
noncomputable def T0 : ℝ := e.l - e.G0 / (e.spsi * e.B0) * (x1 c θ * y1t c θ - y1 c θ * x1t c θ)
noncomputable def T1 : ℝ := -(e.l * e.kappa * x1 c θ) -
  e.G0 / (e.spsi * e.B0) * (x1 c θ * y2t c θ + 2 * x2 c θ * y1t c θ - y1 c θ * x2t c θ -
    2 * y2 c θ * x1t c θ)
noncomputable def T2 : ℝ := z2 d θ + e.iotaN * z2t c θ - e.l * e.kappa * x2 c θ -
  e.I2 / (e.spsi * e.B0) * ((x1 d θ - e.l * e.tau * y1 c θ) * y1 c θ -
    (y1 d θ + e.l * e.tau * x1 c θ) * x1 c θ) -
  e.G2 / (e.spsi * e.B0) * (x1 c θ * y1t c θ - y1 c θ * x1t c θ) -
  e.G0 / (e.spsi * e.B0) * (x1 c θ * y3t c θ + 2 * x2 c θ * y2t c θ + 3 * x3 c θ * y1t c θ -
    y1 c θ * x3t c θ - 2 * y2 c θ * x2t c θ - 3 * y3 c θ * x1t c θ)

theorem residual_n : HasJet (fun r => (contra e c d r θ).n - (co e c d r θ).n) 0 (N1 c d θ e)
    (N2 c d θ e) := by
  have hc := (dphi_n c d θ e).add ((HasJet.const e.iotaN).mul (dtheta_n c θ))
  have h1 := (beta_j θ e).mul (cross_n (dtheta_b c θ) (dphi_t c d θ e) (dtheta_t c θ) (dphi_b c d θ e))
  have h2 := (I_j e).mul (cross_n (dphi_b c d θ e) (rdpsi_t c θ e) (dphi_t c d θ e) (rdpsi_b c θ e))
  have h3 := (G_j e).mul (cross_n (rdpsi_b c θ e) (dthetaR_t c θ) (rdpsi_t c θ e) (dthetaR_b c θ))
  refine ((hc.sub ((h1.add h2).add h3)).of_eq fun r hr => by rw [co_eq c d θ e hr]; rfl).congr ?_ ?_ ?_
  · ring
  · unfold N1; ring
  · unfold N2; ring

theorem residual_b : HasJet (fun r => (contra e c d r θ).b - (co e c d r θ).b) 0 (B1 c d θ e)
    (B2 c d θ e) := by
  have hc := (dphi_b c d θ e).add ((HasJet.const e.iotaN).mul (dtheta_b c θ))
  have h1 := (beta_j θ e).mul (cross_b (dtheta_t c θ) (dphi_n c d θ e) (dtheta_n c θ) (dphi_t c d θ e))
  have h2 := (I_j e).mul (cross_b (dphi_t c d θ e) (rdpsi_n c θ e) (dphi_n c d θ e) (rdpsi_t c θ e))
  have h3 := (G_j e).mul (cross_b (rdpsi_t c θ e) (dthetaR_n c θ) (rdpsi_n c θ e) (dthetaR_t c θ))
  refine ((hc.sub ((h1.add h2).add h3)).of_eq fun r hr => by rw [co_eq c d θ e hr]; rfl).congr ?_ ?_ ?_
  · ring
  · unfold B1; ring
  · unfold B2; ring

theorem residual_t : HasJet (fun r => (contra e c d r θ).t - (co e c d r θ).t) (T0 c θ e) (T1 c θ e)
    (T2 c d θ e) := by
  have hc := (dphi_t c d θ e).add ((HasJet.const e.iotaN).mul (dtheta_t c θ))
  have h1 := (beta_j θ e).mul (cross_t (dtheta_n c θ) (dphi_b c d θ e) (dtheta_b c θ) (dphi_n c d θ e))
  have h2 := (I_j e).mul (cross_t (dphi_n c d θ e) (rdpsi_b c θ e) (dphi_b c d θ e) (rdpsi_n c θ e))
  have h3 := (G_j e).mul (cross_t (rdpsi_n c θ e) (dthetaR_b c θ) (rdpsi_b c θ e) (dthetaR_n c θ))
  refine ((hc.sub ((h1.add h2).add h3)).of_eq fun r hr => by rw [co_eq c d θ e hr]; rfl).congr ?_ ?_ ?_
  · unfold T0; ring
  · unfold T1; ring
  · unfold T2; ring

end

/-! ## When the coefficients vanish -/

/-- First-order relations. -/
structure First (e : Pt) (c d : Coef) : Prop where
  area : e.G0 / (e.spsi * e.B0) * (c.X1c * c.Y1s) = e.l
  sigma : c.Y1s * d.Y1c - c.Y1c * d.Y1s + e.iotaN * (c.X1c ^ 2 + c.Y1s ^ 2 + c.Y1c ^ 2) +
    2 * e.l * (e.tau - e.I2 / (e.spsi * e.B0)) * (c.X1c * c.Y1s) = 0
  z20 : 4 * e.l * c.Z20 = -(c.X1c * d.X1c + c.Y1c * d.Y1c + c.Y1s * d.Y1s)
  z2s : 4 * e.l * c.Z2s = -(c.Y1s * d.Y1c + c.Y1c * d.Y1s - e.iotaN * (c.X1c ^ 2 + c.Y1c ^ 2 - c.Y1s ^ 2))
  z2c : 4 * e.l * c.Z2c = -(c.X1c * d.X1c + c.Y1c * d.Y1c - c.Y1s * d.Y1s + 2 * e.iotaN * c.Y1s * c.Y1c)

/-- The field strength relations. -/
structure StrengthEqs (e : Pt) (c d : Coef) : Prop where
  axis : e.l ^ 2 * e.B0 ^ 2 = e.G0 ^ 2
  kappa : e.kappa * c.X1c = e.etaBar
  pressure : e.G2 + e.iotaN * e.I2 = -e.p2mu0 * e.G0 / e.B0 ^ 2
  b20 : e.B20 = e.B0 * (e.kappa * c.X20 - d.Z20 / e.l + e.etaBar ^ 2 / 2 - e.p2mu0 / e.B0 ^ 2 -
    ((d.X1c - e.l * e.tau * c.Y1c) ^ 2 + (-e.iotaN * c.X1c - e.l * e.tau * c.Y1s) ^ 2 +
      (d.Y1c + e.iotaN * c.Y1s + e.l * e.tau * c.X1c) ^ 2 + (d.Y1s - e.iotaN * c.Y1c) ^ 2) / (4 * e.l ^ 2))
  x2s : e.kappa * c.X2s = (d.Z2s - 2 * e.iotaN * c.Z2c) / e.l + e.B2s / e.B0 +
    ((d.X1c - e.l * e.tau * c.Y1c) * (-e.iotaN * c.X1c - e.l * e.tau * c.Y1s) +
      (d.Y1c + e.iotaN * c.Y1s + e.l * e.tau * c.X1c) * (d.Y1s - e.iotaN * c.Y1c)) / (2 * e.l ^ 2)
  x2c : e.kappa * c.X2c = (d.Z2c + 2 * e.iotaN * c.Z2s) / e.l + e.B2c / e.B0 - e.etaBar ^ 2 / 2 +
    ((d.X1c - e.l * e.tau * c.Y1c) ^ 2 - (-e.iotaN * c.X1c - e.l * e.tau * c.Y1s) ^ 2 +
      (d.Y1c + e.iotaN * c.Y1s + e.l * e.tau * c.X1c) ^ 2 - (d.Y1s - e.iotaN * c.Y1c) ^ 2) / (4 * e.l ^ 2)

/-- The third-order `Z` that balances the second order. -/
structure Third (e : Pt) (c d : Coef) : Prop where
  s1 : -(3 * e.l * c.Z3s1) = c.X1c * fXs e c d / 2 + c.Y1s * (fY0 e c d - fYc e c d / 2) + c.Y1c * fYs e c d / 2
  c1 : -(3 * e.l * c.Z3c1) = c.X1c * (fX0 e c d + fXc e c d / 2) + c.Y1s * fYs e c d / 2 +
    c.Y1c * (fY0 e c d + fYc e c d / 2)
  s3 : -(3 * e.l * c.Z3s3) = (c.X1c * fXs e c d + c.Y1s * fYc e c d + c.Y1c * fYs e c d) / 2
  c3 : -(3 * e.l * c.Z3c3) = (c.X1c * fXc e c d - c.Y1s * fYs e c d + c.Y1c * fYc e c d) / 2

section
variable {e : Pt} {c d : Coef}

theorem cos_two' (θ : ℝ) : cos (2 * θ) = 1 - 2 * sin θ ^ 2 := by
  rw [Real.cos_two_mul]; linear_combination 2 * Real.sin_sq_add_cos_sq θ

theorem prod1 (θ : ℝ) : cos θ * sin (2 * θ) = (sin (3 * θ) + sin θ) / 2 := by
  have h : 3 * θ = 2 * θ + θ := by ring
  rw [h, Real.sin_add, Real.cos_two_mul, Real.sin_two_mul]
  linear_combination -sin θ * Real.sin_sq_add_cos_sq θ + sin θ * Real.sin_sq_add_cos_sq θ
theorem prod2 (θ : ℝ) : cos θ * cos (2 * θ) = (cos (3 * θ) + cos θ) / 2 := by
  have h : 3 * θ = 2 * θ + θ := by ring
  rw [h, Real.cos_add, Real.cos_two_mul, Real.sin_two_mul]
  linear_combination cos θ * Real.sin_sq_add_cos_sq θ
theorem prod3 (θ : ℝ) : sin θ * sin (2 * θ) = (cos θ - cos (3 * θ)) / 2 := by
  have h : 3 * θ = 2 * θ + θ := by ring
  rw [h, Real.cos_add, Real.cos_two_mul, Real.sin_two_mul]
  linear_combination cos θ * Real.sin_sq_add_cos_sq θ
theorem prod4 (θ : ℝ) : sin θ * cos (2 * θ) = (sin (3 * θ) - sin θ) / 2 := by
  have h : 3 * θ = 2 * θ + θ := by ring
  rw [h, Real.sin_add, Real.cos_two_mul, Real.sin_two_mul]
  linear_combination 0 * Real.sin_sq_add_cos_sq θ

/-- Two combinations of the normal and binormal components determine both. -/
theorem det_zero {x y xt yt n b : ℝ} (h : x * yt - y * xt ≠ 0) (h1 : x * n + y * b = 0)
    (h2 : xt * n + yt * b = 0) : n = 0 ∧ b = 0 := by
  have hn : (x * yt - y * xt) * n = 0 := by linear_combination yt * h1 - y * h2
  have hb : (x * yt - y * xt) * b = 0 := by linear_combination x * h2 - xt * h1
  exact ⟨(mul_eq_zero.1 hn).resolve_left h, (mul_eq_zero.1 hb).resolve_left h⟩

theorem wronskian (c : Coef) (θ : ℝ) : x1 c θ * y1t c θ - y1 c θ * x1t c θ = c.X1c * c.Y1s := by
  unfold x1 y1 x1t y1t
  linear_combination c.X1c * c.Y1s * Real.sin_sq_add_cos_sq θ

theorem first_order (h : First e c d) (hl : e.l ≠ 0) (θ : ℝ) : N1 c d θ e = 0 ∧ B1 c d θ e = 0 := by
  have hw := wronskian c θ
  have hne : c.X1c * c.Y1s ≠ 0 := by
    intro h0; have := h.area; rw [h0, mul_zero] at this; exact hl this.symm
  refine det_zero (x := x1 c θ) (y := y1 c θ) (xt := x1t c θ) (yt := y1t c θ) (by rw [hw]; exact hne) ?_ ?_
  · have key : x1 c θ * N1 c d θ e + y1 c θ * B1 c d θ e =
        x1 c θ * (x1 d θ + e.iotaN * x1t c θ) + y1 c θ * (y1 d θ + e.iotaN * y1t c θ) +
          2 * e.l * z2 c θ := by
      unfold N1 B1
      linear_combination 2 * e.G0 / (e.spsi * e.B0) * z2 c θ * hw + 2 * z2 c θ * h.area
    rw [key]
    unfold x1 y1 x1t y1t z2
    rw [Real.sin_two_mul, cos_two']
    have h1 := h.z20
    have h2 := h.z2s
    have h3 := h.z2c
    linear_combination h1 / 2 + sin θ * cos θ * h2 + (1 - 2 * sin θ ^ 2) / 2 * h3 +
      (c.X1c * d.X1c + c.Y1c * d.Y1c + e.iotaN * c.Y1s * c.Y1c) * Real.sin_sq_add_cos_sq θ
  · have key : x1t c θ * N1 c d θ e + y1t c θ * B1 c d θ e =
        x1t c θ * (x1 d θ + e.iotaN * x1t c θ) + y1t c θ * (y1 d θ + e.iotaN * y1t c θ) +
          e.l * (e.tau - e.I2 / (e.spsi * e.B0)) * (c.X1c * c.Y1s) + e.l * z2t c θ := by
      unfold N1 B1
      linear_combination (e.G0 / (e.spsi * e.B0) * z2t c θ + e.l * (e.tau - e.I2 / (e.spsi * e.B0))) * hw
        + z2t c θ * h.area
    rw [key]
    unfold x1 y1 x1t y1t z2t
    rw [Real.sin_two_mul, cos_two']
    have h1 := h.sigma
    have h2 := h.z2s
    have h3 := h.z2c
    linear_combination h1 / 2 + (1 - 2 * sin θ ^ 2) / 2 * h2 - sin θ * cos θ * h3 +
      (c.Y1s * d.Y1c + e.iotaN * c.Y1s ^ 2) * Real.sin_sq_add_cos_sq θ

/-- The second order of the normal and binormal components, without the third-order `Z`, has the
coefficients `f`. -/
theorem second_n (c d : Coef) (e : Pt) (θ : ℝ) : N2 c d θ e = fX0 e c d + fXs e c d * sin (2 * θ) +
    fXc e c d * cos (2 * θ) - e.G0 / (e.spsi * e.B0) * (y1 c θ * z3t c θ - 3 * z3 c θ * y1t c θ) := by
  unfold N2 fX0 fXs fXc x1 y1 x2 x2t y2 y2t z2 z2t y1t
  have h := Real.sin_sq_add_cos_sq (2 * θ)
  have h' := Real.sin_sq_add_cos_sq θ
  have s2 := Real.sin_two_mul θ
  have c2 := cos_two' θ
  generalize y1 c θ * z3t c θ - 3 * z3 c θ * y1t c θ = w
  linear_combination (-4 * (e.G0 / (e.spsi * e.B0)) * (c.Y2c * c.Z2s - c.Y2s * c.Z2c)) * h +
    -(e.l * e.kappa * c.X1c * e.I2 / (e.spsi * e.B0)) * c.Y1c * h' +
    (e.l * e.kappa * c.X1c * e.I2 / (e.spsi * e.B0) + e.l * e.beta1s) * c.Y1s / 2 * s2 +
    (e.l * e.kappa * c.X1c * e.I2 / (e.spsi * e.B0) + e.l * e.beta1s) * c.Y1c / 2 * c2

theorem second_b (c d : Coef) (e : Pt) (θ : ℝ) : B2 c d θ e = fY0 e c d + fYs e c d * sin (2 * θ) +
    fYc e c d * cos (2 * θ) - e.G0 / (e.spsi * e.B0) * (3 * z3 c θ * x1t c θ - x1 c θ * z3t c θ) := by
  unfold B2 fY0 fYs fYc
  generalize 3 * z3 c θ * x1t c θ - x1 c θ * z3t c θ = w
  unfold x1 x2 x2t y2 y2t z2 z2t x1t
  have h := Real.sin_sq_add_cos_sq (2 * θ)
  have h' := Real.sin_sq_add_cos_sq θ
  have c2 := cos_two' θ
  linear_combination (4 * (e.G0 / (e.spsi * e.B0)) * (c.X2c * c.Z2s - c.X2s * c.Z2c)) * h +
    (e.l * e.kappa * c.X1c ^ 2 * e.I2 / (e.spsi * e.B0)) * h' -
    (e.l * e.kappa * c.X1c ^ 2 * e.I2 / (e.spsi * e.B0) + e.l * e.beta1s * c.X1c) / 2 * c2

theorem second_order (h : First e c d) (hs : Solvable e c d) (h3 : Third e c d) (hl : e.l ≠ 0) (θ : ℝ) :
    N2 c d θ e = 0 ∧ B2 c d θ e = 0 := by
  have hw := wronskian c θ
  have hne : c.X1c * c.Y1s ≠ 0 := by
    intro h0; have := h.area; rw [h0, mul_zero] at this; exact hl this.symm
  obtain ⟨E1, E2⟩ := hs
  obtain ⟨s1, c1, s3, c3⟩ := h3
  have p1 := prod1 θ
  have p2 := prod2 θ
  have p3 := prod3 θ
  have p4 := prod4 θ
  refine det_zero (x := x1 c θ) (y := y1 c θ) (xt := x1t c θ) (yt := y1t c θ) (by rw [hw]; exact hne) ?_ ?_
  · have key : x1 c θ * N2 c d θ e + y1 c θ * B2 c d θ e =
        x1 c θ * (fX0 e c d + fXs e c d * sin (2 * θ) + fXc e c d * cos (2 * θ)) +
        y1 c θ * (fY0 e c d + fYs e c d * sin (2 * θ) + fYc e c d * cos (2 * θ)) + 3 * e.l * z3 c θ := by
      rw [second_n, second_b]
      linear_combination 3 * e.G0 / (e.spsi * e.B0) * z3 c θ * hw + 3 * z3 c θ * h.area
    rw [key]
    generalize fX0 e c d = f0 at *
    generalize fXs e c d = fs at *
    generalize fXc e c d = fc at *
    generalize fY0 e c d = g0 at *
    generalize fYs e c d = gs at *
    generalize fYc e c d = gc at *
    unfold x1 y1 z3
    linear_combination (c.X1c * fs + c.Y1c * gs) * p1 + (c.X1c * fc + c.Y1c * gc) * p2 +
      c.Y1s * gs * p3 + c.Y1s * gc * p4 - sin θ * s1 - cos θ * c1 - sin (3 * θ) * s3 - cos (3 * θ) * c3
  · have key : x1t c θ * N2 c d θ e + y1t c θ * B2 c d θ e =
        x1t c θ * (fX0 e c d + fXs e c d * sin (2 * θ) + fXc e c d * cos (2 * θ)) +
        y1t c θ * (fY0 e c d + fYs e c d * sin (2 * θ) + fYc e c d * cos (2 * θ)) + e.l * z3t c θ := by
      rw [second_n, second_b]
      linear_combination e.G0 / (e.spsi * e.B0) * z3t c θ * hw + z3t c θ * h.area
    rw [key]
    generalize fX0 e c d = f0 at *
    generalize fXs e c d = fs at *
    generalize fXc e c d = fc at *
    generalize fY0 e c d = g0 at *
    generalize fYs e c d = gs at *
    generalize fYc e c d = gc at *
    unfold x1t y1t z3t
    linear_combination c.Y1s * gs * p1 + c.Y1s * gc * p2 - (c.X1c * fs + c.Y1c * gs) * p3 -
      (c.X1c * fc + c.Y1c * gc) * p4 - cos θ / 3 * s1 + sin θ / 3 * c1 - cos (3 * θ) * s3 +
      sin (3 * θ) * c3 - 2 / 3 * cos θ * E1 + 2 / 3 * sin θ * E2

/-- Some third-order `Z` exists. -/
theorem exists_third (e : Pt) (c d : Coef) (hl : e.l ≠ 0) :
    ∃ z : Coef, z = { c with Z3s1 := z.Z3s1, Z3c1 := z.Z3c1, Z3s3 := z.Z3s3, Z3c3 := z.Z3c3 } ∧
      Third e z d := by
  refine ⟨{ c with
    Z3s1 := -(c.X1c * fXs e c d / 2 + c.Y1s * (fY0 e c d - fYc e c d / 2) + c.Y1c * fYs e c d / 2) / (3 * e.l)
    Z3c1 := -(c.X1c * (fX0 e c d + fXc e c d / 2) + c.Y1s * fYs e c d / 2 +
      c.Y1c * (fY0 e c d + fYc e c d / 2)) / (3 * e.l)
    Z3s3 := -((c.X1c * fXs e c d + c.Y1s * fYc e c d + c.Y1c * fYs e c d) / 2) / (3 * e.l)
    Z3c3 := -((c.X1c * fXc e c d - c.Y1s * fYs e c d + c.Y1c * fYc e c d) / 2) / (3 * e.l) }, rfl, ?_⟩
  constructor <;> · dsimp only; rw [mul_div_cancel₀ _ (mul_ne_zero three_ne_zero hl), neg_neg]; rfl

theorem tangent (h : First e c d) (ha : Area e c) (θ : ℝ) : T0 c θ e = 0 ∧ T1 c θ e = 0 := by
  constructor
  · unfold T0; rw [wronskian, h.area, sub_self]
  · obtain ⟨a1, a2⟩ := ha
    have p1 := prod1 θ
    have p2 := prod2 θ
    have p3 := prod3 θ
    have p4 := prod4 θ
    have key : x1 c θ * y2t c θ + 2 * x2 c θ * y1t c θ - y1 c θ * x2t c θ - 2 * y2 c θ * x1t c θ =
        -(c.X1c * c.Y1s) * e.kappa * x1 c θ := by
      unfold x1 y1 x1t y1t x2 y2 x2t y2t
      linear_combination 2 * cos θ * a2 + 2 * sin θ * a1 +
        (2 * c.X2s * c.Y1s - 2 * c.X1c * c.Y2c + 2 * c.Y1c * c.X2c) * p1 +
        (2 * c.X1c * c.Y2s + 2 * c.X2c * c.Y1s - 2 * c.Y1c * c.X2s) * p2 +
        (-2 * c.X2s * c.Y1c + 2 * c.Y1s * c.X2c + 2 * c.X1c * c.Y2s) * p3 +
        (-2 * c.X2c * c.Y1c - 2 * c.Y1s * c.X2s + 2 * c.X1c * c.Y2c) * p4
    unfold T1
    rw [key]
    linear_combination e.kappa * x1 c θ * h.area

/-- The second order of the tangential component: the part without theta, and the rest. -/
theorem tangent_two (e : Pt) (c d : Coef) : ∃ s k : ℝ, ∀ θ, T2 c d θ e = s * sin (2 * θ) + k * cos (2 * θ) +
    (d.Z20 - e.l * e.kappa * c.X20 - e.I2 / (e.spsi * e.B0) / 2 * (c.Y1c * d.X1c - c.X1c * d.Y1c -
      e.l * e.tau * (c.X1c ^ 2 + c.Y1s ^ 2 + c.Y1c ^ 2)) - e.G2 / (e.spsi * e.B0) * (c.X1c * c.Y1s) -
      e.G0 / (e.spsi * e.B0) * (4 * (c.X2c * c.Y2s - c.X2s * c.Y2c) + 2 * (c.X1c * c.Y3s1 + c.X3c1 * c.Y1s))) := by
  refine ⟨d.Z2s - 2 * e.iotaN * c.Z2c - e.l * e.kappa * c.X2s - e.I2 / (e.spsi * e.B0) *
      ((d.X1c * c.Y1s - c.X1c * d.Y1s) / 2 - e.l * e.tau * c.Y1s * c.Y1c) -
      e.G0 / (e.spsi * e.B0) * (c.X1c * c.Y3c1 - c.X3c1 * c.Y1c + 4 * (c.Y20 * c.X2c - c.X20 * c.Y2c)),
    d.Z2c + 2 * e.iotaN * c.Z2s - e.l * e.kappa * c.X2c - e.I2 / (e.spsi * e.B0) *
      ((d.X1c * c.Y1c - c.X1c * d.Y1c) / 2 - e.l * e.tau * (c.X1c ^ 2 + c.Y1c ^ 2 - c.Y1s ^ 2) / 2) -
      e.G0 / (e.spsi * e.B0) * (c.X3c1 * c.Y1s - c.X1c * c.Y3s1 + 4 * (c.X20 * c.Y2s - c.Y20 * c.X2s)),
    fun θ => ?_⟩
  unfold T2
  rw [wronskian]
  have h := Real.sin_sq_add_cos_sq (2 * θ)
  have s2 := Real.sin_two_mul θ
  have hS : sin θ ^ 2 = (1 - cos (2 * θ)) / 2 := by rw [cos_two']; ring
  have hC : cos θ ^ 2 = (1 + cos (2 * θ)) / 2 := by rw [Real.cos_two_mul]; ring
  have hSC : sin θ * cos θ = sin (2 * θ) / 2 := by rw [s2]; ring
  have i1 : (x1 d θ - e.l * e.tau * y1 c θ) * y1 c θ - (y1 d θ + e.l * e.tau * x1 c θ) * x1 c θ =
      (d.X1c * c.Y1s - c.X1c * d.Y1s - 2 * e.l * e.tau * c.Y1s * c.Y1c) * (sin θ * cos θ) +
      (d.X1c * c.Y1c - c.X1c * d.Y1c - e.l * e.tau * (c.X1c ^ 2 + c.Y1c ^ 2)) * cos θ ^ 2 -
      e.l * e.tau * c.Y1s ^ 2 * sin θ ^ 2 := by unfold x1 y1; ring
  have i3 : x1 c θ * y3t c θ + 2 * x2 c θ * y2t c θ + 3 * x3 c θ * y1t c θ - y1 c θ * x3t c θ -
      2 * y2 c θ * x2t c θ - 3 * y3 c θ * x1t c θ =
      (c.X1c * c.Y3s1 + 3 * c.X3c1 * c.Y1s) * cos θ ^ 2 + (c.Y1s * c.X3c1 + 3 * c.Y3s1 * c.X1c) * sin θ ^ 2 +
      2 * (c.X1c * c.Y3c1 - c.X3c1 * c.Y1c) * (sin θ * cos θ) +
      4 * (c.X20 * c.Y2s - c.Y20 * c.X2s) * cos (2 * θ) + 4 * (c.Y20 * c.X2c - c.X20 * c.Y2c) * sin (2 * θ) +
      4 * (c.X2c * c.Y2s - c.X2s * c.Y2c) * (sin (2 * θ) ^ 2 + cos (2 * θ) ^ 2) := by
    unfold x1 y1 x1t y1t x2 y2 x2t y2t x3 y3 x3t y3t; ring
  rw [i1, i3, h, hS, hC, hSC]
  unfold z2 z2t x2
  ring

/-! ## Field strength and force balance -/

theorem contra_n (c d : Coef) (θ : ℝ) (e : Pt) : HasJet (fun r => (contra e c d r θ).n) 0
    (x1 d θ - e.l * e.tau * y1 c θ + e.iotaN * x1t c θ)
    (x2 d θ - e.l * e.tau * y2 c θ + e.l * e.kappa * z2 c θ + e.iotaN * x2t c θ) :=
  ((dphi_n c d θ e).add ((HasJet.const e.iotaN).mul (dtheta_n c θ))).congr (by ring) (by ring) (by ring)
theorem contra_b (c d : Coef) (θ : ℝ) (e : Pt) : HasJet (fun r => (contra e c d r θ).b) 0
    (y1 d θ + e.l * e.tau * x1 c θ + e.iotaN * y1t c θ)
    (y2 d θ + e.l * e.tau * x2 c θ + e.iotaN * y2t c θ) :=
  ((dphi_b c d θ e).add ((HasJet.const e.iotaN).mul (dtheta_b c θ))).congr (by ring) (by ring) (by ring)
theorem contra_t (c d : Coef) (θ : ℝ) (e : Pt) : HasJet (fun r => (contra e c d r θ).t) e.l
    (-(e.l * e.kappa * x1 c θ)) (z2 d θ - e.l * e.kappa * x2 c θ + e.iotaN * z2t c θ) :=
  ((dphi_t c d θ e).add ((HasJet.const e.iotaN).mul (dtheta_t c θ))).congr (by ring) (by ring) (by ring)

theorem B_j (θ : ℝ) (e : Pt) : HasJet (fun r => B e r θ) e.B0 (e.B0 * e.etaBar * cos θ)
    (e.B20 + e.B2s * sin (2 * θ) + e.B2c * cos (2 * θ)) :=
  HasJet.mk (q := fun _ => 0) continuous_const fun r _ => by unfold B; ring

theorem HasJet.sq {f : ℝ → ℝ} {a0 a1 a2 : ℝ} (h : HasJet f a0 a1 a2) :
    HasJet (fun r => f r ^ 2) (a0 ^ 2) (2 * a0 * a1) (2 * a0 * a2 + a1 ^ 2) :=
  ((h.mul h).of_eq fun r _ => by ring).congr (by ring) (by ring) (by ring)

theorem strength_order (h : StrengthEqs e c d) (hl : e.l ≠ 0) (hB : e.B0 ≠ 0) (θ : ℝ) :
    Order 3 fun r => strength e c d r θ := by
  have h1 := (((contra_n c d θ e).sq.add (contra_b c d θ e).sq).add (contra_t c d θ e).sq).mul
    (B_j θ e).sq
  have h2 : HasJet (fun r => G e r + e.iotaN * I e r) e.G0 0 (e.G2 + e.iotaN * e.I2) :=
    HasJet.mk (q := fun _ => 0) continuous_const fun r _ => by unfold G I; ring
  refine HasJet.order_three (((h1.sub h2.sq).of_eq fun r _ => rfl).congr ?_ ?_ ?_)
  · linear_combination h.axis
  · have := h.kappa
    unfold x1
    linear_combination -2 * e.l ^ 2 * e.B0 ^ 2 * cos θ * this
  · obtain ⟨ax, k, pr, b20, b2s, b2c⟩ := h
    have hS : sin θ ^ 2 = (1 - cos (2 * θ)) / 2 := by rw [cos_two']; ring
    have hC : cos θ ^ 2 = (1 + cos (2 * θ)) / 2 := by rw [Real.cos_two_mul]; ring
    have hSC : sin θ * cos θ = sin (2 * θ) / 2 := by rw [Real.sin_two_mul]; ring
    have hkx : e.kappa * x1 c θ = e.etaBar * cos θ := by unfold x1; linear_combination cos θ * k
    have hn : x1 d θ - e.l * e.tau * y1 c θ + e.iotaN * x1t c θ =
        (d.X1c - e.l * e.tau * c.Y1c) * cos θ + (-e.iotaN * c.X1c - e.l * e.tau * c.Y1s) * sin θ := by
      unfold x1 y1 x1t; ring
    have hb : y1 d θ + e.l * e.tau * x1 c θ + e.iotaN * y1t c θ =
        (d.Y1c + e.iotaN * c.Y1s + e.l * e.tau * c.X1c) * cos θ + (d.Y1s - e.iotaN * c.Y1c) * sin θ := by
      unfold x1 y1 y1t; ring
    have hkx' : e.l * e.kappa * x1 c θ = e.l * (e.etaBar * cos θ) := by rw [← hkx]; ring
    rw [hn, hb, hkx']
    have ht : z2 d θ - e.l * e.kappa * x2 c θ + e.iotaN * z2t c θ =
        (d.Z20 - e.l * (e.kappa * c.X20)) + (d.Z2s - 2 * e.iotaN * c.Z2c - e.l * (e.kappa * c.X2s)) * sin (2 * θ) +
        (d.Z2c + 2 * e.iotaN * c.Z2s - e.l * (e.kappa * c.X2c)) * cos (2 * θ) := by
      unfold z2 x2 z2t; ring
    rw [ht, b2s, b2c]
    have hk0 : e.kappa * c.X20 = e.B20 / e.B0 + d.Z20 / e.l - e.etaBar ^ 2 / 2 + e.p2mu0 / e.B0 ^ 2 +
      ((d.X1c - e.l * e.tau * c.Y1c) ^ 2 + (-e.iotaN * c.X1c - e.l * e.tau * c.Y1s) ^ 2 +
      (d.Y1c + e.iotaN * c.Y1s + e.l * e.tau * c.X1c) ^ 2 + (d.Y1s - e.iotaN * c.Y1c) ^ 2) / (4 * e.l ^ 2) := by
      rw [b20]; field_simp; ring
    rw [hk0]
    generalize d.X1c - e.l * e.tau * c.Y1c = qc
    generalize -e.iotaN * c.X1c - e.l * e.tau * c.Y1s = qs
    generalize d.Y1c + e.iotaN * c.Y1s + e.l * e.tau * c.X1c = rc
    generalize d.Y1s - e.iotaN * c.Y1c = rs
    have hpr : 2 * e.G0 * (e.G2 + e.iotaN * e.I2) = -2 * e.p2mu0 * e.l ^ 2 := by
      rw [pr]; field_simp; linear_combination e.p2mu0 * ax
    have hsq1 : (qc * cos θ + qs * sin θ) ^ 2 = (qc ^ 2 + qs ^ 2) / 2 + qc * qs * sin (2 * θ) +
        (qc ^ 2 - qs ^ 2) / 2 * cos (2 * θ) := by
      linear_combination qc ^ 2 * hC + qs ^ 2 * hS + 2 * qc * qs * hSC
    have hsq2 : (rc * cos θ + rs * sin θ) ^ 2 = (rc ^ 2 + rs ^ 2) / 2 + rc * rs * sin (2 * θ) +
        (rc ^ 2 - rs ^ 2) / 2 * cos (2 * θ) := by
      linear_combination rc ^ 2 * hC + rs ^ 2 * hS + 2 * rc * rs * hSC
    rw [hsq1, hsq2]
    generalize sin (2 * θ) = s2 at *
    generalize cos (2 * θ) = c2 at *
    generalize cos θ = C at *
    linear_combination (norm := skip) (-2 * e.l ^ 2 * e.B0 ^ 2 * e.etaBar ^ 2) * hC - hpr
    field_simp
    ring

theorem force_order (hp : e.G2 + e.iotaN * e.I2 = -e.p2mu0 * e.G0 / e.B0 ^ 2)
    (hb : e.iotaN * e.beta1s = -4 * e.p2mu0 * e.G0 * e.etaBar / (e.spsi * e.B0 ^ 3)) (hB : e.B0 ≠ 0)
    (θ : ℝ) : Order 2 fun r => force e r θ := by
  have d1 : ∀ r, deriv (beta e r) θ = r * e.beta1s * cos θ := fun r =>
    ((hasDerivAt_sin θ).const_mul (r * e.beta1s)).deriv
  have d2 : ∀ a r : ℝ, deriv (fun s => a * s ^ 2) r = 2 * a * r := fun a r =>
    (((hasDerivAt_pow 2 r).const_mul a).congr_deriv (by norm_num; ring)).deriv
  have d3 : ∀ r, deriv (G e) r = 2 * e.G2 * r := fun r =>
    ((((hasDerivAt_pow 2 r).const_mul e.G2).const_add e.G0).congr_deriv (by norm_num; ring)).deriv
  have d4 : ∀ r, deriv (I e) r = 2 * e.I2 * r := fun r =>
    (((hasDerivAt_pow 2 r).const_mul e.I2).congr_deriv (by norm_num; ring)).deriv
  have hj1 : HasJet (fun r => e.iotaN * (r * e.beta1s * cos θ)) 0 (e.iotaN * e.beta1s * cos θ) 0 :=
    HasJet.mk (q := fun _ => 0) continuous_const fun r _ => by ring
  have hj2 : HasJet (fun r => 2 * e.p2mu0 * (G e r + e.iotaN * I e r) / (e.spsi * e.B0))
      (2 * e.p2mu0 * e.G0 / (e.spsi * e.B0)) 0
      (2 * e.p2mu0 * (e.G2 + e.iotaN * e.I2) / (e.spsi * e.B0)) :=
    HasJet.mk (q := fun _ => 0) continuous_const fun r _ => by unfold G I; ring
  have hj3 := (HasJet.const (2 * (e.G2 + e.iotaN * e.I2) / (e.spsi * e.B0))).mul (B_j θ e).sq
  have h := ((hj1.mul (B_j θ e).sq).sub (hj2.add hj3))
  refine HasJet.order_two (a := _) ((h.of_eq fun r hr => ?_).congr ?_ ?_ rfl)
  · simp only [force, d1, d2, d3, d4]
    have : ∀ x y : ℝ, (2 * e.p2mu0 * r * x + (2 * e.G2 * r + e.iotaN * (2 * e.I2 * r)) * y) /
        (e.spsi * e.B0 * r) = 2 * e.p2mu0 * x / (e.spsi * e.B0) +
          2 * (e.G2 + e.iotaN * e.I2) / (e.spsi * e.B0) * y := by
      intro x y
      rw [mul_comm (e.spsi * e.B0) r]
      have : 2 * e.p2mu0 * r * x + (2 * e.G2 * r + e.iotaN * (2 * e.I2 * r)) * y =
        r * (2 * e.p2mu0 * x + 2 * (e.G2 + e.iotaN * e.I2) * y) := by ring
      rw [this, mul_div_mul_left _ _ hr]
      ring
    rw [this]
  · rw [hp]; field_simp; ring
  · rw [hb, hp]; field_simp; ring

end

end Qsc.Spec.NearAxis
