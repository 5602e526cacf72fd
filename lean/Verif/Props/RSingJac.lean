import Verif.Props.RSing

/-!
# The coefficients of the Jacobian (C60)
-/

namespace Qsc.RSing

open Qsc.Spec.RSing Qsc.Spec.NearAxis Qsc.R2

/-- Positions of second order. -/
structure Second (c : Coef) : Prop where
  X3c1 : c.X3c1 = 0
  Y3s1 : c.Y3s1 = 0
  Y3c1 : c.Y3c1 = 0
  Z3s1 : c.Z3s1 = 0
  Z3c1 : c.Z3c1 = 0
  Z3s3 : c.Z3s3 = 0
  Z3c3 : c.Z3c3 = 0

/-- The powers of `r` in the Jacobian. -/
theorem jacobian_eq (e : Pt) {c d : Coef} (hc : Second c) (hd : Second d) (θ : ℝ) :
    ∃ q : ℝ → ℝ, Continuous q ∧ ∀ r, jacobian e c d r θ =
      r * (e.l * (x1 c θ * y1t c θ - y1 c θ * x1t c θ)) +
      r ^ 2 * (e.l * (x1 c θ * y2t c θ + 2 * x2 c θ * y1t c θ - y1 c θ * x2t c θ - 2 * y2 c θ * x1t c θ) -
        e.l * e.kappa * x1 c θ * (x1 c θ * y1t c θ - y1 c θ * x1t c θ)) +
      r ^ 3 * (2 * e.l * (x2 c θ * y2t c θ - y2 c θ * x2t c θ) -
        e.l * e.kappa * x1 c θ * (x1 c θ * y2t c θ + 2 * x2 c θ * y1t c θ - y1 c θ * x2t c θ - 2 * y2 c θ * x1t c θ) +
        (z2 d θ - e.l * e.kappa * x2 c θ) * (x1 c θ * y1t c θ - y1 c θ * x1t c θ) +
        (x1 d θ - e.l * e.tau * y1 c θ) * (y1 c θ * z2t c θ - 2 * z2 c θ * y1t c θ) +
        (y1 d θ + e.l * e.tau * x1 c θ) * (2 * z2 c θ * x1t c θ - x1 c θ * z2t c θ)) +
      r ^ 4 * q r := by
  have h1 : x3 c θ = 0 := by simp [x3, hc.X3c1]
  have h2 : y3 c θ = 0 := by simp [y3, hc.Y3s1, hc.Y3c1]
  have h3 : z3 c θ = 0 := by simp [z3, hc.Z3s1, hc.Z3c1, hc.Z3s3, hc.Z3c3]
  have h1t : x3t c θ = 0 := by simp [x3t, hc.X3c1]
  have h2t : y3t c θ = 0 := by simp [y3t, hc.Y3s1, hc.Y3c1]
  have h3t : z3t c θ = 0 := by simp [z3t, hc.Z3s1, hc.Z3c1, hc.Z3s3, hc.Z3c3]
  have k1 : x3 d θ = 0 := by simp [x3, hd.X3c1]
  have k2 : y3 d θ = 0 := by simp [y3, hd.Y3s1, hd.Y3c1]
  have k3 : z3 d θ = 0 := by simp [z3, hd.Z3s1, hd.Z3c1, hd.Z3s3, hd.Z3c3]
  refine ⟨fun r =>
    (y1 c θ * z2t c θ - 2 * z2 c θ * y1t c θ) * (x2 d θ - e.l * e.tau * y2 c θ + e.l * e.kappa * z2 c θ) +
    (2 * y2 c θ * z2t c θ - 2 * z2 c θ * y2t c θ) * (x1 d θ - e.l * e.tau * y1 c θ) +
    (2 * z2 c θ * x1t c θ - x1 c θ * z2t c θ) * (y2 d θ + e.l * e.tau * x2 c θ) +
    (2 * z2 c θ * x2t c θ - 2 * x2 c θ * z2t c θ) * (y1 d θ + e.l * e.tau * x1 c θ) +
    (x1 c θ * y2t c θ + 2 * x2 c θ * y1t c θ - y1 c θ * x2t c θ - 2 * y2 c θ * x1t c θ) *
      (z2 d θ - e.l * e.kappa * x2 c θ) -
    (2 * x2 c θ * y2t c θ - 2 * y2 c θ * x2t c θ) * (e.l * e.kappa * x1 c θ) +
    r * ((2 * y2 c θ * z2t c θ - 2 * z2 c θ * y2t c θ) *
        (x2 d θ - e.l * e.tau * y2 c θ + e.l * e.kappa * z2 c θ) +
      (2 * z2 c θ * x2t c θ - 2 * x2 c θ * z2t c θ) * (y2 d θ + e.l * e.tau * x2 c θ) +
      (2 * x2 c θ * y2t c θ - 2 * y2 c θ * x2t c θ) * (z2 d θ - e.l * e.kappa * x2 c θ)), by fun_prop, fun r => ?_⟩
  unfold jacobian
  rw [dr_eq, dtheta_eq]
  simp only [dphi, X_eq, Y_eq, Z_eq, h1, h2, h3, h1t, h2t, h3t, k1, k2, k3, dot, cross]
  ring

theorem second_coef (i : In ℝ) (r : R2.R2 ℝ) (j : Nat) : Second (coef i r j) := ⟨rfl, rfl, rfl, rfl, rfl, rfl, rfl⟩
theorem second_dcoef (i : In ℝ) (r : R2.R2 ℝ) (j : Nat) : Second (dcoef i r j) := ⟨rfl, rfl, rfl, rfl, rfl, rfl, rfl⟩

/-- **C60.** The five coefficients are those of the first three orders of the Jacobian of the computed
second-order position, whatever the solution of the linear system was: the difference is of order
`r^4`. -/
theorem jacobian_expansion {i : In ℝ} (ok : Ok i) (x : Nat → ℝ) {j : Nat} (hj : j < i.cfg.nphi) (θ : ℝ) :
    Order 4 fun r =>
      jacobian (pt i (finish realOps i x) j) (coef i (finish realOps i x) j) (dcoef i (finish realOps i x) j) r θ -
        sqrtg (jac i (finish realOps i x) j) r θ := by
  have har := (area_relations ok x hj).1
  generalize hr : finish realOps i x = r2 at har ⊢
  obtain ⟨q, hq, h⟩ := jacobian_eq (pt i r2 j) (second_coef i r2 j) (second_dcoef i r2 j) θ
  have hsc := Real.sin_sq_add_cos_sq θ
  have d1 : i.r1.dX1c j = der i i.r1.X1c j := by rw [← der_eq, ok.r1]; rfl
  have d2 : i.r1.dY1s j = der i i.r1.Y1s j := by rw [← der_eq, ok.r1]; rfl
  have d3 : i.r1.dY1c j = der i i.r1.Y1c j := by rw [← der_eq, ok.r1]; rfl
  have d4 : (pre i).dZ20 j = der i (pre i).Z20 j := der_eq i _ j
  have d5 : (pre i).dZ2s j = der i (pre i).Z2s j := der_eq i _ j
  have d6 : (pre i).dZ2c j = der i (pre i).Z2c j := der_eq i _ j
  have e : ∀ r, jacobian (pt i r2 j) (coef i r2 j) (dcoef i r2 j) r θ - sqrtg (jac i r2 j) r θ = r ^ 4 * q r := by
    intro r
    rw [h]
    unfold sqrtg jac
    rw [d1, d2, d3, d4, d5, d6]
    simp only [coef] at har
    simp only [x1, x2, y1, y2, z2, x1t, x2t, y1t, y2t, z2t, coef, dcoef, pt]
    rw [Real.sin_two_mul, Real.cos_two_mul']
    generalize Real.sin θ = s at hsc ⊢
    generalize Real.cos θ = c at hsc ⊢
    generalize der i i.r1.X1c j = a1
    generalize der i i.r1.Y1s j = a2
    generalize der i i.r1.Y1c j = a3
    generalize der i (pre i).Z20 j = a4
    generalize der i (pre i).Z2s j = a5
    generalize der i (pre i).Z2c j = a6
    generalize (pre i).Z20 j = b1
    generalize (pre i).Z2s j = b2
    generalize (pre i).Z2c j = b3
    generalize (pre i).X2s j = b4 at har ⊢
    generalize (pre i).X2c j = b5 at har ⊢
    generalize i.r1.X1c j = f1 at har ⊢
    generalize i.r1.Y1s j = f2 at har ⊢
    generalize i.r1.Y1c j = f3 at har ⊢
    generalize r2.X20 j = m1 at har ⊢
    generalize r2.Y20 j = m2 at har ⊢
    generalize r2.Y2s j = m3 at har ⊢
    generalize r2.Y2c j = m4 at har ⊢
    generalize i.cfg.curvature j = k1
    generalize i.cfg.torsion j = k2
    generalize i.G0overB0 = l
    have s2 : s ^ 2 = 1 - c ^ 2 := by linarith
    have s3 : s ^ 3 = s * (1 - c ^ 2) := by rw [← s2]; ring
    have s4 : s ^ 4 = (1 - c ^ 2) ^ 2 := by rw [← s2]; ring
    linear_combination (norm := skip) (2 * l * s * r ^ 2) * har
    ring_nf
    simp only [s2, s3, s4]
    ring
  have h1 : Asymptotics.IsBigO (nhdsWithin (0 : ℝ) {0}ᶜ) q fun _ => (1 : ℝ) :=
    ((hq.tendsto 0).mono_left nhdsWithin_le_nhds).isBigO_one ℝ
  unfold Order
  simp only [e]
  exact ((Asymptotics.isBigO_refl (fun r : ℝ => r ^ 4) _).mul h1).congr_right fun r => by simp

/-- **C60.** On the axis the Jacobian is `sG spsi dl/dphi`, never zero, and its first variation follows the
field strength: `g1c = -2 eta_bar g0`. -/
theorem first_coefficients {i : In ℝ} (ok : Ok i) (x : Nat → ℝ) {j : Nat} (hj : j < i.cfg.nphi) :
    (jac i (finish realOps i x) j).g0 = i.cfg.sG * i.cfg.spsi * i.G0overB0 ∧
      (jac i (finish realOps i x) j).g0 ≠ 0 ∧
      (jac i (finish realOps i x) j).g1c = -2 * i.cfg.etaBar * (jac i (finish realOps i x) j).g0 := by
  have ha := ok.area hj
  have har := (area_relations ok x hj).2
  have h1 := ok.sGsq
  have h2 := ok.spsisq
  have hl := ok.l
  have hX : i.cfg.curvature j * i.r1.X1c j = i.cfg.etaBar := by
    rw [ok.X1c, mul_div_cancel₀ _ (ok.kappa j hj)]
  generalize finish realOps i x = r2 at har ⊢
  have e0 : (jac i r2 j).g0 = i.cfg.sG * i.cfg.spsi * i.G0overB0 := by
    change i.G0overB0 * i.r1.X1c j * i.r1.Y1s j = _
    linear_combination i.G0overB0 * ha
  refine ⟨e0, ?_, ?_⟩
  · rw [e0]
    intro e
    have : ((i.cfg.sG : ℝ) * i.cfg.spsi * i.G0overB0) ^ 2 = i.G0overB0 ^ 2 := by
      rw [mul_pow, mul_pow, h1, h2]; ring
    rw [e] at this
    exact hl (by nlinarith)
  · simp only [coef, pt] at har
    change i.G0overB0 * (-2 * (pre i).X2s j * i.r1.Y1c j + 2 * r2.X20 j * i.r1.Y1s j +
      2 * (pre i).X2c j * i.r1.Y1s j + 2 * i.r1.X1c j * r2.Y2s j -
      i.r1.X1c j * i.r1.X1c j * i.r1.Y1s j * i.cfg.curvature j) =
      -2 * i.cfg.etaBar * (i.G0overB0 * i.r1.X1c j * i.r1.Y1s j)
    rw [← hX]
    linear_combination 2 * i.G0overB0 * har

example : Ok sample ∧ 0 < sample.cfg.nphi ∧ (jac sample (finish realOps sample sampleX) 0).g0 ≠ 0 ∧
    (jac sample (finish realOps sample sampleX) 0).g1c ≠ 0 := by
  have h0 : 0 < sample.cfg.nphi := by norm_num [sample, R1.sample]
  obtain ⟨-, h1, h2⟩ := first_coefficients sample_ok sampleX h0
  refine ⟨sample_ok, h0, h1, ?_⟩
  rw [h2]
  exact mul_ne_zero (mul_ne_zero (by norm_num) sample_ok.eta) h1

end Qsc.RSing
