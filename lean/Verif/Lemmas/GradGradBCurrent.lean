import Verif.Lemmas.GradGradBCurl
import Verif.Lemmas.GradGradBTaylor

/-!
# The current expanded in the distance from the axis, compared with the curl of the grad grad B tensor
-/

namespace Qsc.GradGradB

open Qsc.Spec.NearAxis Real

/-- The remaining values at a grid point are those of an expansion. -/
structure MatchCo (a : At ℝ) (z20 beta : ℝ) (e : Pt) : Prop where
  spsi : e.spsi = a.spsi
  G2 : e.G2 = a.G2 + (a.iota - a.iotaN) * a.I2
  I2 : e.I2 = a.I2
  beta : e.beta1s = beta

section
variable (e : Pt) (c d : Coef) (θ : ℝ)

theorem taylor1_j (b : Nat → ℝ) (M : Nat → Nat → ℝ) (k : Nat) :
    HasJet (fun r => taylor1 b M (position c r θ) k) (b k) (M 0 k * x1 c θ + M 1 k * y1 c θ)
      (M 0 k * x2 c θ + M 1 k * y2 c θ + M 2 k * z2 c θ) := by
  have k' := fun v : ℝ => HasJet.const v
  have h1 := ((((k' (b k)).add ((k' (M 0 k)).mul (X_j c θ))).add ((k' (M 1 k)).mul (Y_j c θ))).add
    ((k' (M 2 k)).mul (Z_j c θ)))
  refine (h1.of_eq fun r _ => ?_).congr ?_ ?_ ?_
  · simp only [taylor1, Finset.sum_range_succ, Finset.sum_range_zero, comp, position]
    ring
  all_goals ring

/-- `-G'` and `I' - d beta / d theta`. -/
theorem u_j : HasJet (fun r => -(deriv (G e) r / (e.spsi * e.B0 * r))) (-(2 * e.G2 / (e.spsi * e.B0))) 0 0 := by
  refine HasJet.mk (q := fun _ => 0) continuous_const fun r hr => ?_
  have d3 : deriv (G e) r = 2 * e.G2 * r :=
    ((((hasDerivAt_pow 2 r).const_mul e.G2).const_add e.G0).congr_deriv (by norm_num; ring)).deriv
  rw [d3, mul_div_mul_right _ _ hr]; ring

theorem v_j : HasJet (fun r => deriv (I e) r / (e.spsi * e.B0 * r) - deriv (Spec.NearAxis.beta e r) θ)
    (2 * e.I2 / (e.spsi * e.B0)) (-(e.beta1s * cos θ)) 0 := by
  refine HasJet.mk (q := fun _ => 0) continuous_const fun r hr => ?_
  have d4 : deriv (I e) r = 2 * e.I2 * r :=
    (((hasDerivAt_pow 2 r).const_mul e.I2).congr_deriv (by norm_num; ring)).deriv
  have d1 : deriv (Spec.NearAxis.beta e r) θ = r * e.beta1s * cos θ := ((hasDerivAt_sin θ).const_mul (r * e.beta1s)).deriv
  rw [d4, d1, mul_div_mul_right _ _ hr]; ring

end

section
variable {a : At ℝ} {eta z20 beta p : ℝ} {e : Pt} {c d : Coef}

theorem current_order (h : First a eta) (m : Match a eta e c d) (m' : MatchCo a z20 beta e) (q : Second a)
    (s : Smooth a) (w : SecondRule a) (v : Covariant a eta z20 beta p) (t : Solv a z20 beta) (θ : ℝ) {k : Nat}
    (hk : k < 3) : Order 2 fun r => comp (current e c d r θ) k -
      taylor1 (onAxis (2 * a.sG * a.spsi * a.I2)) (curl (alt a)) (position c r θ) k := by
  have hG : e.G0 ≠ 0 := by
    rw [m.G0, h.G0]
    refine mul_ne_zero (mul_ne_zero ?_ h.lp) h.B0
    rcases h.sG with g | g <;> rw [g] <;> norm_num
  have hG' : a.G0 ≠ 0 := by rw [← m.G0]; exact hG
  have hg : ∀ᶠ r in nhdsWithin (0 : ℝ) {0}ᶜ, G e r + e.iotaN * I e r ≠ 0 := by
    have hc : Continuous fun r => G e r + e.iotaN * I e r := by unfold G I; fun_prop
    have ht := (hc.tendsto 0).mono_left (nhdsWithin_le_nhds (s := {0}ᶜ))
    have h0 : G e 0 + e.iotaN * I e 0 = e.G0 := by unfold G I; ring
    rw [h0] at ht
    exact ht.eventually_ne hG
  have hf : fac a * a.G0 = a.B0 ^ 2 := by unfold fac; field_simp
  have hl : a.B0 ^ 2 * a.lp = a.G0 * (a.sG * a.B0) := by
    rw [h.G0]; rcases h.sG with g | g <;> rw [g] <;> ring
  have hI : a.spsi * a.B0 * iPrime a = 2 * a.I2 := by
    unfold iPrime
    have := h.B0
    have : a.spsi ≠ 0 := by rcases h.spsi with g | g <;> rw [g] <;> norm_num
    field_simp
  have hsp : a.spsi * a.spsi = 1 := by rcases h.spsi with g | g <;> rw [g] <;> norm_num
  have eg : 2 * e.G2 / (e.spsi * e.B0) = gPrime a := by rw [m'.G2, m'.spsi, m.B0]; rfl
  have ei : 2 * e.I2 / (e.spsi * e.B0) = iPrime a := by rw [m'.I2, m'.spsi, m.B0]; rfl
  have hJ : ∃ z, HasJet (fun r => B e r θ ^ 2 * (-(deriv (G e) r / (e.spsi * e.B0 * r)) * comp (dtheta c r θ) k +
      (deriv (I e) r / (e.spsi * e.B0 * r) - deriv (Spec.NearAxis.beta e r) θ) * comp (dphi e c d r θ) k) -
      (G e r + e.iotaN * I e r) *
        taylor1 (onAxis (2 * a.sG * a.spsi * a.I2)) (curl (alt a)) (position c r θ) k) 0 0 z := by
    have hu := u_j e
    have hv := v_j e θ
    rw [eg] at hu
    rw [ei] at hv
    match k, hk with
    | 0, _ =>
      have c0 := curl00 h q s w v
      have c1 := curl10 h q s w v
      refine ⟨_, ((((Bsq_j e θ).mul ((hu.mul (dtheta_n c θ)).add (hv.mul (dphi_n c d θ e))))).sub
        ((GI_j e).mul (taylor1_j c θ _ _ 0))).congr ?_ ?_ rfl⟩
      · simp [onAxis]
      · simp only [onAxis, curl, alt, x1, y1, x1t, m.B0, m.G0, m.l, m.tau, m.X1c, m.Y1s, m.Y1c, m.dX1c]
        linear_combination -a.G0 * cos θ * c0 - a.G0 * sin θ * c1 +
          (-cos θ * (iPrime a * (a.dX1c - a.lp * a.tor * a.Y1c)) -
            sin θ * (gPrime a * a.X1c - iPrime a * (a.lp * a.tor * a.Y1s))) * hf
    | 1, _ =>
      have c0 := curl01 h q s w v
      have c1 := curl11 h q s w v
      refine ⟨_, ((((Bsq_j e θ).mul ((hu.mul (dtheta_b c θ)).add (hv.mul (dphi_b c d θ e))))).sub
        ((GI_j e).mul (taylor1_j c θ _ _ 1))).congr ?_ ?_ rfl⟩
      · simp [onAxis]
      · simp only [onAxis, curl, alt, x1, y1, y1t, m.B0, m.G0, m.l, m.tau, m.X1c, m.Y1s, m.Y1c, m.dY1c, m.dY1s]
        linear_combination -a.G0 * cos θ * c0 - a.G0 * sin θ * c1 +
          (-cos θ * (-gPrime a * a.Y1s + iPrime a * (a.dY1c + a.lp * a.tor * a.X1c)) -
            sin θ * (gPrime a * a.Y1c + iPrime a * a.dY1s)) * hf
    | 2, _ =>
      have c0 := curl02 h q s w v t
      have c1 := curl12 h q s w v t
      have hx := h.X1c
      refine ⟨_, ((((Bsq_j e θ).mul ((hu.mul (dtheta_t c θ)).add (hv.mul (dphi_t c d θ e))))).sub
        ((GI_j e).mul (taylor1_j c θ _ _ 2))).congr ?_ ?_ rfl⟩
      · simp only [onAxis, m.B0, m.l, m.G0, if_true]
        linear_combination iPrime a * hl + a.G0 * a.sG * a.spsi * hI - a.G0 * a.sG * a.B0 * iPrime a * hsp
      · have c0' : (alt001 a - alt010 a) * a.X1c = fac a * (-(a.lp * a.kap * iPrime a) * a.X1c - beta * a.lp +
            2 * eta * a.lp * iPrime a) := by rw [c0]; field_simp
        simp only [curl, alt, x1, y1, b1, m.B0, m.G0, m.l, m.kappa, m.eta, m.X1c, m.Y1s, m.Y1c, m'.beta]
        linear_combination -a.G0 * cos θ * c0' - a.G0 * (a.Y1s * sin θ + a.Y1c * cos θ) * c1 -
          cos θ * (-(a.lp * a.kap * iPrime a) * a.X1c - beta * a.lp + 2 * eta * a.lp * iPrime a) * hf
  obtain ⟨z, hJ⟩ := hJ
  refine order_div 2 (GI_j e) hG (hJ.order_two.congr' ?_ (Filter.EventuallyEq.refl _ _))
  filter_upwards [hg] with r hr
  have hd : comp (current e c d r θ) k = B e r θ ^ 2 / (G e r + e.iotaN * I e r) *
      (-(deriv (G e) r / (e.spsi * e.B0 * r)) * comp (dtheta c r θ) k +
        (deriv (I e) r / (e.spsi * e.B0 * r) - deriv (Spec.NearAxis.beta e r) θ) * comp (dphi e c d r θ) k) := by
    match k, hk with
    | 0, _ => rfl
    | 1, _ => rfl
    | 2, _ => rfl
  rw [hd, mul_sub, ← mul_assoc, mul_div_cancel₀ _ hr]

end

end Qsc.GradGradB
