import Verif.Spec.NearAxis
import Mathlib.Analysis.SpecialFunctions.Integrals.Basic
import Mathlib.Analysis.Asymptotics.Lemmas
import Mathlib.Tactic.LinearCombination
import Mathlib.Tactic.FieldSimp
import Mathlib.Tactic.Positivity

/-!
# The poloidal integral of the Jacobian, expanded in `r`
-/

namespace Qsc.Spec.NearAxis

open Real

theorem Order.of_bound {n : Nat} {f : ℝ → ℝ} (δ C : ℝ) (hδ : 0 < δ)
    (h : ∀ r, r ≠ 0 → |r| < δ → |f r| ≤ C * |r| ^ n) : Order n f := by
  refine Asymptotics.IsBigO.of_bound C ?_
  filter_upwards [self_mem_nhdsWithin, nhdsWithin_le_nhds (Metric.ball_mem_nhds (0 : ℝ) hδ)] with r h0 hr
  rw [Real.norm_eq_abs, Real.norm_eq_abs, abs_pow]
  refine h r h0 ?_
  rwa [Metric.mem_ball, dist_zero_right, Real.norm_eq_abs] at hr

theorem inv_sq_expand {u : ℝ} (h : 1 + u ≠ 0) :
    1 / (1 + u) ^ 2 = 1 - 2 * u + 3 * u ^ 2 - (4 + 3 * u) * u ^ 3 / (1 + u) ^ 2 := by
  field_simp; ring

/-- The relative variation of the field strength over `r`. -/
noncomputable def va (e : Pt) (θ : ℝ) : ℝ := e.etaBar * cos θ
noncomputable def vb (e : Pt) (θ : ℝ) : ℝ := (e.B20 + e.B2s * sin (2 * θ) + e.B2c * cos (2 * θ)) / e.B0

theorem B_eq (e : Pt) (hB : e.B0 ≠ 0) (r θ : ℝ) : B e r θ = e.B0 * (1 + r * (va e θ + r * vb e θ)) := by
  unfold B va vb; field_simp; ring

noncomputable def vM (e : Pt) : ℝ := |e.etaBar| + (|e.B20| + |e.B2s| + |e.B2c|) / |e.B0| + 1

theorem vM_pos (e : Pt) : 1 ≤ vM e := by
  unfold vM
  have : 0 ≤ (|e.B20| + |e.B2s| + |e.B2c|) / |e.B0| := by positivity
  linarith [abs_nonneg e.etaBar]

theorem va_vb (e : Pt) (θ : ℝ) : |va e θ| + |vb e θ| ≤ vM e := by
  have h1 : |va e θ| ≤ |e.etaBar| := by
    unfold va; rw [abs_mul]
    exact mul_le_of_le_one_right (abs_nonneg _) (abs_cos_le_one θ)
  have h2 : |vb e θ| ≤ (|e.B20| + |e.B2s| + |e.B2c|) / |e.B0| := by
    unfold vb; rw [abs_div]
    refine div_le_div_of_nonneg_right ?_ (abs_nonneg _)
    refine (abs_add_le _ _).trans (add_le_add ((abs_add_le _ _).trans (add_le_add le_rfl ?_)) ?_)
    · rw [abs_mul]; exact mul_le_of_le_one_right (abs_nonneg _) (abs_sin_le_one _)
    · rw [abs_mul]; exact mul_le_of_le_one_right (abs_nonneg _) (abs_cos_le_one _)
  unfold vM; linarith

/-- The remainder over `r^3`. -/
noncomputable def vq (e : Pt) (r θ : ℝ) : ℝ :=
  6 * (va e θ * vb e θ) + 3 * r * vb e θ ^ 2 -
    (4 + 3 * (r * (va e θ + r * vb e θ))) * (va e θ + r * vb e θ) ^ 3 / (1 + r * (va e θ + r * vb e θ)) ^ 2

theorem small (e : Pt) {r : ℝ} (hr : |r| < 1 / (4 * vM e)) (θ : ℝ) :
    |va e θ + r * vb e θ| ≤ vM e ∧ |r * (va e θ + r * vb e θ)| ≤ 1 / 4 := by
  have hM := vM_pos e
  have hab := va_vb e θ
  have hr1 : |r| ≤ 1 := by
    refine hr.le.trans ?_
    rw [div_le_one (by linarith)]; linarith
  have h1 : |va e θ + r * vb e θ| ≤ vM e := by
    refine (abs_add_le _ _).trans (le_trans (add_le_add le_rfl ?_) hab)
    rw [abs_mul]; exact mul_le_of_le_one_left (abs_nonneg _) hr1
  refine ⟨h1, ?_⟩
  rw [abs_mul]
  have : |r| * vM e ≤ 1 / 4 := by
    have := mul_le_mul_of_nonneg_right hr.le (by linarith : (0 : ℝ) ≤ vM e)
    refine this.trans (le_of_eq ?_)
    field_simp
  exact (mul_le_mul_of_nonneg_left h1 (abs_nonneg _)).trans this

theorem vq_bound (e : Pt) {r : ℝ} (hr : |r| < 1 / (4 * vM e)) (θ : ℝ) :
    |vq e r θ| ≤ 9 * vM e ^ 2 + 16 * vM e ^ 3 := by
  have hM := vM_pos e
  have hab := va_vb e θ
  obtain ⟨h1, h2⟩ := small e hr θ
  have hr1 : |r| ≤ 1 := by
    refine hr.le.trans ?_
    rw [div_le_one (by linarith)]; linarith
  have ha : |va e θ| ≤ vM e := by linarith [abs_nonneg (vb e θ)]
  have hb : |vb e θ| ≤ vM e := by linarith [abs_nonneg (va e θ)]
  unfold vq
  generalize va e θ + r * vb e θ = s at h1 h2 ⊢
  have b1 : |6 * (va e θ * vb e θ)| ≤ 6 * vM e ^ 2 := by
    rw [abs_mul, abs_mul, abs_of_pos (by norm_num : (0 : ℝ) < 6), pow_two]
    have := mul_le_mul ha hb (abs_nonneg _) (by linarith)
    linarith
  have b2 : |3 * r * vb e θ ^ 2| ≤ 3 * vM e ^ 2 := by
    rw [abs_mul, abs_mul, abs_of_pos (by norm_num : (0 : ℝ) < 3), abs_pow]
    have h3 : |vb e θ| ^ 2 ≤ vM e ^ 2 := pow_le_pow_left₀ (abs_nonneg _) hb 2
    have := mul_le_mul (mul_le_mul_of_nonneg_left hr1 (by norm_num : (0 : ℝ) ≤ 3)) h3 (by positivity) (by norm_num)
    linarith
  have h5 := abs_le.1 h2
  have b3 : |(4 + 3 * (r * s)) * s ^ 3 / (1 + r * s) ^ 2| ≤ 16 * vM e ^ 3 := by
    rw [abs_div, abs_mul, abs_pow, abs_of_nonneg (sq_nonneg (1 + r * s)),
      abs_of_nonneg (by linarith : (0 : ℝ) ≤ 4 + 3 * (r * s))]
    have hden : (1 / 2 : ℝ) ≤ (1 + r * s) ^ 2 := by nlinarith
    rw [div_le_iff₀ (by linarith)]
    have h3 : |s| ^ 3 ≤ vM e ^ 3 := pow_le_pow_left₀ (abs_nonneg _) h1 3
    have h4 : (4 + 3 * (r * s)) * |s| ^ 3 ≤ 5 * vM e ^ 3 :=
      mul_le_mul (by linarith) h3 (by positivity) (by norm_num)
    have hp : 0 ≤ vM e ^ 3 := by positivity
    nlinarith
  refine (abs_sub _ _).trans ?_
  refine (add_le_add ((abs_add_le _ _).trans (add_le_add b1 b2)) b3).trans (le_of_eq ?_)
  ring

theorem inv_B (e : Pt) (hB : e.B0 ≠ 0) {r : ℝ} (hr : |r| < 1 / (4 * vM e)) (θ : ℝ) :
    1 / B e r θ ^ 2 = (1 / e.B0 ^ 2) * ((1 - 2 * r * va e θ + r ^ 2 * (3 * va e θ ^ 2 - 2 * vb e θ)) +
      r ^ 3 * vq e r θ) := by
  have h5 := abs_le.1 (small e hr θ).2
  have hne : 1 + r * (va e θ + r * vb e θ) ≠ 0 := by linarith
  rw [B_eq e hB, mul_pow, ← one_div_mul_one_div, inv_sq_expand hne]
  unfold vq
  ring

theorem integral_main (e : Pt) (r : ℝ) :
    ∫ θ in 0..2 * π, (1 - 2 * r * va e θ + r ^ 2 * (3 * va e θ ^ 2 - 2 * vb e θ)) =
      2 * π * (1 + r ^ 2 * (3 * e.etaBar ^ 2 / 2 - 2 * e.B20 / e.B0)) := by
  have e1 : ∀ θ, 1 - 2 * r * va e θ + r ^ 2 * (3 * va e θ ^ 2 - 2 * vb e θ) =
      (1 + r ^ 2 * (3 * e.etaBar ^ 2 / 2 - 2 * e.B20 / e.B0)) + ((-2 * r * e.etaBar) * cos θ +
        ((-2 * r ^ 2 * e.B2s / e.B0) * sin (2 * θ) +
          (r ^ 2 * (3 * e.etaBar ^ 2 / 2 - 2 * e.B2c / e.B0)) * cos (2 * θ))) := by
    intro θ
    have hC : cos θ ^ 2 = (1 + cos (2 * θ)) / 2 := by rw [Real.cos_two_mul]; ring
    unfold va vb
    rw [mul_pow, hC]
    ring
  have i1 : ∫ θ in 0..2 * π, sin (2 * θ) = 0 := by
    rw [intervalIntegral.integral_comp_mul_left sin (by norm_num : (2 : ℝ) ≠ 0), integral_sin]
    have : cos (2 * (2 * π)) = 1 := by
      have := Real.cos_nat_mul_two_pi 2; push_cast at this; exact this
    simp [this]
  have i2 : ∫ θ in 0..2 * π, cos (2 * θ) = 0 := by
    rw [intervalIntegral.integral_comp_mul_left cos (by norm_num : (2 : ℝ) ≠ 0), integral_cos]
    have : sin (2 * (2 * π)) = 0 := by
      rw [Real.sin_two_mul, Real.sin_two_pi]; ring
    simp [this]
  have i3 : ∫ θ in 0..2 * π, cos θ = 0 := by rw [integral_cos]; simp
  simp only [e1]
  generalize 1 + r ^ 2 * (3 * e.etaBar ^ 2 / 2 - 2 * e.B20 / e.B0) = k0
  rw [intervalIntegral.integral_add, intervalIntegral.integral_add, intervalIntegral.integral_add,
    intervalIntegral.integral_const_mul, intervalIntegral.integral_const_mul,
    intervalIntegral.integral_const_mul, i1, i2, i3, intervalIntegral.integral_const]
  · simp only [smul_eq_mul]; ring
  all_goals exact Continuous.intervalIntegrable (by fun_prop) _ _

theorem va_cont (e : Pt) : Continuous (va e) := by unfold va; fun_prop
theorem vb_cont (e : Pt) : Continuous (vb e) := by unfold vb; fun_prop

theorem vq_cont (e : Pt) {r : ℝ} (hr : |r| < 1 / (4 * vM e)) : Continuous (vq e r) := by
  have h1 := va_cont e
  have h2 := vb_cont e
  unfold vq
  refine Continuous.sub (by fun_prop) (Continuous.div (by fun_prop) (by fun_prop) fun θ => ?_)
  have h5 := abs_le.1 (small e hr θ).2
  have hne : 1 + r * (va e θ + r * vb e θ) ≠ 0 := by linarith
  exact pow_ne_zero 2 hne

/-- The integral over `theta` of `1 / B^2`. -/
theorem integral_inv_B (e : Pt) (hB : e.B0 ≠ 0) : ∃ C, ∀ r : ℝ, |r| < 1 / (4 * vM e) →
    |(∫ θ in 0..2 * π, 1 / B e r θ ^ 2) -
      2 * π / e.B0 ^ 2 * (1 + r ^ 2 * (3 * e.etaBar ^ 2 / 2 - 2 * e.B20 / e.B0))| ≤ C * |r| ^ 3 := by
  refine ⟨1 / e.B0 ^ 2 * (2 * π * (9 * vM e ^ 2 + 16 * vM e ^ 3)), fun r hr => ?_⟩
  have h1 := va_cont e
  have h2 := vb_cont e
  have hq := vq_cont e hr
  simp only [inv_B e hB hr]
  rw [intervalIntegral.integral_const_mul, intervalIntegral.integral_add
    (Continuous.intervalIntegrable (by fun_prop) _ _) (Continuous.intervalIntegrable (by fun_prop) _ _),
    integral_main, intervalIntegral.integral_const_mul]
  have hI : |∫ θ in 0..2 * π, vq e r θ| ≤ (9 * vM e ^ 2 + 16 * vM e ^ 3) * (2 * π) := by
    have := intervalIntegral.norm_integral_le_of_norm_le_const (a := 0) (b := 2 * π) (f := vq e r)
      (C := 9 * vM e ^ 2 + 16 * vM e ^ 3) fun θ _ => by rw [Real.norm_eq_abs]; exact vq_bound e hr θ
    rwa [Real.norm_eq_abs, sub_zero, abs_of_pos (a := 2 * π) (by positivity)] at this
  have e1 : ∀ I K : ℝ, 1 / e.B0 ^ 2 * (2 * π * K + r ^ 3 * I) - 2 * π / e.B0 ^ 2 * K =
      1 / e.B0 ^ 2 * (r ^ 3 * I) := fun I K => by ring
  rw [e1, abs_mul, abs_of_nonneg (by positivity : 0 ≤ 1 / e.B0 ^ 2), abs_mul, abs_pow]
  have hp : 0 ≤ |r| ^ 3 := by positivity
  have := mul_le_mul_of_nonneg_left (mul_le_mul_of_nonneg_left hI hp) (by positivity : 0 ≤ 1 / e.B0 ^ 2)
  refine this.trans (le_of_eq ?_)
  ring

/-- The integral over `theta` of the Jacobian `|G + iota_N I| / B^2`. -/
theorem integral_jacobian (e : Pt) (hB : e.B0 ≠ 0) (hG : e.G0 ≠ 0) :
    Order 3 fun r => (∫ θ in 0..2 * π, |G e r + e.iotaN * I e r| / B e r θ ^ 2) -
      2 * π * |e.G0| / e.B0 ^ 2 * (1 + r ^ 2 * (3 * e.etaBar ^ 2 / 2 - 2 * e.B20 / e.B0 +
        (e.G2 + e.iotaN * e.I2) / e.G0)) := by
  obtain ⟨C, hC⟩ := integral_inv_B e hB
  have hM := vM_pos e
  generalize hg : (e.G2 + e.iotaN * e.I2) / e.G0 = g
  generalize hk : 3 * e.etaBar ^ 2 / 2 - 2 * e.B20 / e.B0 = k at hC ⊢
  have hg1 : 0 < |g| + 1 := by positivity
  refine Order.of_bound (min (1 / (4 * vM e)) (1 / (|g| + 1)))
    (|e.G0| * ((1 + |g|) * C) + 2 * π * |e.G0| / e.B0 ^ 2 * |k * g|) (lt_min (by positivity) (by positivity))
    fun r h0 hr => ?_
  have hr1 : |r| < 1 / (4 * vM e) := hr.trans_le (min_le_left _ _)
  have hr2 : |r| < 1 / (|g| + 1) := hr.trans_le (min_le_right _ _)
  have hr3 : |r| < 1 := hr2.trans_le (by rw [div_le_one hg1]; linarith [abs_nonneg g])
  have hsq : |r ^ 2 * g| ≤ 1 := by
    rw [abs_mul, abs_pow]
    have a1 : |r| ^ 2 ≤ |r| := by nlinarith [abs_nonneg r]
    have a2 : |r| * (|g| + 1) ≤ 1 := by rw [lt_div_iff₀ hg1] at hr2; exact hr2.le
    nlinarith [abs_nonneg g, abs_nonneg r, mul_le_mul_of_nonneg_right a1 (abs_nonneg g)]
  have hG' : |G e r + e.iotaN * I e r| = |e.G0| * (1 + r ^ 2 * g) := by
    have : G e r + e.iotaN * I e r = e.G0 * (1 + r ^ 2 * g) := by
      rw [← hg]; unfold G I; field_simp; ring
    rw [this, abs_mul, abs_of_nonneg (by linarith [(abs_le.1 hsq).1] : 0 ≤ 1 + r ^ 2 * g)]
  have hint : (∫ θ in 0..2 * π, |G e r + e.iotaN * I e r| / B e r θ ^ 2) =
      |e.G0| * (1 + r ^ 2 * g) * ∫ θ in 0..2 * π, 1 / B e r θ ^ 2 := by
    rw [hG', ← intervalIntegral.integral_const_mul]
    exact intervalIntegral.integral_congr fun θ _ => by ring
  rw [hint]
  have hc := hC r hr1
  generalize (∫ θ in 0..2 * π, 1 / B e r θ ^ 2) = J at hc ⊢
  have e1 : |e.G0| * (1 + r ^ 2 * g) * J - 2 * π * |e.G0| / e.B0 ^ 2 * (1 + r ^ 2 * (k + g)) =
      |e.G0| * ((1 + r ^ 2 * g) * (J - 2 * π / e.B0 ^ 2 * (1 + r ^ 2 * k))) +
        2 * π * |e.G0| / e.B0 ^ 2 * (r ^ 4 * (k * g)) := by ring
  rw [e1, add_mul (|e.G0| * ((1 + |g|) * C))]
  have hp3 : 0 ≤ |r| ^ 3 := by positivity
  refine (abs_add_le _ _).trans (add_le_add ?_ ?_)
  · have hg2 : |r ^ 2 * g| ≤ |g| := by
      rw [abs_mul, abs_pow]
      exact mul_le_of_le_one_left (abs_nonneg _) (pow_le_one₀ (abs_nonneg _) hr3.le)
    have hg3 : |1 + r ^ 2 * g| ≤ 1 + |g| := by
      refine (abs_add_le _ _).trans ?_
      rw [abs_one]; linarith
    rw [abs_mul, abs_abs, abs_mul, mul_assoc, mul_assoc]
    exact mul_le_mul_of_nonneg_left (mul_le_mul hg3 hc (abs_nonneg _) (by positivity)) (abs_nonneg _)
  · rw [abs_mul, abs_of_nonneg (by positivity : 0 ≤ 2 * π * |e.G0| / e.B0 ^ 2), mul_assoc (2 * π * |e.G0| / e.B0 ^ 2)]
    refine mul_le_mul_of_nonneg_left ?_ (by positivity)
    rw [abs_mul, abs_pow, mul_comm]
    refine mul_le_mul_of_nonneg_left ?_ (abs_nonneg _)
    exact pow_le_pow_of_le_one (abs_nonneg _) hr3.le (by norm_num)

end Qsc.Spec.NearAxis
