import Verif.Spec.Mercier
import Mathlib.Analysis.Complex.Poisson
import Mathlib.Analysis.SpecialFunctions.Integrals.Basic
import Mathlib.MeasureTheory.Integral.IntervalIntegral.Periodic
import Mathlib.Tactic.LinearCombination
import Mathlib.Tactic.FieldSimp
import Mathlib.Tactic.Positivity

/-!
# Integrals over the poloidal angle

The average over `theta` of `cos^2 theta / |grad r|^2`, by the Poisson integral formula.
-/

namespace Qsc.Spec.Mercier

open Real

/-- A positive quadratic form with determinant one, on the circle. -/
noncomputable def form (A B C θ : ℝ) : ℝ := A * cos θ ^ 2 + 2 * B * (sin θ * cos θ) + C * sin θ ^ 2

/-- The same with the double angle. -/
noncomputable def form2 (A B C α : ℝ) : ℝ := (A + C) / 2 + (A - C) / 2 * cos α + B * sin α

theorem form_eq (A B C θ : ℝ) : form A B C θ = form2 A B C (2 * θ) := by
  unfold form form2
  rw [Real.cos_two_mul, Real.sin_two_mul]
  linear_combination C * Real.sin_sq_add_cos_sq θ

variable {A B C : ℝ}

theorem form2_pos (h : A * C - B ^ 2 = 1) (hT : 0 < A + C) (α : ℝ) : 0 < form2 A B C α := by
  have hA : 0 < A := by nlinarith [sq_nonneg B]
  have hα : α = 2 * (α / 2) := by ring
  rw [hα, ← form_eq]
  have : A * form A B C (α / 2) = (A * cos (α / 2) + B * sin (α / 2)) ^ 2 + sin (α / 2) ^ 2 := by
    unfold form; linear_combination sin (α / 2) ^ 2 * h
  have hp : 0 < A * form A B C (α / 2) := by
    rw [this]
    rcases eq_or_ne (sin (α / 2)) 0 with h0 | h0
    · have hc : cos (α / 2) ^ 2 = 1 := by
        have := Real.sin_sq_add_cos_sq (α / 2); rw [h0] at this; linarith
      rw [h0]
      have : (A * cos (α / 2) + B * 0) ^ 2 + 0 ^ 2 = A ^ 2 := by linear_combination A ^ 2 * hc
      rw [this]; positivity
    · positivity
  exact (mul_pos_iff_of_pos_left hA).1 hp

/-- The point of the unit disc whose Poisson kernel is `1 / form2`. -/
noncomputable def pole (A B C : ℝ) : ℂ := ⟨(C - A) / (A + C + 2), -2 * B / (A + C + 2)⟩

theorem pole_norm (h : A * C - B ^ 2 = 1) (hT : 0 < A + C) :
    ‖pole A B C‖ ^ 2 = (A + C - 2) / (A + C + 2) := by
  have : A + C + 2 ≠ 0 := by positivity
  rw [← Complex.normSq_eq_norm_sq, Complex.normSq_apply, pole]
  field_simp
  linear_combination -4 * h

theorem pole_mem (h : A * C - B ^ 2 = 1) (hT : 0 < A + C) : pole A B C ∈ Metric.ball (0 : ℂ) 1 := by
  rw [mem_ball_zero_iff]
  have h1 := pole_norm h hT
  have h2 : (A + C - 2) / (A + C + 2) < 1 := by rw [div_lt_one (by positivity)]; linarith
  rw [← h1] at h2
  nlinarith [norm_nonneg (pole A B C)]

theorem kernel_eq (h : A * C - B ^ 2 = 1) (hT : 0 < A + C) (α : ℝ) :
    (herglotzRieszKernel 0 (pole A B C) (circleMap 0 1 α)).re = 1 / form2 A B C α := by
  have hk := congrFun (poissonKernel_eq_re_herglotzRieszKernel (c := 0) (w := pole A B C)) (circleMap 0 1 α)
  rw [Function.comp_apply] at hk
  rw [← hk, poissonKernel]
  have hp := form2_pos h hT α
  have hne : A + C + 2 ≠ 0 := by positivity
  rw [sub_zero, sub_zero, pole_norm h hT, norm_circleMap_zero, abs_one]
  have hd : ‖circleMap 0 1 α - pole A B C‖ ^ 2 = 4 / (A + C + 2) * form2 A B C α := by
    rw [← Complex.normSq_eq_norm_sq, Complex.normSq_apply]
    have hc : circleMap 0 1 α = ⟨cos α, sin α⟩ := by
      apply Complex.ext <;> simp [circleMap, Complex.exp_re, Complex.exp_im]
    rw [hc]
    simp only [Complex.sub_re, Complex.sub_im, pole, form2]
    field_simp
    have := Real.sin_sq_add_cos_sq α
    linear_combination 2 * (A + C + 2) ^ 2 * this - 8 * h
  rw [hd]
  field_simp
  ring

theorem kernel_integral (h : A * C - B ^ 2 = 1) (hT : 0 < A + C) (f : ℂ → ℂ)
    (hf : Differentiable ℂ f) :
    ∫ α in 0..2 * π, (f (circleMap 0 1 α)).re / form2 A B C α = 2 * π * (f (pole A B C)).re := by
  have hw := pole_mem h hT
  have key := DiffContOnCl.circleAverage_re_herglotzRieszKernel_smul (E := ℂ) (c := 0) (R := 1)
    (hf.diffContOnCl (s := Metric.ball (0 : ℂ) 1)) hw
  have hci : CircleIntegrable ((Complex.re ∘ herglotzRieszKernel 0 (pole A B C)) • f) 0 1 := by
    refine ContinuousOn.circleIntegrable' ?_
    refine ContinuousOn.smul (Complex.continuous_re.comp_continuousOn
      (continuousOn_herglotzRieszKernel_sphere hw)) hf.continuous.continuousOn
  have k2 := Complex.reCLM.circleAverage_comp_comm hci
  rw [key, circleAverage_def] at k2
  simp only [Function.comp_apply, Complex.reCLM_apply, Pi.smul_apply', smul_eq_mul, Complex.real_smul,
    Complex.re_ofReal_mul, kernel_eq h hT] at k2
  rw [← k2]
  have hpi := Real.pi_ne_zero
  rw [← mul_assoc, mul_inv_cancel₀ (by positivity), one_mul]
  exact intervalIntegral.integral_congr fun α _ => by ring

theorem double_angle (g : ℝ → ℝ) (hg : Function.Periodic g (2 * π)) (hc : Continuous g) :
    ∫ θ in 0..2 * π, g (2 * θ) = ∫ α in 0..2 * π, g α := by
  rw [intervalIntegral.integral_comp_mul_left g (by norm_num : (2 : ℝ) ≠ 0), mul_zero]
  have h := hg.intervalIntegral_add_zsmul_eq 2 0 fun a b => hc.intervalIntegrable a b
  have e : (0 : ℝ) + (2 : ℤ) • (2 * π) = 2 * (2 * π) := by simp
  rw [e, zero_add] at h
  rw [h]
  simp

theorem form2_continuous : Continuous (form2 A B C) := by unfold form2; fun_prop

theorem form2_periodic : Function.Periodic (form2 A B C) (2 * π) := fun α => by
  unfold form2; rw [Real.cos_add_two_pi, Real.sin_add_two_pi]

theorem integral_inv (h : A * C - B ^ 2 = 1) (hT : 0 < A + C) :
    ∫ θ in 0..2 * π, 1 / form A B C θ = 2 * π := by
  simp only [form_eq]
  have hd := double_angle (fun α => 1 / form2 A B C α) (fun α => by dsimp only; rw [form2_periodic])
    (continuous_const.div form2_continuous fun α => (form2_pos h hT α).ne')
  rw [hd]
  have := kernel_integral h hT (fun _ => 1) (differentiable_const _)
  simpa using this

theorem integral_cos_sq (h : A * C - B ^ 2 = 1) (hT : 0 < A + C) :
    ∫ θ in 0..2 * π, cos θ ^ 2 / form A B C θ = 2 * π * ((C + 1) / (A + C + 2)) := by
  have e : ∀ θ, cos θ ^ 2 / form A B C θ = (1 + cos (2 * θ)) / 2 / form2 A B C (2 * θ) := by
    intro θ; rw [form_eq, Real.cos_sq]; ring
  simp only [e]
  have hd := double_angle (fun α => (1 + cos α) / 2 / form2 A B C α)
    (fun α => by dsimp only; rw [form2_periodic, Real.cos_add_two_pi])
    ((by fun_prop : Continuous fun α => (1 + cos α) / 2).div form2_continuous fun α => (form2_pos h hT α).ne')
  rw [hd]
  have k := kernel_integral h hT (fun z => (1 + z) / 2) (by fun_prop)
  have hr : ∀ z : ℂ, ((1 + z) / 2).re = (1 + z.re) / 2 := fun z => by
    have : (1 + z) / 2 = ((1 / 2 : ℝ) : ℂ) * (1 + z) := by push_cast; ring
    rw [this, Complex.re_ofReal_mul, Complex.add_re, Complex.one_re]; ring
  have hcm : ∀ α, (circleMap 0 1 α).re = cos α := fun α => by simp [circleMap, Complex.exp_re]
  simp only [hr, hcm] at k
  rw [k]
  have hne : A + C + 2 ≠ 0 := by positivity
  simp only [pole]
  field_simp
  ring

theorem form_half_turn (θ : ℝ) : form A B C (θ + π) = form A B C θ := by
  unfold form; rw [Real.cos_add_pi, Real.sin_add_pi]; ring

theorem form_continuous : Continuous (form A B C) := by unfold form; fun_prop

theorem form_pos (h : A * C - B ^ 2 = 1) (hT : 0 < A + C) (θ : ℝ) : 0 < form A B C θ := by
  rw [form_eq]; exact form2_pos h hT _

theorem integral_cos (h : A * C - B ^ 2 = 1) (hT : 0 < A + C) :
    ∫ θ in 0..2 * π, cos θ / form A B C θ = 0 := by
  have hp : Function.Periodic (fun θ => cos θ / form A B C θ) (2 * π) := fun θ => by
    have : θ + 2 * π = θ + π + π := by ring
    dsimp only
    rw [this, form_half_turn, form_half_turn, Real.cos_add_pi, Real.cos_add_pi, neg_neg]
  have h1 := hp.intervalIntegral_add_eq 0 π
  rw [zero_add] at h1
  have h2 : ∫ θ in π..π + 2 * π, cos θ / form A B C θ = ∫ θ in 0..2 * π, cos (θ + π) / form A B C (θ + π) := by
    rw [intervalIntegral.integral_comp_add_right (fun θ => cos θ / form A B C θ) π, zero_add, add_comm π]
  rw [h1, h2]
  have h3 : ∫ θ in 0..2 * π, cos (θ + π) / form A B C (θ + π) = -∫ θ in 0..2 * π, cos θ / form A B C θ := by
    rw [← intervalIntegral.integral_neg]
    exact intervalIntegral.integral_congr fun θ _ => by
      rw [form_half_turn, Real.cos_add_pi]; ring
  rw [h3, neg_eq_zero]
  have := h1.trans (h2.trans h3)
  linarith

theorem gradR2_eq {X1c Y1s Y1c : ℝ} (h : (X1c * Y1s) ^ 2 = 1) (θ : ℝ) :
    gradR2 X1c Y1s Y1c θ = form (Y1s ^ 2) (-(Y1s * Y1c)) (X1c ^ 2 + Y1c ^ 2) θ := by
  have d1 : deriv (px X1c) θ = -X1c * sin θ :=
    (((hasDerivAt_cos θ).const_mul X1c).congr_deriv (by ring)).deriv
  have d2 : deriv (py Y1s Y1c) θ = Y1s * cos θ - Y1c * sin θ :=
    ((((hasDerivAt_sin θ).const_mul Y1s).add ((hasDerivAt_cos θ).const_mul Y1c)).congr_deriv (by ring)).deriv
  unfold gradR2
  rw [d1, d2]
  have hd : px X1c θ * (Y1s * cos θ - Y1c * sin θ) - py Y1s Y1c θ * (-X1c * sin θ) = X1c * Y1s := by
    unfold px py; linear_combination X1c * Y1s * Real.sin_sq_add_cos_sq θ
  rw [hd, h, div_one]
  unfold form
  ring

theorem det_eq {X1c Y1s Y1c : ℝ} (h : (X1c * Y1s) ^ 2 = 1) :
    Y1s ^ 2 * (X1c ^ 2 + Y1c ^ 2) - (-(Y1s * Y1c)) ^ 2 = 1 := by linear_combination h

theorem tr_pos {X1c Y1s Y1c : ℝ} (h : (X1c * Y1s) ^ 2 = 1) : 0 < Y1s ^ 2 + (X1c ^ 2 + Y1c ^ 2) := by
  have : X1c ≠ 0 := by rintro rfl; norm_num at h
  positivity

end Qsc.Spec.Mercier
