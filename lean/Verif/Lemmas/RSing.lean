import Verif.Lemmas.Field
import Verif.Lemmas.NearAxis
import Verif.Props.Quartic
import Mathlib.Analysis.SpecialFunctions.Complex.Arg

/-!
# Elimination of the radius, half angles, and the search over candidates
-/

namespace Qsc.RSing

open Qsc.Spec.RSing Real

/-! ## The two equations -/

theorem deriv_sqrtg (g : G ℝ) (r θ : ℝ) : deriv (sqrtg g r) θ =
    r ^ 2 * (-g.g1c * sin θ + 2 * r * (g.g2s * cos (2 * θ) - g.g2c * sin (2 * θ))) := by
  have h1 := ((((hasDerivAt_cos θ).const_mul g.g1c).const_mul r).const_add g.g0).add
    ((Spec.NearAxis.two_d θ g.g20 g.g2s g.g2c).const_mul (r ^ 2))
  refine ((h1.const_mul r).congr_deriv ?_).deriv
  ring

/-- The equations solved for a given angle. -/
structure At (g : G ℝ) (r s2 c2 s c : ℝ) : Prop where
  pos : 0 < r
  zero : g.g0 + r * (c * g.g1c) + r ^ 2 * (g.g20 + g.g2s * s2 + g.g2c * c2) = 0
  crit : -g.g1c * s + 2 * r * (g.g2s * c2 - g.g2c * s2) = 0

theorem singular_iff (g : G ℝ) (r θ : ℝ) :
    Singular g r θ ↔ At g r (sin (2 * θ)) (cos (2 * θ)) (sin θ) (cos θ) := by
  constructor
  · rintro ⟨h1, h2, h3⟩
    rw [deriv_sqrtg] at h3
    refine ⟨h1, ?_, (mul_eq_zero.1 h3).resolve_left (pow_ne_zero 2 h1.ne')⟩
    have := (mul_eq_zero.1 h2).resolve_left h1.ne'
    linear_combination this
  · rintro ⟨h1, h2, h3⟩
    refine ⟨h1, ?_, ?_⟩
    · unfold sqrtg
      linear_combination r * h2
    · rw [deriv_sqrtg, h3, mul_zero]

/-- The equation for the angle. -/
def angleEq (k : Ks ℝ) (s2 c2 : ℝ) : ℝ :=
  k.K0 + k.K2s * s2 + k.K2c * c2 + k.K4s * 2 * s2 * c2 + k.K4c * (1 - 2 * s2 * s2)

theorem residualK_eq (k : Ks ℝ) (s2 c2 : ℝ) : residualK realOps k s2 c2 = |angleEq k s2 c2| := rfl

/-- Eliminating the radius. -/
theorem angleEq_unscaled {g : G ℝ} {r s2 c2 s c : ℝ} (h : At g r s2 c2 s c) (h1 : s ^ 2 + c ^ 2 = 1)
    (h2 : s2 = 2 * s * c) (h3 : c2 = c ^ 2 - s ^ 2) : angleEq (unscaled g) s2 c2 = 0 := by
  obtain ⟨-, P, Q⟩ := h
  obtain ⟨D, hD⟩ : ∃ D, D = 2 * (g.g2s * c2 - g.g2c * s2) := ⟨_, rfl⟩
  have Q' : r * D = g.g1c * s := by rw [hD]; linear_combination Q
  have hc2 : c2 ^ 2 = 1 - s2 ^ 2 := by
    rw [h2, h3]; linear_combination (s ^ 2 + c ^ 2 + 1) * h1
  have hs : s ^ 2 = (1 - c2) / 2 := by linear_combination (1 / 2 : ℝ) * h3 + (1 / 2 : ℝ) * h1
  have hsc : s * c = s2 / 2 := by linear_combination (-1 / 2 : ℝ) * h2
  have e : g.g0 * D ^ 2 + g.g1c ^ 2 * (s * c) * D +
      g.g1c ^ 2 * s ^ 2 * (g.g20 + g.g2s * s2 + g.g2c * c2) = 0 := by
    linear_combination D ^ 2 * P - (D * g.g1c * c + (g.g20 + g.g2s * s2 + g.g2c * c2) * (r * D + g.g1c * s)) * Q'
  rw [hs, hsc, hD] at e
  unfold angleEq unscaled
  simp only
  linear_combination 4 * e - (16 * g.g0 * g.g2s ^ 2 - 2 * g.g1c ^ 2 * g.g2c) * hc2

theorem angleEq_scaled (g : G ℝ) (h : (unscaled g).K4c ≠ 0) (s2 c2 : ℝ) :
    angleEq (scaled g) s2 c2 = angleEq (unscaled g) s2 c2 / (unscaled g).K4c := by
  unfold angleEq scaled
  generalize unscaled g = k at h
  field_simp

theorem scaled_K4c (g : G ℝ) (h : (unscaled g).K4c ≠ 0) : (scaled g).K4c = 1 := by
  unfold scaled
  generalize unscaled g = k at h
  field_simp

theorem leading_pos (g : G ℝ) (h : (unscaled g).K4c ≠ 0) : 0 < coefficients (scaled g) 0 := by
  have := scaled_K4c g h
  change 0 < 4 * ((scaled g).K4c * (scaled g).K4c + (scaled g).K4s * (scaled g).K4s)
  rw [this]
  nlinarith [mul_self_nonneg (scaled g).K4s]

/-- Eliminating the sign of the cosine. -/
theorem quartic_eq (k : Ks ℝ) {s2 c2 : ℝ} (h : s2 ^ 2 + c2 ^ 2 = 1) :
    quartic (coefficients k) s2 = angleEq k s2 c2 * angleEq k s2 (-c2) := by
  simp only [quartic, coefficients, angleEq]
  linear_combination (k.K2c + 2 * k.K4s * s2) ^ 2 * h

/-! ## Angles -/

theorem exists_angle {s c : ℝ} (h : s ^ 2 + c ^ 2 = 1) : ∃ θ, sin θ = s ∧ cos θ = c := by
  have hn : ‖(⟨c, s⟩ : ℂ)‖ = 1 := by
    rw [Complex.norm_def, Complex.normSq_mk, show c * c + s * s = 1 by linarith, Real.sqrt_one]
  have h0 : (⟨c, s⟩ : ℂ) ≠ 0 := by intro e; rw [e] at hn; simp at hn
  refine ⟨Complex.arg ⟨c, s⟩, ?_, ?_⟩
  · rw [Complex.sin_arg, hn, div_one]
  · rw [Complex.cos_arg h0, hn, div_one]

theorem realOps_sqrt (x : ℝ) : realOps.sqrt x = Real.sqrt x := rfl
theorem realOps_abs (x : ℝ) : realOps.abs x = |x| := rfl
theorem realOps_lt (x y : ℝ) : realOps.lt x y = true ↔ x < y := by
  change decide (x < y) = true ↔ _
  exact decide_eq_true_iff

theorem cos2_cases (k : Ks ℝ) (s2 : ℝ) :
    cos2 realOps k s2 = Real.sqrt (1 - s2 * s2) ∨ cos2 realOps k s2 = -Real.sqrt (1 - s2 * s2) := by
  simp only [cos2]
  split
  · right; rw [realOps_sqrt]; ring
  · left; rw [realOps_sqrt]; ring

theorem cos2_sq (k : Ks ℝ) {s2 : ℝ} (h : |s2| ≤ 1) : s2 ^ 2 + cos2 realOps k s2 ^ 2 = 1 := by
  have h1 : s2 ^ 2 ≤ 1 := (sq_le_one_iff_abs_le_one s2).2 h
  have h2 := Real.sq_sqrt (show 0 ≤ 1 - s2 * s2 by nlinarith)
  rcases cos2_cases k s2 with e | e <;> rw [e] <;> linarith [neg_sq (Real.sqrt (1 - s2 * s2))]

/-- The sign chosen is the right one unless both satisfy the equation. -/
theorem cos2_eq (k : Ks ℝ) {s2 c2 : ℝ} (h : s2 ^ 2 + c2 ^ 2 = 1) (hz : angleEq k s2 c2 = 0)
    (hr : 0 ≤ c2 ∨ angleEq k s2 (-c2) ≠ 0) : cos2 realOps k s2 = c2 := by
  have hs : Real.sqrt (1 - s2 * s2) = |c2| := by
    rw [show 1 - s2 * s2 = c2 ^ 2 by linarith, Real.sqrt_sq_eq_abs]
  unfold cos2
  simp only [residualK_eq, realOps_sqrt, hs]
  rcases le_or_gt 0 c2 with hc | hc
  · rw [abs_of_nonneg hc, hz, abs_zero, if_neg]
    · ring
    · rw [realOps_lt]; exact not_lt.2 (abs_nonneg _)
  · have hr := hr.resolve_left (not_le.2 hc)
    rw [abs_of_neg hc, neg_neg, hz, abs_zero, if_pos]
    · ring
    · rw [realOps_lt]; exact abs_pos.2 hr

theorem angle_spec {s2 c2 v : ℝ} (h : s2 ^ 2 + c2 ^ 2 = 1) (hv : v = -1 ∨ v = 1) :
    (angle realOps s2 c2 v).1 ^ 2 + (angle realOps s2 c2 v).2 ^ 2 = 1 ∧
      s2 = 2 * (angle realOps s2 c2 v).1 * (angle realOps s2 c2 v).2 ∧
      c2 = (angle realOps s2 c2 v).2 ^ 2 - (angle realOps s2 c2 v).1 ^ 2 := by
  have hv2 : v ^ 2 = 1 := by rcases hv with rfl | rfl <;> norm_num
  have hv0 : v ≠ 0 := by rcases hv with rfl | rfl <;> norm_num
  have hb : c2 ≤ 1 := by nlinarith [sq_nonneg s2]
  have hb' : -1 ≤ c2 := by nlinarith [sq_nonneg s2]
  unfold angle
  by_cases hc : 0 < c2
  · rw [if_pos ((realOps_lt _ _).2 hc)]
    simp only [realOps_sqrt]
    have hq := Real.sq_sqrt (show 0 ≤ 1 / 2 * (1 + c2) by linarith)
    have hp : 0 < Real.sqrt (1 / 2 * (1 + c2)) := Real.sqrt_pos.2 (by linarith)
    generalize Real.sqrt (1 / 2 * (1 + c2)) = q at hq hp
    have hs : s2 ^ 2 = 4 * q ^ 2 * (1 - q ^ 2) := by rw [hq]; linear_combination h
    have e1 : (s2 / (2 * (v * q))) ^ 2 = 1 - q ^ 2 := by
      rw [div_pow, div_eq_iff (by positivity), hs]
      linear_combination (-4 * q ^ 2 * (1 - q ^ 2)) * hv2
    have e2 : (v * q) ^ 2 = q ^ 2 := by rw [mul_pow, hv2, one_mul]
    refine ⟨by rw [e1, e2]; ring, ?_, by rw [e1, e2]; linarith⟩
    have := hp.ne'
    field_simp
  · rw [if_neg (by rw [realOps_lt]; exact hc)]
    have hc := not_lt.1 hc
    simp only [realOps_sqrt]
    have hq := Real.sq_sqrt (show 0 ≤ 1 / 2 * (1 - c2) by linarith)
    have hp : 0 < Real.sqrt (1 / 2 * (1 - c2)) := Real.sqrt_pos.2 (by linarith)
    generalize Real.sqrt (1 / 2 * (1 - c2)) = q at hq hp
    have hs : s2 ^ 2 = 4 * q ^ 2 * (1 - q ^ 2) := by rw [hq]; linear_combination h
    have e1 : (s2 / (2 * (v * q))) ^ 2 = 1 - q ^ 2 := by
      rw [div_pow, div_eq_iff (by positivity), hs]
      linear_combination (-4 * q ^ 2 * (1 - q ^ 2)) * hv2
    have e2 : (v * q) ^ 2 = q ^ 2 := by rw [mul_pow, hv2, one_mul]
    refine ⟨by rw [e1, e2]; ring, ?_, by rw [e1, e2]; linarith⟩
    have := hp.ne'
    field_simp

/-- Each of the two angles with the given sine and cosine of the double angle is tried. -/
theorem angle_complete {s c : ℝ} (h : s ^ 2 + c ^ 2 = 1) :
    ∃ v, (v = -1 ∨ v = 1) ∧ angle realOps (2 * s * c) (c ^ 2 - s ^ 2) v = (s, c) := by
  unfold angle
  by_cases hc : 0 < c ^ 2 - s ^ 2
  · simp only [if_pos ((realOps_lt _ _).2 hc)]
    have hq : Real.sqrt (1 / 2 * (1 + (c ^ 2 - s ^ 2))) = |c| := by
      rw [show 1 / 2 * (1 + (c ^ 2 - s ^ 2)) = c ^ 2 by linarith, Real.sqrt_sq_eq_abs]
    have hc0 : c ≠ 0 := by intro e; rw [e] at hc; nlinarith [sq_nonneg s]
    simp only [realOps_sqrt, hq]
    rcases lt_or_gt_of_ne hc0 with hn | hn
    · refine ⟨-1, Or.inl rfl, ?_⟩
      rw [abs_of_neg hn, Prod.mk.injEq]
      refine ⟨?_, by ring⟩
      field_simp
    · refine ⟨1, Or.inr rfl, ?_⟩
      rw [abs_of_pos hn, Prod.mk.injEq]
      refine ⟨?_, by ring⟩
      field_simp
  · simp only [if_neg (show ¬ realOps.lt 0 (c ^ 2 - s ^ 2) = true by rw [realOps_lt]; exact hc)]
    have hq : Real.sqrt (1 / 2 * (1 - (c ^ 2 - s ^ 2))) = |s| := by
      rw [show 1 / 2 * (1 - (c ^ 2 - s ^ 2)) = s ^ 2 by linarith, Real.sqrt_sq_eq_abs]
    have hc0 : s ≠ 0 := by intro e; rw [e] at hc h; apply hc; nlinarith
    simp only [realOps_sqrt, hq]
    rcases lt_or_gt_of_ne hc0 with hn | hn
    · refine ⟨-1, Or.inl rfl, ?_⟩
      rw [abs_of_neg hn, Prod.mk.injEq]
      refine ⟨by ring, ?_⟩
      field_simp
    · refine ⟨1, Or.inr rfl, ?_⟩
      rw [abs_of_pos hn, Prod.mk.injEq]
      refine ⟨by ring, ?_⟩
      field_simp

/-! ## Radii -/

theorem radius_sound {g : G ℝ} {s2 c2 s c v rr res : ℝ} (hv : v = -1 ∨ v = 1)
    (h : radius realOps g s2 c2 s c v = some (rr, res)) :
    g.g0 + rr * (c * g.g1c) + rr ^ 2 * (g.g20 + g.g2s * s2 + g.g2c * c2) = 0 ∧
      res = -g.g1c * s + 2 * rr * (g.g2s * c2 - g.g2c * s2) := by
  have hv2 : v ^ 2 = 1 := by rcases hv with rfl | rfl <;> norm_num
  unfold radius at h
  generalize hA : g.g20 + g.g2s * s2 + g.g2c * c2 = A at h ⊢
  simp only [realOps_lt, realOps_sqrt] at h
  split at h
  · exact absurd h (by simp)
  · rename_i hn
    rw [not_or, not_lt] at hn
    obtain ⟨hd, hA0⟩ := hn
    have hq := Real.sq_sqrt hd
    generalize Real.sqrt _ = q at hq h
    simp only [Option.some.injEq, Prod.mk.injEq] at h
    obtain ⟨rfl, rfl⟩ := h
    refine ⟨?_, rfl⟩
    field_simp
    linear_combination q ^ 2 * hv2 + hq

theorem radius_complete {g : G ℝ} {r s2 c2 s c : ℝ} (hA : g.g20 + g.g2s * s2 + g.g2c * c2 ≠ 0)
    (h : g.g0 + r * (c * g.g1c) + r ^ 2 * (g.g20 + g.g2s * s2 + g.g2c * c2) = 0) :
    ∃ v, (v = -1 ∨ v = 1) ∧ radius realOps g s2 c2 s c v =
      some (r, -g.g1c * s + 2 * r * (g.g2s * c2 - g.g2c * s2)) := by
  unfold radius
  generalize g.g20 + g.g2s * s2 + g.g2c * c2 = A at hA h ⊢
  have hd : c * g.g1c * (c * g.g1c) - 4 * A * g.g0 = (2 * A * r + c * g.g1c) ^ 2 := by
    linear_combination -4 * A * h
  simp only [realOps_lt, realOps_sqrt, hd, Real.sqrt_sq_eq_abs]
  have hn : ¬ ((2 * A * r + c * g.g1c) ^ 2 < 0 ∨ A = 0) := by
    rw [not_or]; exact ⟨not_lt.2 (sq_nonneg _), hA⟩
  simp only [if_neg hn]
  rcases le_or_gt 0 (2 * A * r + c * g.g1c) with hp | hp
  · refine ⟨1, Or.inr rfl, ?_⟩
    rw [abs_of_nonneg hp]
    have : (-(c * g.g1c) + 1 * (2 * A * r + c * g.g1c)) / (2 * A) = r := by field_simp; ring
    rw [this]
  · refine ⟨-1, Or.inl rfl, ?_⟩
    rw [abs_of_neg hp]
    have : (-(c * g.g1c) + -1 * -(2 * A * r + c * g.g1c)) / (2 * A) = r := by field_simp; ring
    rw [this]

/-! ## The search -/

/-- A value of the form taken by the search at a given root. -/
def Cand (t : Tol ℝ) (g : G ℝ) (s2 c2 rc : ℝ) : Prop :=
  ∃ v w res, (v = -1 ∨ v = 1) ∧ (w = -1 ∨ w = 1) ∧
    radius realOps g s2 c2 (angle realOps s2 c2 v).1 (angle realOps s2 c2 v).2 w = some (rc, res) ∧
    0 < rc ∧ |res| < t.res

theorem tryRadius_cases (t : Tol ℝ) (g : G ℝ) (s2 c2 s c rc v : ℝ) :
    tryRadius realOps t g s2 c2 s c rc v ≤ rc ∧
      (tryRadius realOps t g s2 c2 s c rc v = rc ∨ ∃ rr res, radius realOps g s2 c2 s c v = some (rr, res) ∧
        0 < rr ∧ |res| < t.res ∧ tryRadius realOps t g s2 c2 s c rc v = rr) ∧
      ∀ rr res, radius realOps g s2 c2 s c v = some (rr, res) → 0 < rr → |res| < t.res →
        tryRadius realOps t g s2 c2 s c rc v ≤ rr := by
  unfold tryRadius
  cases hr : radius realOps g s2 c2 s c v with
  | none => exact ⟨le_refl _, Or.inl rfl, fun _ _ h => by simp at h⟩
  | some p =>
    obtain ⟨rr, res⟩ := p
    simp only [Bool.and_eq_true, realOps_lt, realOps_abs]
    by_cases h : ((0 : ℝ) < rr ∧ |res| < t.res) ∧ rr < rc
    · rw [if_pos h]
      refine ⟨h.2.le, Or.inr ⟨rr, res, rfl, h.1.1, h.1.2, rfl⟩, ?_⟩
      intro a b e _ _
      simp only [Option.some.injEq, Prod.mk.injEq] at e
      exact e.1.le
    · rw [if_neg h]
      refine ⟨le_refl _, Or.inl rfl, ?_⟩
      intro a b e h1 h2
      simp only [Option.some.injEq, Prod.mk.injEq] at e
      obtain ⟨rfl, rfl⟩ := e
      exact not_lt.1 fun h3 => h ⟨⟨h1, h2⟩, h3⟩

theorem tryAngle_spec {t : Tol ℝ} (ht : 0 ≤ t.sc) (g : G ℝ) {s2 c2 : ℝ} (h : s2 ^ 2 + c2 ^ 2 = 1) (rc : ℝ) {v : ℝ}
    (hv : v = -1 ∨ v = 1) :
    ∃ x, tryAngle realOps t g s2 c2 rc v = .ok x ∧ x ≤ rc ∧ (x = rc ∨ Cand t g s2 c2 x) ∧
      ∀ w, (w = -1 ∨ w = 1) → ∀ rr res, radius realOps g s2 c2 (angle realOps s2 c2 v).1
        (angle realOps s2 c2 v).2 w = some (rr, res) → 0 < rr → |res| < t.res → x ≤ rr := by
  obtain ⟨h1, -, -⟩ := angle_spec h hv
  have hs : ¬ realOps.lt t.sc (realOps.abs ((angle realOps s2 c2 v).2 * (angle realOps s2 c2 v).2 +
      (angle realOps s2 c2 v).1 * (angle realOps s2 c2 v).1 - 1)) = true := by
    rw [realOps_lt, realOps_abs, show (angle realOps s2 c2 v).2 * (angle realOps s2 c2 v).2 +
      (angle realOps s2 c2 v).1 * (angle realOps s2 c2 v).1 - 1 = 0 by linear_combination h1, abs_zero]
    exact not_lt.2 ht
  unfold tryAngle
  simp only [if_neg hs, List.foldl_cons, List.foldl_nil]
  obtain ⟨a1, a2, a3⟩ := tryRadius_cases t g s2 c2 (angle realOps s2 c2 v).1 (angle realOps s2 c2 v).2 rc (-1)
  obtain ⟨b1, b2, b3⟩ := tryRadius_cases t g s2 c2 (angle realOps s2 c2 v).1 (angle realOps s2 c2 v).2
    (tryRadius realOps t g s2 c2 (angle realOps s2 c2 v).1 (angle realOps s2 c2 v).2 rc (-1)) 1
  refine ⟨_, rfl, b1.trans a1, ?_, ?_⟩
  · rcases b2 with e | ⟨rr, res, e1, e2, e3, e4⟩
    · rw [e]
      rcases a2 with f | ⟨rr, res, e1, e2, e3, e4⟩
      · exact Or.inl f
      · rw [e4]; exact Or.inr ⟨v, -1, res, hv, Or.inl rfl, e1, e2, e3⟩
    · rw [e4]; exact Or.inr ⟨v, 1, res, hv, Or.inr rfl, e1, e2, e3⟩
  · intro w hw rr res e1 e2 e3
    rcases hw with rfl | rfl
    · exact b1.trans (a3 rr res e1 e2 e3)
    · exact b3 rr res e1 e2 e3

/-- Both angles. -/
theorem twoAngles_spec {t : Tol ℝ} (ht : 0 ≤ t.sc) (g : G ℝ) {s2 c2 : ℝ} (h : s2 ^ 2 + c2 ^ 2 = 1) (rc : ℝ) :
    ∃ x, [(-1 : ℝ), 1].foldlM (tryAngle realOps t g s2 c2) rc = .ok x ∧ x ≤ rc ∧ (x = rc ∨ Cand t g s2 c2 x) ∧
      ∀ rr, Cand t g s2 c2 rr → x ≤ rr := by
  obtain ⟨x, a0, a1, a2, a3⟩ := tryAngle_spec ht g h rc (v := -1) (Or.inl rfl)
  obtain ⟨y, b0, b1, b2, b3⟩ := tryAngle_spec ht g h x (v := 1) (Or.inr rfl)
  refine ⟨y, ?_, b1.trans a1, ?_, ?_⟩
  · rw [List.foldlM_cons, a0]
    change [(1 : ℝ)].foldlM (tryAngle realOps t g s2 c2) x = _
    rw [List.foldlM_cons, b0]
    rfl
  · rcases b2 with rfl | e
    · exact a2
    · exact Or.inr e
  · rintro rr ⟨v, w, res, hv, hw, e1, e2, e3⟩
    rcases hv with rfl | rfl
    · exact b1.trans (a3 w hw rr res e1 e2 e3)
    · exact b3 w hw rr res e1 e2 e3

/-- A value taken at a root that is not skipped. -/
def RootCand (t : Tol ℝ) (g : G ℝ) (k : Ks ℝ) (w : (Nat → ℝ) × (Nat → ℝ)) (j : Nat) (rc : ℝ) : Prop :=
  |w.2 j| ≤ t.imag ∧ |w.1 j| ≤ 1 ∧ Cand t g (w.1 j) (cos2 realOps k (w.1 j)) rc

theorem tryRoot_spec {t : Tol ℝ} (ht : 0 ≤ t.sc) (g : G ℝ) (k : Ks ℝ) (w : (Nat → ℝ) × (Nat → ℝ)) (rc : ℝ) (j : Nat) :
    ∃ x, tryRoot realOps t g k w rc j = .ok x ∧ x ≤ rc ∧ (x = rc ∨ RootCand t g k w j x) ∧
      ∀ rr, RootCand t g k w j rr → x ≤ rr := by
  unfold tryRoot
  simp only [realOps_lt, realOps_abs]
  by_cases h1 : t.imag < |w.2 j|
  · rw [if_pos h1]
    exact ⟨rc, rfl, le_refl _, Or.inl rfl, fun rr h => absurd h.1 (not_le.2 h1)⟩
  · rw [if_neg h1]
    by_cases h2 : 1 < |w.1 j|
    · rw [if_pos h2]
      exact ⟨rc, rfl, le_refl _, Or.inl rfl, fun rr h => absurd h.2.1 (not_le.2 h2)⟩
    · rw [if_neg h2]
      obtain ⟨x, a0, a1, a2, a3⟩ := twoAngles_spec ht g (cos2_sq k (not_lt.1 h2)) rc
      refine ⟨x, a0, a1, ?_, fun rr h => a3 rr h.2.2⟩
      rcases a2 with e | e
      · exact Or.inl e
      · exact Or.inr ⟨not_lt.1 h1, not_lt.1 h2, e⟩

theorem allRoots_spec {t : Tol ℝ} (ht : 0 ≤ t.sc) (g : G ℝ) (k : Ks ℝ) (w : (Nat → ℝ) × (Nat → ℝ)) (l : List Nat) :
    ∀ rc, ∃ x, l.foldlM (tryRoot realOps t g k w) rc = .ok x ∧ x ≤ rc ∧
      (x = rc ∨ ∃ j ∈ l, RootCand t g k w j x) ∧ ∀ j ∈ l, ∀ rr, RootCand t g k w j rr → x ≤ rr := by
  induction l with
  | nil => exact fun rc => ⟨rc, rfl, le_refl _, Or.inl rfl, fun j hj => absurd hj (by simp)⟩
  | cons j l ih =>
    intro rc
    obtain ⟨x, a0, a1, a2, a3⟩ := tryRoot_spec ht g k w rc j
    obtain ⟨y, b0, b1, b2, b3⟩ := ih x
    refine ⟨y, ?_, b1.trans a1, ?_, ?_⟩
    · rw [List.foldlM_cons, a0]; exact b0
    · rcases b2 with e | ⟨m, hm, e⟩
      · subst e
        rcases a2 with e | e
        · exact Or.inl e
        · exact Or.inr ⟨j, by simp, e⟩
      · exact Or.inr ⟨m, by simp [hm], e⟩
    · intro m hm rr e
      rcases List.mem_cons.1 hm with rfl | hm
      · exact b1.trans (a3 rr e)
      · exact b3 m hm rr e

/-- The search at a grid point when LAPACK succeeds. -/
theorem gridPoint_spec {t : Tol ℝ} (ht : 0 ≤ t.sc) (g : G ℝ) (hk : (unscaled g).K4c ≠ 0) (geev : Quartic.Geev ℝ)
    {w : (Nat → ℝ) × (Nat → ℝ)} (hw : geev (Quartic.companion (coefficients (scaled g))) = some w) :
    ∃ x, gridPoint realOps t geev g = .ok x ∧ x ≤ huge ∧
      (x = huge ∨ ∃ j < 4, RootCand t g (scaled g) w j x) ∧
      ∀ j < 4, ∀ rr, RootCand t g (scaled g) w j rr → x ≤ rr := by
  unfold gridPoint Quartic.roots
  rw [if_neg hk]
  simp only [hw]
  obtain ⟨x, a0, a1, a2, a3⟩ := allRoots_spec ht g (scaled g) w [0, 1, 2, 3] huge
  have hm : ∀ j, j ∈ [0, 1, 2, 3] ↔ j < 4 := by
    intro j; simp only [List.mem_cons, List.not_mem_nil, or_false]; omega
  refine ⟨x, a0, a1, ?_, fun j hj => a3 j ((hm j).2 hj)⟩
  rcases a2 with e | ⟨j, hj, e⟩
  · exact Or.inl e
  · exact Or.inr ⟨j, (hm j).1 hj, e⟩

/-- What a candidate satisfies: the Jacobian vanishes, and its derivative is below the tolerance. -/
theorem Cand.sound {t : Tol ℝ} {g : G ℝ} {s2 c2 rc : ℝ} (h : s2 ^ 2 + c2 ^ 2 = 1) (hc : Cand t g s2 c2 rc) :
    0 < rc ∧ ∃ θ, sqrtg g rc θ = 0 ∧ |deriv (sqrtg g rc) θ| < rc ^ 2 * t.res := by
  obtain ⟨v, w, res, hv, hw, e, hp, hr⟩ := hc
  obtain ⟨h1, h2, h3⟩ := angle_spec h hv
  obtain ⟨e1, e2⟩ := radius_sound hw e
  obtain ⟨θ, hs, hco⟩ := exists_angle h1
  have d1 : sin (2 * θ) = s2 := by rw [sin_two_mul, hs, hco, ← h2]
  have d2 : cos (2 * θ) = c2 := by rw [cos_two_mul', hs, hco, ← h3]
  refine ⟨hp, θ, ?_, ?_⟩
  · unfold sqrtg
    rw [d1, d2, hco]
    linear_combination rc * e1
  · rw [deriv_sqrtg, d1, d2, hs, ← e2, abs_mul, abs_of_pos (by positivity)]
    exact mul_lt_mul_of_pos_left hr (by positivity)

end Qsc.RSing
