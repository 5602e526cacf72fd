import Verif.Lemmas.RSing
import Verif.Props.R2Field
import Mathlib.Order.Bounds.Defs

/-!
# The singular radius (C47, C60)

Exact real arithmetic; the three places where the floating point calculation leaves the numbers are in
the model.
-/

namespace Qsc.RSing

open Qsc.Spec.RSing Qsc.Spec.NearAxis

/-- Singular points that the search can see: the quadratic for the radius is not degenerate, and the
mirrored angle `pi / 2 - theta` does not solve the equation for the angle as well, unless
`cos 2 theta >= 0`. -/
def Seen (g : G ℝ) (θ : ℝ) : Prop :=
  g.g20 + g.g2s * Real.sin (2 * θ) + g.g2c * Real.cos (2 * θ) ≠ 0 ∧
    (0 ≤ Real.cos (2 * θ) ∨
      (unscaled g).K0 + (unscaled g).K2s * Real.sin (2 * θ) - (unscaled g).K2c * Real.cos (2 * θ) -
        (unscaled g).K4s * Real.sin (4 * θ) + (unscaled g).K4c * Real.cos (4 * θ) ≠ 0)

/-- **C47, the equation for the angle.** At every singular point the equation in `2 theta` and `4 theta`
of line 224 holds. -/
theorem angle_equation {g : G ℝ} {r θ : ℝ} (h : Singular g r θ) :
    (unscaled g).K0 + (unscaled g).K2s * Real.sin (2 * θ) + (unscaled g).K2c * Real.cos (2 * θ) +
      (unscaled g).K4s * Real.sin (4 * θ) + (unscaled g).K4c * Real.cos (4 * θ) = 0 := by
  have h1 := Real.sin_sq_add_cos_sq θ
  have h2 := angleEq_unscaled ((singular_iff g r θ).1 h) h1 (Real.sin_two_mul θ) (Real.cos_two_mul' θ)
  have e1 : Real.sin (4 * θ) = 2 * Real.sin (2 * θ) * Real.cos (2 * θ) := by
    rw [← Real.sin_two_mul]; ring_nf
  have e2 : Real.cos (4 * θ) = 1 - 2 * Real.sin (2 * θ) ^ 2 := by
    rw [show 4 * θ = 2 * (2 * θ) by ring, Real.cos_two_mul]
    linarith [Real.sin_sq_add_cos_sq (2 * θ)]
  rw [e1, e2]
  unfold angleEq at h2
  linear_combination h2

/-- **C47, the quartic.** At every singular point `sin 2 theta` is a root of the quartic. -/
theorem quartic_root {g : G ℝ} (hk : (unscaled g).K4c ≠ 0) {r θ : ℝ} (h : Singular g r θ) :
    quartic (coefficients (scaled g)) (Real.sin (2 * θ)) = 0 := by
  have h2 := angleEq_unscaled ((singular_iff g r θ).1 h) (Real.sin_sq_add_cos_sq θ) (Real.sin_two_mul θ)
    (Real.cos_two_mul' θ)
  rw [quartic_eq _ (Real.sin_sq_add_cos_sq (2 * θ)), angleEq_scaled g hk, h2, zero_div, zero_mul]

/-- **C47, soundness.** Whatever LAPACK returns and for all nonnegative tolerances: no exception comes from
the search, and a reported value below `1e30` is a positive radius at which the Jacobian vanishes for some
theta and its theta derivative (divided by `r^2`) is below the tolerance. -/
theorem reported_sound {t : Tol ℝ} (ht : 0 ≤ t.sc) (g : G ℝ) (geev : Quartic.Geev ℝ)
    (hl : geev (Quartic.companion (coefficients (scaled g))) ≠ none) :
    ∃ x, gridPoint realOps t geev g = .ok x ∧ x ≤ huge ∧
      (x ≠ huge → 0 < x ∧ ∃ θ, sqrtg g x θ = 0 ∧ |deriv (sqrtg g x) θ| < x ^ 2 * t.res) := by
  obtain ⟨w, hw⟩ := Option.ne_none_iff_exists'.1 hl
  by_cases hk : (unscaled g).K4c = 0
  · exact ⟨huge, by rw [gridPoint, if_pos hk], le_refl _, fun h => absurd rfl h⟩
  · obtain ⟨x, a0, a1, a2, -⟩ := gridPoint_spec ht g hk geev hw
    refine ⟨x, a0, a1, fun hx => ?_⟩
    obtain ⟨j, -, -, h2, h3⟩ := a2.resolve_left hx
    exact h3.sound (cos2_sq _ h2)

/-- The singular points that are seen are candidates. -/
theorem seen_cand {t : Tol ℝ} (hr : 0 < t.res) (hi : 0 ≤ t.imag) {g : G ℝ} (hk : (unscaled g).K4c ≠ 0)
    {w : (Nat → ℝ) × (Nat → ℝ)} (hs : IsSpectrum (stored (Quartic.companion (coefficients (scaled g)))) w)
    {r θ : ℝ} (h : Singular g r θ) (hv : Seen g θ) : ∃ j < 4, RootCand t g (scaled g) w j r := by
  have hat := (singular_iff g r θ).1 h
  obtain ⟨j, hj, e1, e2⟩ := (Quartic.real_roots _ (leading_pos g hk).ne' hs).1 _ (quartic_root hk h)
  have hsc := Real.sin_sq_add_cos_sq (2 * θ)
  have hz : angleEq (scaled g) (Real.sin (2 * θ)) (Real.cos (2 * θ)) = 0 := by
    rw [angleEq_scaled g hk, angleEq_unscaled hat (Real.sin_sq_add_cos_sq θ) (Real.sin_two_mul θ)
      (Real.cos_two_mul' θ), zero_div]
  have hc : cos2 realOps (scaled g) (Real.sin (2 * θ)) = Real.cos (2 * θ) := by
    refine cos2_eq _ hsc hz (hv.2.imp_right fun hne => ?_)
    rw [angleEq_scaled g hk]
    refine div_ne_zero (fun e => hne ?_) hk
    have f1 : Real.sin (4 * θ) = 2 * Real.sin (2 * θ) * Real.cos (2 * θ) := by
      rw [← Real.sin_two_mul]; ring_nf
    have f2 : Real.cos (4 * θ) = 1 - 2 * Real.sin (2 * θ) ^ 2 := by
      rw [show 4 * θ = 2 * (2 * θ) by ring, Real.cos_two_mul]
      linarith [hsc]
    rw [f1, f2]
    unfold angleEq at e
    linear_combination e
  refine ⟨j, hj, by rw [e2, abs_zero]; exact hi, by rw [e1]; exact Real.abs_sin_le_one _, ?_⟩
  rw [e1, hc]
  obtain ⟨v, hv1, hv2⟩ := angle_complete (Real.sin_sq_add_cos_sq θ)
  rw [← Real.sin_two_mul, ← Real.cos_two_mul'] at hv2
  obtain ⟨u, hu1, hu2⟩ := radius_complete (s := Real.sin θ) hv.1 hat.zero
  refine ⟨v, u, _, hv1, hu1, by rw [hv2]; exact hu2, h.1, ?_⟩
  rw [hat.crit, abs_zero]
  exact hr

/-- **C47, completeness.** With exact eigenvalues, no singular radius that can be seen is below the
reported value; this holds for all positive tolerances. -/
theorem reported_le {t : Tol ℝ} (ht : 0 ≤ t.sc) (hr : 0 < t.res) (hi : 0 ≤ t.imag) {g : G ℝ}
    (hk : (unscaled g).K4c ≠ 0) (geev : Quartic.Geev ℝ) {w : (Nat → ℝ) × (Nat → ℝ)}
    (hw : geev (Quartic.companion (coefficients (scaled g))) = some w)
    (hs : IsSpectrum (stored (Quartic.companion (coefficients (scaled g)))) w) :
    ∃ x, gridPoint realOps t geev g = .ok x ∧ ∀ r θ, Singular g r θ → Seen g θ → x ≤ r := by
  obtain ⟨x, a0, -, -, a3⟩ := gridPoint_spec ht g hk geev hw
  refine ⟨x, a0, fun r θ h hv => ?_⟩
  obtain ⟨j, hj, hc⟩ := seen_cand hr hi hk hs h hv
  exact a3 j hj r hc

/-- **C47.** With exact eigenvalues and a tolerance small enough, the reported value is the smallest
singular radius, provided that none of the singular points is degenerate; if there is none below `1e30`
it is `1e30`. -/
theorem reported_least {g : G ℝ} (hk : (unscaled g).K4c ≠ 0) (geev : Quartic.Geev ℝ)
    {w : (Nat → ℝ) × (Nat → ℝ)} (hw : geev (Quartic.companion (coefficients (scaled g))) = some w)
    (hs : IsSpectrum (stored (Quartic.companion (coefficients (scaled g)))) w)
    (hv : ∀ r θ, Singular g r θ → Seen g θ) :
    ∃ τ > 0, ∀ t : Tol ℝ, 0 ≤ t.sc → 0 < t.res → t.res ≤ τ → 0 ≤ t.imag →
      ∃ x, gridPoint realOps t geev g = .ok x ∧
        ((x < huge ∧ IsLeast (radii g) x) ∨ (x = huge ∧ ∀ r ∈ radii g, huge ≤ r)) := by
  let F : Nat × ℝ × ℝ → ℝ := fun p =>
    let s2 := w.1 p.1
    let c2 := cos2 realOps (scaled g) s2
    match radius realOps g s2 c2 (angle realOps s2 c2 p.2.1).1 (angle realOps s2 c2 p.2.1).2 p.2.2 with
    | none => 1
    | some (_, res) => if res = 0 then 1 else |res|
  let S : Finset (Nat × ℝ × ℝ) := Finset.range 4 ×ˢ (({-1, 1} : Finset ℝ) ×ˢ ({-1, 1} : Finset ℝ))
  obtain ⟨p, hp, hmin⟩ := Finset.exists_min_image S F ⟨(0, 1, 1), by simp [S]⟩
  refine ⟨F p, ?_, ?_⟩
  · simp only [F]
    split
    · exact one_pos
    · split
      · exact one_pos
      · rename_i h
        exact abs_pos.2 h
  · intro t ht hr hle hi
    obtain ⟨x, a0, a1, a2, a3⟩ := gridPoint_spec ht g hk geev hw
    have hlow : ∀ r ∈ radii g, x ≤ r := by
      rintro r ⟨θ, h⟩
      obtain ⟨j, hj, hc⟩ := seen_cand hr hi hk hs h (hv r θ h)
      exact a3 j hj r hc
    refine ⟨x, a0, ?_⟩
    by_cases hx : x = huge
    · exact Or.inr ⟨hx, fun r h => hx ▸ hlow r h⟩
    · refine Or.inl ⟨lt_of_le_of_ne a1 hx, ?_, hlow⟩
      obtain ⟨j, hj, -, h2, v, u, res, hv1, hu1, e, hpos, hres⟩ := a2.resolve_left hx
      have hsc := cos2_sq (scaled g) h2
      obtain ⟨g1, g2, g3⟩ := angle_spec hsc hv1
      obtain ⟨f1, f2⟩ := radius_sound hu1 e
      have hF := hmin (j, v, u) (by
        simp only [S, Finset.mem_product, Finset.mem_range, Finset.mem_insert, Finset.mem_singleton]
        exact ⟨hj, hv1, hu1⟩)
      have hz : res = 0 := by
        by_contra hne
        have : F (j, v, u) = |res| := by simp only [F, e, if_neg hne]
        rw [this] at hF
        exact absurd hres (not_lt.2 (hle.trans hF))
      obtain ⟨θ, k1, k2⟩ := exists_angle g1
      refine ⟨θ, (singular_iff g x θ).2 ?_⟩
      have d1 : Real.sin (2 * θ) = w.1 j := by rw [Real.sin_two_mul, k1, k2, ← g2]
      have d2 : Real.cos (2 * θ) = cos2 realOps (scaled g) (w.1 j) := by
        rw [Real.cos_two_mul', k1, k2, ← g3]
      rw [d1, d2, k1, k2]
      exact ⟨hpos, f1, f2.symm.trans hz⟩

/-! ## What is missed -/

theorem huge_eq : (huge : ℝ) = 10 ^ 30 := rfl

/-- Full statement of C47 at a grid point, without the restriction to points that are seen. -/
def Least (g : G ℝ) : Prop :=
  ∀ (geev : Quartic.Geev ℝ) (w : (Nat → ℝ) × (Nat → ℝ)),
    geev (Quartic.companion (coefficients (scaled g))) = some w →
    IsSpectrum (stored (Quartic.companion (coefficients (scaled g)))) w →
    ∃ τ > 0, ∀ t : Tol ℝ, 0 ≤ t.sc → 0 < t.res → t.res ≤ τ → 0 ≤ t.imag →
      ∃ x, gridPoint realOps t geev g = .ok x ∧
        ((x < huge ∧ IsLeast (radii g) x) ∨ (x = huge ∧ ∀ r ∈ radii g, huge ≤ r))

/-- **C47, first defect.** A vanishing scaling coefficient: for `1 - 2 r cos theta - 3 r^2` the value
reported is `1e30` for all tolerances and eigenvalue routines, although the Jacobian is singular at
`r = 1/3`. -/
theorem missed_scaling (t : Tol ℝ) (geev : Quartic.Geev ℝ) :
    gridPoint realOps t geev ⟨1, -2, -3, 0, 0⟩ = .ok huge ∧ (1 / 3 : ℝ) ∈ radii ⟨1, -2, -3, 0, 0⟩ := by
  refine ⟨by rw [gridPoint, if_pos (by simp [unscaled])], 0, (singular_iff _ _ _).2 ⟨by norm_num, ?_, ?_⟩⟩
  · norm_num
  · norm_num

/-- The roots of the quartic that matter when all returned real parts are equal. -/
theorem gridPoint_same {t : Tol ℝ} (ht : 0 ≤ t.sc) {g : G ℝ} (hk : (unscaled g).K4c ≠ 0) (geev : Quartic.Geev ℝ)
    {w : (Nat → ℝ) × (Nat → ℝ)} (hw : geev (Quartic.companion (coefficients (scaled g))) = some w)
    (h0 : ∀ j < 4, w.1 j = 0)
    (hr : ∀ s c v : ℝ, radius realOps g 0 (cos2 realOps (scaled g) 0) s c v = none) :
    gridPoint realOps t geev g = .ok huge := by
  obtain ⟨x, a0, -, a2, -⟩ := gridPoint_spec ht g hk geev hw
  rw [a0]
  rcases a2 with rfl | ⟨j, hj, -, -, v, u, res, -, -, e, -⟩
  · rfl
  · rw [h0 j hj, hr] at e
    exact absurd e (by simp)

theorem zero_re {a : ℝ} (ha : 0 ≤ a) {z : ℂ} (h : z ^ 2 * (z ^ 2 + a) = 0) : z.re = 0 := by
  rcases mul_eq_zero.1 h with h | h
  · rw [pow_eq_zero_iff two_ne_zero] at h
    rw [h]; rfl
  · have h1 := congrArg Complex.re h
    have h2 := congrArg Complex.im h
    simp [pow_two] at h1 h2
    by_contra hne
    have : z.im = 0 := by
      have : z.re * z.im = 0 := by linarith
      exact (mul_eq_zero.1 this).resolve_left hne
    rw [this] at h1
    have := mul_self_pos.2 hne
    linarith

/-- **C47, second defect.** Two angles with the same sine of the double angle: only the one with positive
cosine is tried.  For `1 + r^2 cos 2 theta` the value reported is `1e30`, although the Jacobian is
singular at `r = 1`. -/
theorem missed_mirror {t : Tol ℝ} (ht : 0 ≤ t.sc) (geev : Quartic.Geev ℝ) {w : (Nat → ℝ) × (Nat → ℝ)}
    (hw : geev (Quartic.companion (coefficients (scaled ⟨1, 0, 0, 0, 1⟩))) = some w)
    (hs : IsSpectrum (stored (Quartic.companion (coefficients (scaled ⟨1, 0, 0, 0, 1⟩)))) w) :
    gridPoint realOps t geev ⟨1, 0, 0, 0, 1⟩ = .ok huge ∧ (1 : ℝ) ∈ radii ⟨1, 0, 0, 0, 1⟩ := by
  have hk : (unscaled (⟨1, 0, 0, 0, 1⟩ : G ℝ)).K4c ≠ 0 := by norm_num [unscaled]
  have hsc : scaled (⟨1, 0, 0, 0, 1⟩ : G ℝ) = ⟨-1, 0, 0, 0, 1⟩ := by norm_num [scaled, unscaled]
  constructor
  · refine gridPoint_same ht hk geev hw (fun j hj => ?_) fun s c v => ?_
    · have h := (Quartic.real_roots _ (leading_pos _ hk).ne' hs).2 j hj
      rw [hsc] at h
      refine zero_re (a := 0) (le_refl _) (z := ⟨w.1 j, w.2 j⟩) ?_
      simp only [quartic, coefficients] at h
      push_cast at h
      push_cast
      linear_combination h / 4
    · have hc : cos2 realOps (scaled (⟨1, 0, 0, 0, 1⟩ : G ℝ)) 0 = 1 := by
        rw [hsc]
        have : ¬ realOps.lt (residualK realOps (⟨-1, 0, 0, 0, 1⟩ : Ks ℝ) 0 (-1)) (residualK realOps ⟨-1, 0, 0, 0, 1⟩ 0 1) = true := by
          rw [realOps_lt]; norm_num [residualK]
        simp only [cos2, realOps_sqrt, mul_zero, sub_zero, Real.sqrt_one, if_neg this, mul_one]
      rw [hc, radius, if_pos]
      left
      rw [realOps_lt]
      norm_num
  · refine ⟨Real.pi / 2, (singular_iff _ _ _).2 ⟨by norm_num, ?_, ?_⟩⟩
    · rw [show 2 * (Real.pi / 2) = Real.pi by ring]; norm_num
    · rw [show 2 * (Real.pi / 2) = Real.pi by ring]; norm_num

/-- **C47, third defect.** A degenerate quadratic: for `1 - r cos theta + r^2 (1 - cos 2 theta)` the value
reported is `1e30`, although the Jacobian is singular at `r = 1`, where it is linear in `r`. -/
theorem missed_linear {t : Tol ℝ} (ht : 0 ≤ t.sc) (geev : Quartic.Geev ℝ) {w : (Nat → ℝ) × (Nat → ℝ)}
    (hw : geev (Quartic.companion (coefficients (scaled ⟨1, -1, 1, 0, -1⟩))) = some w)
    (hs : IsSpectrum (stored (Quartic.companion (coefficients (scaled ⟨1, -1, 1, 0, -1⟩)))) w) :
    gridPoint realOps t geev ⟨1, -1, 1, 0, -1⟩ = .ok huge ∧ (1 : ℝ) ∈ radii ⟨1, -1, 1, 0, -1⟩ := by
  have hk : (unscaled (⟨1, -1, 1, 0, -1⟩ : G ℝ)).K4c ≠ 0 := by norm_num [unscaled]
  have hsc : scaled (⟨1, -1, 1, 0, -1⟩ : G ℝ) = ⟨-13 / 9, 0, 4 / 9, 0, 1⟩ := by
    norm_num [scaled, unscaled]
  constructor
  · refine gridPoint_same ht hk geev hw (fun j hj => ?_) fun s c v => ?_
    · have h := (Quartic.real_roots _ (leading_pos _ hk).ne' hs).2 j hj
      rw [hsc] at h
      refine zero_re (a := 40 / 81) (by norm_num) (z := ⟨w.1 j, w.2 j⟩) ?_
      simp only [quartic, coefficients] at h
      push_cast at h
      push_cast
      linear_combination h / 4
    · have hc : cos2 realOps (scaled (⟨1, -1, 1, 0, -1⟩ : G ℝ)) 0 = 1 := by
        rw [hsc]
        refine cos2_eq _ (by norm_num) ?_ (Or.inl (by norm_num))
        norm_num [angleEq]
      rw [hc, radius, if_pos]
      right
      norm_num
  · refine ⟨0, (singular_iff _ _ _).2 ⟨by norm_num, ?_, ?_⟩⟩
    · norm_num
    · norm_num

/-- **C47 is false as it stands**: not at every grid point is the smallest singular radius reported. -/
theorem least_false : ¬ ∀ g, Least g := by
  intro h
  obtain ⟨τ, h0, hτ⟩ := h ⟨1, 0, 0, 0, 1⟩ (fun _ => some (fun _ => 0, fun _ => 0)) _ rfl (by
    have hk : (unscaled (⟨1, 0, 0, 0, 1⟩ : G ℝ)).K4c ≠ 0 := by norm_num [unscaled]
    have hsc : scaled (⟨1, 0, 0, 0, 1⟩ : G ℝ) = ⟨-1, 0, 0, 0, 1⟩ := by norm_num [scaled, unscaled]
    intro z
    rw [Quartic.charpoly_complex _ (leading_pos _ hk).ne', hsc]
    have e0 : (⟨0, 0⟩ : ℂ) = 0 := rfl
    simp only [quartic, coefficients, e0]
    push_cast
    ring)
  obtain ⟨x, e, hx⟩ := hτ ⟨0, τ, 0⟩ (le_refl _) h0 (le_refl _) (le_refl _)
  have hk : (unscaled (⟨1, 0, 0, 0, 1⟩ : G ℝ)).K4c ≠ 0 := by norm_num [unscaled]
  have hsc : scaled (⟨1, 0, 0, 0, 1⟩ : G ℝ) = ⟨-1, 0, 0, 0, 1⟩ := by norm_num [scaled, unscaled]
  obtain ⟨m1, m2⟩ := missed_mirror (t := ⟨0, τ, 0⟩) (le_refl _)
    (fun _ => some (fun _ => 0, fun _ => 0)) rfl (by
      intro z
      rw [Quartic.charpoly_complex _ (leading_pos _ hk).ne', hsc]
      have e0 : (⟨0, 0⟩ : ℂ) = 0 := rfl
      simp only [quartic, coefficients, e0]
      push_cast
      ring)
  rw [m1] at e
  obtain rfl : huge = x := Except.ok.inj e
  rcases hx with ⟨h1, -⟩ | ⟨-, h2⟩
  · exact lt_irrefl _ h1
  · have := h2 1 m2
    rw [huge_eq] at this
    norm_num at this

/-! ## The grid and beta -/

theorem profile_succ (t : Tol ℝ) (geev : Quartic.Geev ℝ) (n : Nat) (g : Nat → G ℝ) :
    profile realOps t geev (n + 1) g = profileStep realOps t geev g n (profile realOps t geev n g) := by
  unfold profile
  rw [forLoop_succ]

theorem profile_ok (t : Tol ℝ) (geev : Quartic.Geev ℝ) (n : Nat) (g : Nat → G ℝ) (f : Nat → ℝ)
    (h : profile realOps t geev n g = .ok f) : ∀ j < n, gridPoint realOps t geev (g j) = .ok (f j) := by
  induction n generalizing f with
  | zero => intro j hj; omega
  | succ n ih =>
    rw [profile_succ] at h
    cases hp : profile realOps t geev n g with
    | error e => rw [hp] at h; simp [profileStep] at h
    | ok f' =>
      rw [hp] at h
      have ih := ih f' hp
      simp only [profileStep] at h
      cases hq : gridPoint realOps t geev (g n) with
      | error e => rw [hq] at h; simp at h
      | ok rc =>
        rw [hq] at h
        simp only [Except.ok.injEq] at h
        subst h
        intro j hj
        dsimp only
        by_cases hjn : j = n
        · subst hjn; rw [if_pos rfl]; exact hq
        · rw [if_neg hjn]; exact ih j (by omega)

/-- **C47, the whole grid.** When `calculate_r_singularity` returns, the profile holds the value of each
grid point, `r_singularity` is the smallest of them, and `beta = -mu0 p2 r^2 / B0^2`, at most `1e30`. -/
theorem calculate_spec (t : Tol ℝ) (geev : Quartic.Geev ℝ) (i : R2.In ℝ) (r : R2.R2 ℝ) (hn : 0 < i.cfg.nphi)
    {out : Out ℝ} (h : calculate realOps t geev i r = .ok out) :
    (∀ j < i.cfg.nphi, gridPoint realOps t geev (jac i r j) = .ok (out.rhat j)) ∧
      IsLeast {x | ∃ j < i.cfg.nphi, x = out.rhat j} out.r ∧
      out.beta = min (-(i.mu0 * i.p2 * out.r ^ 2) / i.cfg.B0 ^ 2) (10 ^ 30) := by
  unfold calculate at h
  cases hp : profile realOps t geev i.cfg.nphi (jac i r) with
  | error e => rw [hp] at h; simp at h
  | ok f =>
    rw [hp] at h
    simp only [Except.ok.injEq] at h
    subst h
    obtain ⟨h1, j, hj, h2⟩ := vmin_spec i.cfg.nphi hn f
    refine ⟨profile_ok _ _ _ _ _ hp, ⟨⟨j, hj, h2⟩, ?_⟩, ?_⟩
    · rintro x ⟨k, hk, rfl⟩
      exact h1 k hk
    · simp only
      generalize vmin realOps i.cfg.nphi f = m
      have e : -i.mu0 * i.p2 * m * m / (i.cfg.B0 * i.cfg.B0) = -(i.mu0 * i.p2 * m ^ 2) / i.cfg.B0 ^ 2 := by
        congr 1 <;> ring
      rw [e, ← huge_eq]
      by_cases hb : huge < -(i.mu0 * i.p2 * m ^ 2) / i.cfg.B0 ^ 2
      · rw [if_pos ((realOps_lt _ _).2 hb), min_eq_right hb.le]
      · rw [if_neg (by rw [realOps_lt]; exact hb), min_eq_left (not_lt.1 hb)]

/-- It returns if the eigenvalue routine does. -/
theorem calculate_returns {t : Tol ℝ} (ht : 0 ≤ t.sc) (geev : Quartic.Geev ℝ) (hl : ∀ m, geev m ≠ none)
    (i : R2.In ℝ) (r : R2.R2 ℝ) : ∃ out, calculate realOps t geev i r = .ok out := by
  have hp : ∀ n g, ∃ f, profile realOps t geev n g = .ok f := by
    intro n g
    induction n with
    | zero => exact ⟨_, rfl⟩
    | succ n ih =>
      obtain ⟨f, hf⟩ := ih
      obtain ⟨x, hx, -⟩ := reported_sound ht (g n) geev (hl _)
      rw [profile_succ, hf]
      simp only [profileStep, hx]
      exact ⟨_, rfl⟩
  obtain ⟨f, hf⟩ := hp i.cfg.nphi (jac i r)
  unfold calculate
  rw [hf]
  exact ⟨_, rfl⟩

/-! ## A case that meets all hypotheses -/

/-- `1 - r cos theta + r^2 (-6 + cos 2 theta)`: singular for `theta = 0`, `pi` and `cos 2 theta = 0`. -/
def sampleG : G ℝ := ⟨1, -1, -6, 0, 1⟩

theorem sampleG_scaled : scaled sampleG = ⟨1, 0, -2, 0, 1⟩ := by norm_num [scaled, unscaled, sampleG]

example : (unscaled sampleG).K4c ≠ 0 ∧
    IsSpectrum (stored (Quartic.companion (coefficients (scaled sampleG))))
      (fun | 2 => 1 | 3 => -1 | _ => 0, fun _ => 0) ∧
    (∀ r θ, Singular sampleG r θ → Seen sampleG θ) ∧ (1 / Real.sqrt 8) ∈ radii sampleG := by
  have hk : (unscaled sampleG).K4c ≠ 0 := by norm_num [unscaled, sampleG]
  refine ⟨hk, fun z => ?_, fun r θ h => ?_, Real.pi / 4, (singular_iff _ _ _).2 ?_⟩
  · rw [Quartic.charpoly_complex _ (leading_pos _ hk).ne', sampleG_scaled]
    have e0 : (⟨0, 0⟩ : ℂ) = 0 := rfl
    have e1 : (⟨1, 0⟩ : ℂ) = 1 := rfl
    have e2 : (⟨-1, 0⟩ : ℂ) = -1 := by apply Complex.ext <;> simp
    simp only [quartic, coefficients, e0, e1, e2]
    push_cast
    ring
  · obtain ⟨hp, h1, h2⟩ := (singular_iff _ _ _).1 h
    simp only [sampleG] at h1 h2
    have hq := Real.sin_sq_add_cos_sq θ
    rw [Real.sin_two_mul, Real.cos_two_mul'] at h1 h2
    have hc : 0 ≤ Real.cos θ ^ 2 - Real.sin θ ^ 2 := by
      have : Real.sin θ * (1 - 4 * (r * Real.cos θ)) = 0 := by linear_combination h2
      rcases mul_eq_zero.1 this with e | e
      · rw [e]; nlinarith [sq_nonneg (Real.cos θ)]
      · have hrc : r * Real.cos θ = 1 / 4 := by linarith
        have hc2 : Real.cos θ ^ 2 - Real.sin θ ^ 2 = 2 * Real.cos θ ^ 2 - 1 := by linarith
        rw [hc2] at h1 ⊢
        have h8 : r ^ 2 = 1 / 8 := by
          have : r ^ 2 * Real.cos θ ^ 2 = 1 / 16 := by rw [← mul_pow, hrc]; norm_num
          linear_combination (-1 / 7 : ℝ) * h1 - (1 / 7 : ℝ) * hrc + (2 / 7 : ℝ) * this
        have : r ^ 2 * Real.cos θ ^ 2 = 1 / 16 := by rw [← mul_pow, hrc]; norm_num
        rw [h8] at this
        linarith
    refine ⟨?_, Or.inl (by rw [Real.cos_two_mul']; exact hc)⟩
    simp only [sampleG, zero_mul, add_zero]
    have := Real.cos_le_one (2 * θ)
    intro e
    linarith
  · have h8 : Real.sqrt 8 = 2 * Real.sqrt 2 := by
      rw [show (8 : ℝ) = 2 ^ 2 * 2 by norm_num, Real.sqrt_mul (by norm_num), Real.sqrt_sq (by norm_num)]
    have h2 := Real.sq_sqrt (show (0 : ℝ) ≤ 2 by norm_num)
    have hp : 0 < Real.sqrt 2 := Real.sqrt_pos.2 (by norm_num)
    rw [show 2 * (Real.pi / 4) = Real.pi / 2 by ring, Real.sin_pi_div_two, Real.cos_pi_div_two,
      Real.sin_pi_div_four, Real.cos_pi_div_four, h8]
    refine ⟨by positivity, ?_, ?_⟩
    · simp only [sampleG]
      field_simp
      rw [show Real.sqrt 2 ^ 2 = 2 from h2]
      norm_num
    · simp only [sampleG]
      field_simp
      linear_combination h2

end Qsc.RSing
