import Verif.Lemmas.GradGradBCurrent
import Verif.Props.GradGradB

/-!
# The divergence and the curl of the grad grad B tensor (C68)

Exact real arithmetic.
-/

namespace Qsc.GradGradB

open Qsc.Spec.NearAxis R2

/-- As `Profiles`, with the second-order profiles: smooth functions that obey the relations between the
coefficients everywhere and have, at one point, the values and derivatives of the profiles at the grid
point `j`. -/
structure Profiles2 (i : In ℝ) (x : Nat → ℝ) (j : Nat) extends Profiles i j where
  X20 : ℝ → ℝ
  X2s : ℝ → ℝ
  X2c : ℝ → ℝ
  Y20 : ℝ → ℝ
  Y2s : ℝ → ℝ
  Y2c : ℝ → ℝ
  curv : ∀ v, kap v * X v = i.cfg.etaBar
  cos : ∀ v, -X v * Y2c v + X v * Y20 v + X2s v * Ys v + X2c v * Yc v - X20 v * Yc v = 0
  sin : ∀ v, X v * Y2s v + X2c v * Ys v - X2s v * Yc v + X20 v * Ys v + X v * Ys v * (kap v * X v) / 2 = 0
  X20_u : X20 u = (finish realOps i x).X20 j
  X2s_u : X2s u = (pre i).X2s j
  X2c_u : X2c u = (pre i).X2c j
  Y20_u : Y20 u = (finish realOps i x).Y20 j
  Y2s_u : Y2s u = (finish realOps i x).Y2s j
  Y2c_u : Y2c u = (finish realOps i x).Y2c j
  X20_d : HasDerivAt X20 (der i (finish realOps i x).X20 j) u
  X2s_d : HasDerivAt X2s (der i (pre i).X2s j) u
  X2c_d : HasDerivAt X2c (der i (pre i).X2c j) u
  Y20_d : HasDerivAt Y20 (der i (finish realOps i x).Y20 j) u
  Y2s_d : HasDerivAt Y2s (der i (finish realOps i x).Y2s j) u
  Y2c_d : HasDerivAt Y2c (der i (finish realOps i x).Y2c j) u

/-- As `Profiles2`, with the sigma equation and the tangential coefficients. -/
structure Profiles3 (i : In ℝ) (x : Nat → ℝ) (j : Nat) extends Profiles2 i x j where
  Z20 : ℝ → ℝ
  Z2s : ℝ → ℝ
  Z2c : ℝ → ℝ
  sigma : ∀ v, Ys v * dYc v - Yc v * dYs v + i.r1.iotaN * (X v ^ 2 + Ys v ^ 2 + Yc v ^ 2) +
    2 * i.G0overB0 * (tor v - i.cfg.I2 / (i.cfg.spsi * i.cfg.B0)) * (X v * Ys v) = 0
  z20 : ∀ v, 4 * i.G0overB0 * Z20 v = -(X v * dX v + Yc v * dYc v + Ys v * dYs v)
  z2s : ∀ v, 4 * i.G0overB0 * Z2s v =
    -(Ys v * dYc v + Yc v * dYs v - i.r1.iotaN * (X v ^ 2 + Yc v ^ 2 - Ys v ^ 2))
  z2c : ∀ v, 4 * i.G0overB0 * Z2c v =
    -(X v * dX v + Yc v * dYc v - Ys v * dYs v + 2 * i.r1.iotaN * Ys v * Yc v)
  Z20_u : Z20 u = (pre i).Z20 j
  Z2s_u : Z2s u = (pre i).Z2s j
  Z2c_u : Z2c u = (pre i).Z2c j
  Z20_d : HasDerivAt Z20 (der i (pre i).Z20 j) u
  Z2s_d : HasDerivAt Z2s (der i (pre i).Z2s j) u
  Z2c_d : HasDerivAt Z2c (der i (pre i).Z2c j) u

theorem deriv_zero {F : ℝ → ℝ} {c F' u : ℝ} (h : ∀ v, F v = c) (hF : HasDerivAt F F' u) : F' = 0 := by
  have h0 : F = fun _ => c := funext h
  rw [h0] at hF
  exact hF.unique (hasDerivAt_const _ _)

theorem Profiles2.rule {i : In ℝ} {x : Nat → ℝ} {j : Nat} (f : Profiles2 i x j) :
    SecondRule (At.of i (finish realOps i x) j) := by
  have hX := f.X_d f.u
  have hs := f.Ys_d f.u
  have hc := f.Yc_d f.u
  rw [f.dX_u] at hX
  rw [f.dYs_u] at hs
  rw [f.dYc_u] at hc
  have k := f.kap_d.fun_mul hX
  have e1 := deriv_zero f.curv k
  have e2 := deriv_zero f.cos (((((hX.fun_neg.fun_mul f.Y2c_d).fun_add (hX.fun_mul f.Y20_d)).fun_add
    (f.X2s_d.fun_mul hs)).fun_add (f.X2c_d.fun_mul hc)).fun_sub (f.X20_d.fun_mul hc))
  have e3 := deriv_zero f.sin (((((hX.fun_mul f.Y2s_d).fun_add (f.X2c_d.fun_mul hs)).fun_sub
    (f.X2s_d.fun_mul hc)).fun_add (f.X20_d.fun_mul hs)).fun_add (((hX.fun_mul hs).fun_mul k).div_const 2))
  simp only [f.X_u, f.Ys_u, f.Yc_u, f.kap_u, f.X20_u, f.X2s_u, f.X2c_u, f.Y20_u, f.Y2s_u, f.Y2c_u] at e1 e2 e3
  have d1 : (pre i).dX2s j = der i (pre i).X2s j := der_eq i _ j
  have d2 : (pre i).dX2c j = der i (pre i).X2c j := der_eq i _ j
  constructor
  · simp only [At.of, der_eq, d1, d2]; linear_combination e2
  · simp only [At.of, der_eq, d1, d2]; linear_combination e3
  · simp only [At.of, der_eq]; linear_combination e1

/-- **C68.** The field is divergence free to second order: all three traces vanish. -/
theorem divergence {i : In ℝ} (ok : Ready i) {x : Nat → ℝ} {j : Nat} (hj : j < i.cfg.nphi)
    (f : Profiles2 i x j) {m : Nat} (hm : m < 3) :
    ∑ k ∈ Finset.range 3, main (At.of i (finish realOps i x) j) m k k = 0 := by
  simp only [alternative ok x hj f.toProfiles, Finset.sum_range_succ, Finset.sum_range_zero, zero_add]
  have h := first_of ok x hj
  have q := second_of ok x hj
  have s := f.smooth x
  match m, hm with
  | 0, _ => exact trace0 h q s f.rule
  | 1, _ => exact trace1 h q s f.rule
  | 2, _ => exact trace2 h s

section
variable {i : In ℝ} (ok : Ready i) {x : Nat → ℝ} {j : Nat} (hj : j < i.cfg.nphi) (f : Profiles3 i x j)
include ok hj f

theorem covariant_of : Covariant (At.of i (finish realOps i x) j) i.cfg.etaBar ((pre i).Z20 j)
    (pre i).beta1s (i.mu0 * i.p2) := by
  have hX := f.X_d f.u
  have hs := f.Ys_d f.u
  have hc := f.Yc_d f.u
  rw [f.dX_u] at hX
  rw [f.dYs_u] at hs
  rw [f.dYc_u] at hc
  have st := strengthEqs ok.toOk x hj
  have e0 := f.sigma f.u
  have e1 := f.z20 f.u
  have e2 := f.z2s f.u
  have e3 := f.z2c f.u
  have g0 := deriv_zero f.sigma ((((hs.fun_mul f.Yc_dd).fun_sub (hc.fun_mul f.Ys_dd)).fun_add
    ((((hX.fun_pow 2).fun_add (hs.fun_pow 2)).fun_add (hc.fun_pow 2)).const_mul i.r1.iotaN)).fun_add
    (((f.tor_d.sub_const (i.cfg.I2 / (i.cfg.spsi * i.cfg.B0))).const_mul (2 * i.G0overB0)).fun_mul
      (hX.fun_mul hs)))
  have g1 := deriv_zero (c := 0) (fun v => by rw [f.z20 v]; ring) ((f.Z20_d.const_mul (4 * i.G0overB0)).fun_add
    (((hX.fun_mul f.X_dd).fun_add (hc.fun_mul f.Yc_dd)).fun_add (hs.fun_mul f.Ys_dd)))
  have g2 := deriv_zero (c := 0) (fun v => by rw [f.z2s v]; ring) ((f.Z2s_d.const_mul (4 * i.G0overB0)).fun_add
    (((hs.fun_mul f.Yc_dd).fun_add (hc.fun_mul f.Ys_dd)).fun_sub
      ((((hX.fun_pow 2).fun_add (hc.fun_pow 2)).fun_sub (hs.fun_pow 2)).const_mul i.r1.iotaN)))
  have g3 := deriv_zero (c := 0) (fun v => by rw [f.z2c v]; ring) ((f.Z2c_d.const_mul (4 * i.G0overB0)).fun_add
    ((((hX.fun_mul f.X_dd).fun_add (hc.fun_mul f.Yc_dd)).fun_sub (hs.fun_mul f.Ys_dd)).fun_add
      ((hs.const_mul (2 * i.r1.iotaN)).fun_mul hc)))
  have hp := f.product
  unfold Product at hp
  simp only [f.X_u, f.Ys_u, f.Yc_u, f.dX_u, f.dYs_u, f.dYc_u, f.tor_u, f.Z20_u, f.Z2s_u, f.Z2c_u] at e0 e1 e2 e3 g0 g1 g2 g3
  have d0 : (pre i).dZ20 j = der i (pre i).Z20 j := der_eq i _ j
  have d1 : (pre i).dZ2s j = der i (pre i).Z2s j := der_eq i _ j
  have d2 : (pre i).dZ2c j = der i (pre i).Z2c j := der_eq i _ j
  have s1 := st.pressure
  have s2 := st.b20
  have s3 := st.x2s
  have s4 := st.x2c
  simp only [pt, coef, dcoef, ← dX1c_eq ok, ← dY1s_eq ok, ← dY1c_eq ok] at s1 s2 s3 s4
  constructor
  · simpa only [At.of] using e0
  · simp only [At.of, der_eq]
    linear_combination g0 - 2 * i.G0overB0 * (i.cfg.torsion j - i.cfg.I2 / (i.cfg.spsi * i.cfg.B0)) * hp
  · simpa only [At.of] using e1
  · simpa only [At.of] using e2
  · simpa only [At.of] using e3
  · simp only [At.of, der_eq, d0]; linear_combination g1
  · simp only [At.of, der_eq, d1]; linear_combination g2
  · simp only [At.of, der_eq, d2]; linear_combination g3
  · simp only [At.of]; linear_combination s1
  · simpa only [At.of, d0] using s2
  · simpa only [At.of, d1] using s3
  · simpa only [At.of, d2] using s4

omit hj f in
theorem solv_of (hS : Solvable (pt i (finish realOps i x) j) (coef i (finish realOps i x) j)
    (dcoef i (finish realOps i x) j)) :
    Solv (At.of i (finish realOps i x) j) ((pre i).Z20 j) (pre i).beta1s := by
  have d1 : (pre i).dX2s j = der i (pre i).X2s j := der_eq i _ j
  have d2 : (pre i).dX2c j = der i (pre i).X2c j := der_eq i _ j
  constructor
  · intro fXs fY0 fYs fYc h1 h2 h3 h4
    have := hS.1
    simp only [Spec.NearAxis.fXs, Spec.NearAxis.fY0, Spec.NearAxis.fYs, Spec.NearAxis.fYc, pt, coef, dcoef] at this
    rw [h1, h2, h3, h4]
    simp only [At.of, der_eq, d1, d2]
    exact this
  · intro fX0 fXc fY0 fYs fYc h0 h1 h2 h3 h4
    have := hS.2
    simp only [Spec.NearAxis.fX0, Spec.NearAxis.fXc, Spec.NearAxis.fY0, Spec.NearAxis.fYs, Spec.NearAxis.fYc, pt,
      coef, dcoef] at this
    rw [h0, h1, h2, h3, h4]
    simp only [At.of, der_eq, d1, d2]
    exact this

variable {old : Nat → Nat → ℝ} (hx : Solves i (matrix i old) x)
include hx

/-- **C68.** Ampere's law to first order in `r`: the current of the covariant representation, with the
profiles `G`, `I` and `beta` of the computed solution, is `2 sG spsi I2` along the axis and the curl of the
tensor is its gradient; the error is of second order, at every angle. -/
theorem curl_current {c d : Coef} (hc : lower c = coef i (finish realOps i x) j)
    (hd : lower d = dcoef i (finish realOps i x) j) (θ : ℝ) {k : Nat} (hk : k < 3) :
    Order 2 fun r => comp (current (pt i (finish realOps i x) j) c d r θ) k -
      taylor1 (onAxis (2 * i.cfg.sG * i.cfg.spsi * i.cfg.I2)) (curl (main (At.of i (finish realOps i x) j)))
        (position c r θ) k := by
  have e : main (At.of i (finish realOps i x) j) = alt (At.of i (finish realOps i x) j) := by
    funext m n k; exact alternative ok x hj f.toProfiles m n k
  rw [e]
  exact current_order (first_of ok x hj) (match_of ok x hc hd) (MatchCo.mk (z20 := (pre i).Z20 j) rfl rfl rfl rfl) (second_of ok x hj) (f.smooth x)
    f.rule (covariant_of ok hj f) (solv_of ok ((system_iff ok.toOk old x).1 hx j hj)) θ hk

omit hx in
/-- **C68.** Along the axis the curl changes as the current on the axis does, which keeps its strength and
turns with the tangent. -/
theorem curl_along {k : Nat} (hk : k < 3) : curl (main (At.of i (finish realOps i x) j)) 2 k =
    2 * i.cfg.sG * i.cfg.spsi * i.cfg.I2 * turn (i.cfg.curvature j) (i.cfg.torsion j) 2 k := by
  have e : main (At.of i (finish realOps i x) j) = alt (At.of i (finish realOps i x) j) := by
    funext m n k; exact alternative ok x hj f.toProfiles m n k
  rw [e]
  have h := first_of ok x hj
  have q := second_of ok x hj
  have s := f.smooth x
  have w := f.rule
  have v := covariant_of ok hj f
  match k, hk with
  | 0, _ => exact curl20 h q s w v
  | 1, _ => exact (curl21 h q s w v).trans (by simp [turn])
  | 2, _ => exact (curl22 h q s w v).trans (by simp [turn])

/-- **C68.** Without current and pressure the tensor is symmetric in all three indices. -/
theorem vacuum_symmetric (hI : i.cfg.I2 = 0) (hp : i.p2 = 0) {m n k : Nat} (hm : m < 3) (hn : n < 3)
    (hk : k < 3) :
    main (At.of i (finish realOps i x) j) m n k = main (At.of i (finish realOps i x) j) m k n := by
  have e : main (At.of i (finish realOps i x) j) = alt (At.of i (finish realOps i x) j) := by
    funext m n k; exact alternative ok x hj f.toProfiles m n k
  rw [e]
  have h := first_of ok x hj
  have q := second_of ok x hj
  have s := f.smooth x
  have w := f.rule
  have v := covariant_of ok hj f
  have t := solv_of ok ((system_iff ok.toOk old x).1 hx j hj)
  have hi : iPrime (At.of i (finish realOps i x) j) = 0 := by simp [iPrime, At.of, hI]
  have hG : (pre i).G2 = 0 := by simp [pre, hI, hp]
  have hg : gPrime (At.of i (finish realOps i x) j) = 0 := by simp [gPrime, At.of, hI, hG]
  have hb : (pre i).beta1s = 0 := by simp [pre, hp]
  have h20 := curl20 h q s w v
  have hI' : (At.of i (finish realOps i x) j).I2 = 0 := hI
  have h10 := curl10 h q s w v
  have h00 := curl00 h q s w v
  have h11 := curl11 h q s w v
  have h01 := curl01 h q s w v
  have h02 := curl02 h q s w v t
  rw [hi, hg] at h10 h11 h01
  rw [hi] at h00 h02
  rw [hb] at h02
  rw [hI'] at h20
  have hX := h.X1c
  have hY : (At.of i (finish realOps i x) j).Y1s ≠ 0 := by
    intro h0
    have := h.area
    rw [h0, mul_zero] at this
    exact h.s_ne this.symm
  have c10 : alt112 (At.of i (finish realOps i x) j) - alt121 (At.of i (finish realOps i x) j) = 0 :=
    (mul_eq_zero.1 (h10.trans (by ring))).resolve_right hY
  have c11 : alt120 (At.of i (finish realOps i x) j) - alt102 (At.of i (finish realOps i x) j) = 0 :=
    (mul_eq_zero.1 (h11.trans (by ring))).resolve_right hY
  have c00 : alt012 (At.of i (finish realOps i x) j) - alt021 (At.of i (finish realOps i x) j) = 0 :=
    (mul_eq_zero.1 ((by rw [c10] at h00; linear_combination h00 : _ * _ = (0 : ℝ)))).resolve_right hX
  have c01 : alt020 (At.of i (finish realOps i x) j) - alt002 (At.of i (finish realOps i x) j) = 0 :=
    (mul_eq_zero.1 ((by rw [c11] at h01; linear_combination h01 : _ * _ = (0 : ℝ)))).resolve_right hX
  have c20 := h20.trans (by ring : _ = (0 : ℝ))
  have c02 := h02.trans (by ring : _ = (0 : ℝ))
  have c12 := curl12 h q s w v t
  have c21 := curl21 h q s w v
  have c22 := curl22 h q s w v
  rw [sub_eq_zero] at c00 c01 c02 c10 c11 c12 c20 c21 c22
  match m, n, k, hm, hn, hk with
  | _, 0, 0, _, _, _ => rfl
  | _, 1, 1, _, _, _ => rfl
  | _, 2, 2, _, _, _ => rfl
  | 0, 0, 1, _, _, _ => exact c02
  | 0, 1, 0, _, _, _ => exact c02.symm
  | 0, 1, 2, _, _, _ => exact c00
  | 0, 2, 1, _, _, _ => exact c00.symm
  | 0, 2, 0, _, _, _ => exact c01
  | 0, 0, 2, _, _, _ => exact c01.symm
  | 1, 0, 1, _, _, _ => exact c12
  | 1, 1, 0, _, _, _ => exact c12.symm
  | 1, 1, 2, _, _, _ => exact c10
  | 1, 2, 1, _, _, _ => exact c10.symm
  | 1, 2, 0, _, _, _ => exact c11
  | 1, 0, 2, _, _, _ => exact c11.symm
  | 2, 0, 1, _, _, _ => exact c22
  | 2, 1, 0, _, _, _ => exact c22.symm
  | 2, 1, 2, _, _, _ => exact c20
  | 2, 2, 1, _, _, _ => exact c20.symm
  | 2, 2, 0, _, _, _ => exact c21
  | 2, 0, 2, _, _, _ => exact c21.symm

end

/-! ## Configurations that meet the hypotheses -/

theorem sample_ready : Ready sample := ⟨sample_ok, by simp [sample, R1.sample]⟩

/-- Functions that do not change along the axis. -/
noncomputable def constProfiles (i : In ℝ) (x : Nat → ℝ) (ok : Ready i) {j : Nat} (hj : j < i.cfg.nphi)
    (hD : ∀ f, der i f j = 0) (hs : SigmaHolds i j) (sm : R2.Smooth i j) : Profiles3 i x j :=
  have e1 := dX1c_eq ok j
  have e2 := dY1s_eq ok j
  have e3 := dY1c_eq ok j
  have h1 := second_of ok x hj
  have hf := R2.first ok.toOk x hj hs sm
  have hk := (first_of ok x hj).kap
  { X := fun _ => i.r1.X1c j, Ys := fun _ => i.r1.Y1s j, Yc := fun _ => i.r1.Y1c j
    kap := fun _ => i.cfg.curvature j, tor := fun _ => i.cfg.torsion j
    dX := fun _ => 0, dYs := fun _ => 0, dYc := fun _ => 0, u := 0
    X_d := fun _ => hasDerivAt_const _ _, Ys_d := fun _ => hasDerivAt_const _ _
    Yc_d := fun _ => hasDerivAt_const _ _
    area := fun _ => ok.toOk.area hj
    X_u := rfl, Ys_u := rfl, Yc_u := rfl, kap_u := rfl, tor_u := rfl
    dX_u := by rw [e1, hD], dYs_u := by rw [e2, hD], dYc_u := by rw [e3, hD]
    X_dd := by rw [hD]; exact hasDerivAt_const _ _
    Ys_dd := by rw [hD]; exact hasDerivAt_const _ _
    Yc_dd := by rw [hD]; exact hasDerivAt_const _ _
    kap_d := by rw [hD]; exact hasDerivAt_const _ _
    tor_d := by rw [hD]; exact hasDerivAt_const _ _
    X20 := fun _ => (finish realOps i x).X20 j, X2s := fun _ => (pre i).X2s j, X2c := fun _ => (pre i).X2c j
    Y20 := fun _ => (finish realOps i x).Y20 j, Y2s := fun _ => (finish realOps i x).Y2s j
    Y2c := fun _ => (finish realOps i x).Y2c j
    curv := fun _ => hk, cos := fun _ => h1.cos, sin := fun _ => h1.sin
    X20_u := rfl, X2s_u := rfl, X2c_u := rfl, Y20_u := rfl, Y2s_u := rfl, Y2c_u := rfl
    X20_d := by rw [hD]; exact hasDerivAt_const _ _
    X2s_d := by rw [hD]; exact hasDerivAt_const _ _
    X2c_d := by rw [hD]; exact hasDerivAt_const _ _
    Y20_d := by rw [hD]; exact hasDerivAt_const _ _
    Y2s_d := by rw [hD]; exact hasDerivAt_const _ _
    Y2c_d := by rw [hD]; exact hasDerivAt_const _ _
    Z20 := fun _ => (pre i).Z20 j, Z2s := fun _ => (pre i).Z2s j, Z2c := fun _ => (pre i).Z2c j
    sigma := fun _ => by have := hf.sigma; simp only [pt, coef, dcoef, hD] at this; exact this
    z20 := fun _ => by have := hf.z20; simp only [pt, coef, dcoef, hD] at this; exact this
    z2s := fun _ => by have := hf.z2s; simp only [pt, coef, dcoef, hD] at this; exact this
    z2c := fun _ => by have := hf.z2c; simp only [pt, coef, dcoef, hD] at this; exact this
    Z20_u := rfl, Z2s_u := rfl, Z2c_u := rfl
    Z20_d := by rw [hD]; exact hasDerivAt_const _ _
    Z2s_d := by rw [hD]; exact hasDerivAt_const _ _
    Z2c_d := by rw [hD]; exact hasDerivAt_const _ _ }

/-- With current and pressure gradient: `divergence`, `curl_current` and `curl_along` apply, and the curl is
not zero. -/
example : ∃ _ : Profiles3 sample sampleX 0, Ready sample ∧ (∀ old, Solves sample (matrix sample old) sampleX) ∧
    (2 * sample.cfg.sG * sample.cfg.spsi * sample.cfg.I2 : ℝ) ≠ 0 := by
  refine ⟨constProfiles sample sampleX sample_ready (by simp [sample, R1.sample]) (fun f => sample_der f 0) ?_ ?_,
    sample_ready, sample_solves, ?_⟩
  · simp [SigmaHolds, Spec.R1.sigmaEq, sample, R1.sample, R1.diagnostics]; norm_num
  · constructor <;> simp [Leibniz, sample_der]
  · simp [sample, R1.sample]

/-- A vacuum field. -/
noncomputable def vacuum : In ℝ :=
  { sample with
    cfg := { R1.sample with I2 := 0, torsion := fun _ => 9 / 4 }
    r1 := R1.diagnostics realOps { R1.sample with I2 := 0, torsion := fun _ => 9 / 4 } ⟨1, fun _ => 1⟩
    p2 := 0 }

noncomputable def vacuumX (k : Nat) : ℝ := if k = 0 then -4807 / 128 else -19 / 4

theorem vacuum_der (f : Nat → ℝ) (j : Nat) : der vacuum f j = 0 := by simp [der, vacuum, R1.sample]

theorem vacuum_ready : Ready vacuum where
  r1 := by simp [vacuum, sample]
  l := by simp [vacuum, sample]
  bl := by simp [vacuum, sample]
  G0 := by simp [vacuum, sample, R1.sample]
  sG := Or.inl rfl
  spsi := Or.inr rfl
  B0 := by simp [vacuum, R1.sample]
  eta := by simp [vacuum, R1.sample]
  kappa := fun _ _ => by simp [vacuum, R1.sample]
  dl := by simp [vacuum, sample, R1.sample]

theorem vacuum_solves (old : Nat → Nat → ℝ) : Solves vacuum (matrix vacuum old) vacuumX := by
  refine (system_iff vacuum_ready.toOk old vacuumX).2 fun j hj => ?_
  obtain rfl : j = 0 := by
    have : vacuum.cfg.nphi = 1 := rfl
    omega
  have hX : vacuum.r1.X1c 0 = 2 := by simp [vacuum, R1.diagnostics, R1.sample]
  have hYs : vacuum.r1.Y1s 0 = -1 / 2 := by simp [vacuum, R1.diagnostics, R1.sample]
  have hYc : vacuum.r1.Y1c 0 = -1 / 2 := by simp [vacuum, R1.diagnostics, R1.sample]
  have hi : vacuum.r1.iotaN = 1 := by simp [vacuum, R1.diagnostics, R1.sample]
  have hmv : ∀ (f : Nat → ℝ) (j : Nat), matVec vacuum.cfg.nphi vacuum.cfg.dDvarphi f j = 0 :=
    fun f j => by rw [der_eq, vacuum_der]
  have z0 : (pre vacuum).Z20 0 = 0 := by simp only [pre, hmv]; ring
  have zs : (pre vacuum).Z2s 0 = 1 := by simp only [pre, hmv, hi, hX, hYs, hYc]; simp [vacuum, sample]; norm_num
  have zc : (pre vacuum).Z2c 0 = -1 / 8 := by simp only [pre, hmv, hi, hYs, hYc]; simp [vacuum, sample]; norm_num
  have xs : (pre vacuum).X2s 0 = 225 / 128 := by
    simp only [pre, hmv, hi, hX, hYs, hYc]; simp [vacuum, sample, R1.sample]; norm_num
  have xc : (pre vacuum).X2c 0 = 97 / 16 := by
    simp only [pre, hmv, hi, hX, hYs, hYc]; simp [vacuum, sample, R1.sample]; norm_num
  have hb : (pre vacuum).beta1s = 0 := by simp [pre, vacuum]
  have ys : (finish realOps vacuum vacuumX).Y2s 0 = -125 / 16 := by
    simp only [finish, linOf, lin, xs, xc]; simp [vacuum, sample, R1.sample, vacuumX]; norm_num
  have yc : (finish realOps vacuum vacuumX).Y2c 0 = -515 / 32 := by
    simp only [finish, linOf, lin, xs, xc]; simp [vacuum, sample, R1.sample, vacuumX]; norm_num
  have x0 : (finish realOps vacuum vacuumX).X20 0 = -4807 / 128 := by simp [finish, vacuumX]
  have y0 : (finish realOps vacuum vacuumX).Y20 0 = -19 / 4 := by simp [finish, vacuumX, vacuum, R1.sample]
  simp only [Solvable, fX0, fXs, fXc, fY0, fYs, fYc, coef, dcoef, pt, vacuum_der, hX, hYs, hYc, hi, z0, zs, zc, xs,
    xc, hb, ys, yc, x0, y0]
  simp only [vacuum, sample, R1.sample]
  norm_num

/-- `vacuum_symmetric` applies. -/
example : ∃ _ : Profiles3 vacuum vacuumX 0, Ready vacuum ∧ (∀ old, Solves vacuum (matrix vacuum old) vacuumX) ∧
    vacuum.cfg.I2 = 0 ∧ vacuum.p2 = 0 ∧ vacuum.r1.iotaN ≠ 0 := by
  refine ⟨constProfiles vacuum vacuumX vacuum_ready (by simp [vacuum, R1.sample]) (fun f => vacuum_der f 0) ?_ ?_,
    vacuum_ready, vacuum_solves, rfl, rfl, ?_⟩
  · simp [SigmaHolds, Spec.R1.sigmaEq, vacuum, sample, R1.sample, R1.diagnostics]; norm_num
  · constructor <;> simp [Leibniz, vacuum_der]
  · simp [vacuum, R1.diagnostics, R1.sample]

end Qsc.GradGradB
