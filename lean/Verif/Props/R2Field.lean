import Verif.Props.R2

/-!
# The second-order solution is a magnetic field in equilibrium (C58, C59)

Exact real arithmetic, and up to the product rule for the first-order profiles, which a spectral
differentiation matrix obeys only approximately.
-/

namespace Qsc.R2

open Qsc.Spec.NearAxis

/-- A set of coefficients without its third-order part. -/
def lower (c : Coef) : Coef :=
  { c with X3c1 := 0, Y3s1 := 0, Y3c1 := 0, Z3s1 := 0, Z3c1 := 0, Z3s3 := 0, Z3c3 := 0 }

theorem First.of_lower {e : Pt} {c d : Coef} (h : First e (lower c) (lower d)) : First e c d :=
  ⟨h.area, h.sigma, h.z20, h.z2s, h.z2c⟩

theorem StrengthEqs.of_lower {e : Pt} {c d : Coef} (h : StrengthEqs e (lower c) (lower d)) :
    StrengthEqs e c d := ⟨h.axis, h.kappa, h.pressure, h.b20, h.x2s, h.x2c⟩

/-- `x` solves the linear system. -/
def Solves (i : In ℝ) (m : Nat → Nat → ℝ) (x : Nat → ℝ) : Prop :=
  ∀ a < 2 * i.cfg.nphi, ∑ b ∈ Finset.range (2 * i.cfg.nphi), m a b * x b = rhs i a

/-- **C58.** For the computed coefficients there are third-order tangential coefficients such that, whatever
the other third-order coefficients are, both expressions for the magnetic field agree: the normal and
binormal components with an error of third order in `r`, the tangential one with an error of second
order. -/
theorem field_agrees {i : In ℝ} (ok : Ok i) {m : Nat → Nat → ℝ} {old : Nat → Nat → ℝ} (hm : m = matrix i old)
    {x : Nat → ℝ} (hx : Solves i m x) {j : Nat} (hj : j < i.cfg.nphi) (hs : SigmaHolds i j)
    (sm : Smooth i j) :
    let r2 := finish realOps i x
    ∃ s1 c1 s3 c3 : ℝ, ∀ c d : Coef, lower c = coef i r2 j → lower d = dcoef i r2 j →
      c.Z3s1 = s1 → c.Z3c1 = c1 → c.Z3s3 = s3 → c.Z3c3 = c3 → ∀ θ,
      (Order 3 fun r => (contra (pt i r2 j) c d r θ).n - (co (pt i r2 j) c d r θ).n) ∧
      (Order 3 fun r => (contra (pt i r2 j) c d r θ).b - (co (pt i r2 j) c d r θ).b) ∧
      (Order 2 fun r => (contra (pt i r2 j) c d r θ).t - (co (pt i r2 j) c d r θ).t) := by
  intro r2
  subst hm
  obtain ⟨z, hz, h3⟩ := exists_third (pt i r2 j) (coef i r2 j) (dcoef i r2 j) ok.l
  refine ⟨z.Z3s1, z.Z3c1, z.Z3s3, z.Z3c3, fun c d hc hd e1 e2 e3 e4 θ => ?_⟩
  have hsol := (system_iff ok old x).1 hx j hj
  have hf := first ok x hj hs sm
  have ha := area_relations ok x hj
  have hF : First (pt i r2 j) c d := First.of_lower (by rw [hc, hd]; exact hf)
  have hS : Solvable (pt i r2 j) c d := by
    have : Solvable (pt i r2 j) (lower c) (lower d) := by rw [hc, hd]; exact hsol
    exact this
  have hA : Area (pt i r2 j) c := by
    have : Area (pt i r2 j) (lower c) := by rw [hc]; exact ha
    exact this
  have hT : Third (pt i r2 j) c d := by
    have hz' : lower z = lower c := by rw [hc, hz]; rfl
    have t1 : Third (pt i r2 j) z (lower d) := by rw [hd]; exact h3
    obtain ⟨a1, a2, a3, a4⟩ := t1
    have f1 : ∀ f : Pt → Coef → Coef → ℝ, f (pt i r2 j) (lower z) (lower d) = f (pt i r2 j) (lower c) (lower d) :=
      fun f => by rw [hz']
    have g1 : c.X1c = z.X1c := (congrArg Coef.X1c hz'.symm : (lower c).X1c = (lower z).X1c)
    have g2 : c.Y1s = z.Y1s := (congrArg Coef.Y1s hz'.symm : (lower c).Y1s = (lower z).Y1s)
    have g3 : c.Y1c = z.Y1c := (congrArg Coef.Y1c hz'.symm : (lower c).Y1c = (lower z).Y1c)
    have q1 : fX0 (pt i r2 j) z (lower d) = fX0 (pt i r2 j) c d := f1 fX0
    have q2 : fXs (pt i r2 j) z (lower d) = fXs (pt i r2 j) c d := f1 fXs
    have q3 : fXc (pt i r2 j) z (lower d) = fXc (pt i r2 j) c d := f1 fXc
    have q4 : fY0 (pt i r2 j) z (lower d) = fY0 (pt i r2 j) c d := f1 fY0
    have q5 : fYs (pt i r2 j) z (lower d) = fYs (pt i r2 j) c d := f1 fYs
    have q6 : fYc (pt i r2 j) z (lower d) = fYc (pt i r2 j) c d := f1 fYc
    rw [q2, q4, q6, q5, ← g1, ← g2, ← g3, ← e1] at a1
    rw [q1, q3, q5, q4, q6, ← g1, ← g2, ← g3, ← e2] at a2
    rw [q2, q6, q5, ← g1, ← g2, ← g3, ← e3] at a3
    rw [q3, q5, q6, ← g1, ← g2, ← g3, ← e4] at a4
    exact ⟨a1, a2, a3, a4⟩
  have h1 := first_order hF ok.l θ
  have h2 := second_order hF hS hT ok.l θ
  have h4 := tangent hF hA θ
  refine ⟨((residual_n c d θ _).congr rfl h1.1 h2.1).order_three,
    ((residual_b c d θ _).congr rfl h1.2 h2.2).order_three,
    ((residual_t c d θ _).congr h4.1 h4.2 rfl).order_two⟩

/-- **C58.** The field strength of the computed configuration is
`B0 (1 + r etaBar cos theta) + r^2 (B20 + B2s sin 2 theta + B2c cos 2 theta)` with an error of third order,
for any solution vector and any third-order coefficients. -/
theorem field_strength {i : In ℝ} (ok : Ok i) (x : Nat → ℝ) {j : Nat} (hj : j < i.cfg.nphi) (c d : Coef)
    (hc : lower c = coef i (finish realOps i x) j) (hd : lower d = dcoef i (finish realOps i x) j) (θ : ℝ) :
    Order 3 fun r => strength (pt i (finish realOps i x) j) c d r θ := by
  refine strength_order (StrengthEqs.of_lower ?_) ok.l ok.B0 θ
  rw [hc, hd]
  exact strengthEqs ok x hj

/-- **C58.** The magnetic force balances the pressure gradient with an error of second order. -/
theorem force_balance {i : In ℝ} (ok : Ok i) (x : Nat → ℝ) {j : Nat} (hj : j < i.cfg.nphi)
    (hi : i.r1.iotaN ≠ 0) (θ : ℝ) : Order 2 fun r => force (pt i (finish realOps i x) j) r θ := by
  refine force_order (strengthEqs ok x hj).pressure ?_ ok.B0 θ
  have hB := ok.B0
  have h2 := ok.spsisq
  have hb : (pre i).beta1s = -4 * i.cfg.spsi * i.cfg.sG * i.mu0 * i.p2 * i.cfg.etaBar * i.G0overB0 /
    (i.r1.iotaN * i.cfg.B0 * i.cfg.B0) := rfl
  have hsp : (i.cfg.spsi : ℝ) ≠ 0 := by
    intro h0; rw [h0] at h2; norm_num at h2
  simp only [pt]
  rw [hb, ok.G0]
  linear_combination (norm := skip) (-4 * i.cfg.sG * i.mu0 * i.p2 * i.cfg.etaBar * i.G0overB0 /
    (i.cfg.B0 * i.cfg.B0 * i.cfg.spsi)) * h2
  field_simp
  ring

/-- **C59.** With the third-order coefficients of `calculate_r2p1`, the part of the tangential component
that does not depend on `theta` agrees at second order too: what remains is a combination of
`sin 2 theta` and `cos 2 theta`. -/
theorem third_order {i : In ℝ} (ok : Ok i) (x : Nat → ℝ) {j : Nat} (hj : j < i.cfg.nphi)
    (hs : SigmaHolds i j) (sm : Smooth i j) (c d : Coef)
    (hc : lower c = coef i (finish realOps i x) j) (hd : lower d = dcoef i (finish realOps i x) j)
    (hX : c.X3c1 = (r2p1 realOps i (finish realOps i x)).X3c1 j)
    (hYs : c.Y3s1 = (r2p1 realOps i (finish realOps i x)).Y3s1 j) :
    ∃ s k : ℝ, ∀ θ, Order 3 fun r =>
      (contra (pt i (finish realOps i x) j) c d r θ).t - (co (pt i (finish realOps i x) j) c d r θ).t -
        r ^ 2 * (s * Real.sin (2 * θ) + k * Real.cos (2 * θ)) := by
  have hf := first ok x hj hs sm
  have ha := area_relations ok x hj
  have hF : First (pt i (finish realOps i x) j) c d := First.of_lower (by rw [hc, hd]; exact hf)
  have hA : Area (pt i (finish realOps i x) j) c := by
    have : Area (pt i (finish realOps i x) j) (lower c) := by rw [hc]; exact ha
    exact this
  obtain ⟨s, k, h⟩ := tangent_two (pt i (finish realOps i x) j) c d
  refine ⟨s, k, fun θ => ?_⟩
  have h4 := tangent hF hA θ
  have hq : HasJet (fun r : ℝ => r ^ 2 * (s * Real.sin (2 * θ) + k * Real.cos (2 * θ))) 0 0
      (s * Real.sin (2 * θ) + k * Real.cos (2 * θ)) :=
    HasJet.mk (q := fun _ => 0) continuous_const fun r _ => by ring
  refine (((residual_t c d θ _).sub hq).congr (by rw [h4.1, sub_zero]) (by rw [h4.2, sub_zero]) ?_).order_three
  rw [h θ]
  have hA' := ok.A (finish realOps i x) j
  have hI := ok.I (finish realOps i x) j
  have har := ok.area hj
  have hl := ok.l
  have hB := ok.B0
  have field : ∀ f : Coef → ℝ, f (lower c) = f (coef i (finish realOps i x) j) := fun f => by rw [hc]
  have field' : ∀ f : Coef → ℝ, f (lower d) = f (dcoef i (finish realOps i x) j) := fun f => by rw [hd]
  have a1 : c.X1c = i.r1.X1c j := field Coef.X1c
  have a2 : c.Y1s = i.r1.Y1s j := field Coef.Y1s
  have a3 : c.Y1c = i.r1.Y1c j := field Coef.Y1c
  have a4 : c.X20 = (finish realOps i x).X20 j := field Coef.X20
  have a5 : c.X2s = (pre i).X2s j := field Coef.X2s
  have a6 : c.X2c = (pre i).X2c j := field Coef.X2c
  have a7 : c.Y2s = (finish realOps i x).Y2s j := field Coef.Y2s
  have a8 : c.Y2c = (finish realOps i x).Y2c j := field Coef.Y2c
  have b1 : d.X1c = der i i.r1.X1c j := field' Coef.X1c
  have b2 : d.Y1c = der i i.r1.Y1c j := field' Coef.Y1c
  have b3 : d.Z20 = der i (pre i).Z20 j := field' Coef.Z20
  have e1 : i.r1.dX1c j = der i i.r1.X1c j := by rw [← der_eq, ok.r1]; rfl
  have e2 : i.r1.dY1c j = der i i.r1.Y1c j := by rw [← der_eq, ok.r1]; rfl
  have e3 : (pre i).dZ20 j = der i (pre i).Z20 j := by rw [← der_eq]; rfl
  have eG : (pre i).G2 = -i.mu0 * i.p2 * i.cfg.G0 / (i.cfg.B0 * i.cfg.B0) - i.st.iota * i.cfg.I2 := rfl
  rw [hX, hYs, a1, a2, a3, a4, a5, a6, a7, a8, b1, b2, b3, hA', hI]
  simp only [r2p1, pt, e1, e2, e3, eG, ok.G0]
  generalize finish realOps i x = r2
  generalize der i (pre i).Z20 j = dZ
  generalize pre i = q
  generalize der i i.r1.X1c j = dX
  generalize der i i.r1.Y1c j = dY
  have hp : ∀ a b t : ℝ, a * (b * t) + a * t * b = 2 * (a * b) * t := fun a b t => by ring
  rw [hp, har]
  rcases ok.sG with g | g <;> rcases ok.spsi with g' | g' <;> rw [g, g'] <;> push_cast <;> field_simp <;> ring

/-- **C59.** The third-order coefficients are the first-order ones times a common factor. -/
theorem third_order_shape (i : In ℝ) (r : R2 ℝ) :
    ∃ f : Nat → ℝ, ∀ j, (r2p1 realOps i r).X3c1 j = f j * i.r1.X1c j ∧
      (r2p1 realOps i r).Y3s1 j = f j * i.r1.Y1s j ∧ (r2p1 realOps i r).Y3c1 j = f j * i.r1.Y1c j :=
  ⟨(r2p1 realOps i r).lambda, fun _ => ⟨mul_comm _ _, mul_comm _ _, mul_comm _ _⟩⟩

/-- The hypotheses hold after `init_axis` and the first-order calculation, for an axis without inflection
points. -/
theorem ok_after_init_axis (c : Axis.Coeffs ℝ) (hc : c.WellSized) (M : Nat) (sG spsi : Int)
    (etaBar sigma0 I2 B0 mu0 p2 B2s B2c : ℝ) (a : Axis.Axis ℝ)
    (h : Axis.initAxis realOps c (2 * M + 1) sG spsi B0 = .ok a) (hn : 0 < c.nfp)
    (hR : ∀ k < 2 * M + 1, Axis.Rf c (a.phi k) ≠ 0) (hsG : sG = 1 ∨ sG = -1) (hsp : spsi = 1 ∨ spsi = -1)
    (hB : B0 ≠ 0) (he : etaBar ≠ 0) (hk : ∀ k < 2 * M + 1, (a.loc k).curvature ≠ 0) (q : R1.Stored ℝ) :
    let p := R1.Cfg.ofAxis a (2 * M + 1) c.nfp sG spsi etaBar sigma0 I2 B0
    let i := In.of a p q (R1.diagnostics realOps p q) mu0 p2 B2s B2c
    Ok i ∧ (∀ j < i.cfg.nphi, 0 < i.cfg.dl j) ∧ 0 < i.cfg.nphi ∧ a.dPhi * i.cfg.nfp ≠ 0 ∧
    a.axisLength = (∑ j ∈ Finset.range i.cfg.nphi, i.cfg.dl j) * a.dPhi * i.cfg.nfp := by
  intro p i
  obtain ⟨h1, h2, h3, h4⟩ := R1.after_init_axis c hc M sG spsi etaBar sigma0 I2 B0 a h hn hR
  obtain ⟨g1, g2, g3, g4, -⟩ := Axis.averages hc h hn hR
  have hd : a.dlDvarphi = a.G0overB0 := by rw [g2, g3]
  have hl : a.G0overB0 ≠ 0 := by rw [← hd]; exact h1
  have hL : a.axisLength = (∑ j ∈ Finset.range (2 * M + 1), (a.loc j).dl) * a.dPhi * c.nfp := by
    obtain ⟨D, k, -, rfl, -⟩ := Axis.of_ok hc h
    simp only [Axis.axisData, vsum_eq]
  have hne : a.dPhi * c.nfp ≠ 0 := by
    intro h0
    rw [mul_assoc, h0, mul_zero] at hL
    rw [g3, hL, zero_div] at hl
    exact hl rfl
  refine ⟨⟨rfl, hl, ?_, ?_, ?_, ?_, hB, he, hk⟩, h3, h4, hne, hL⟩
  · change a.B0overG0 = 1 / a.G0overB0
    rw [eq_div_iff hl]; exact g4
  · change a.G0 = sG * a.G0overB0 * B0
    rw [← hd]; exact h2
  · rcases hsG with h | h
    · left; change (sG : Int) = 1; exact h
    · right; change (sG : Int) = -1; exact h
  · rcases hsp with h | h
    · left; change (spsi : Int) = 1; exact h
    · right; change (spsi : Int) = -1; exact h

/-! ## A configuration that meets the hypotheses -/

/-- With current, pressure gradient and a non-zero `iota_N`; one grid point. -/
noncomputable def sample : In ℝ :=
  { cfg := R1.sample, st := ⟨1, fun _ => 1⟩, r1 := R1.diagnostics realOps R1.sample ⟨1, fun _ => 1⟩
    B0overG0 := 1, G0overB0 := 1, mu0 := 1, p2 := -1, B2s := 1, B2c := 2 }

theorem sample_ok : Ok sample :=
  ⟨rfl, by simp [sample], by simp [sample], by simp [sample, R1.sample], Or.inl rfl, Or.inr rfl,
    by simp [sample, R1.sample], by simp [sample, R1.sample], fun _ _ => by simp [sample, R1.sample]⟩

theorem sample_der (f : Nat → ℝ) (j : Nat) : der sample f j = 0 := by simp [der, sample, R1.sample]

example : SigmaHolds sample 0 ∧ Smooth sample 0 ∧ sample.r1.iotaN ≠ 0 := by
  refine ⟨?_, ⟨?_, ?_, ?_, ?_, ?_⟩, ?_⟩
  · simp [SigmaHolds, Spec.R1.sigmaEq, sample, R1.sample, R1.diagnostics]; norm_num
  all_goals simp [Leibniz, sample_der]
  simp [sample, R1.diagnostics, R1.sample]

/-- Its second-order solution, which is not trivial. -/
noncomputable def sampleX (k : Nat) : ℝ := if k = 0 then -931 / 40 else -19 / 4

theorem sample_solves (old : Nat → Nat → ℝ) : Solves sample (matrix sample old) sampleX := by
  refine (system_iff sample_ok old sampleX).2 fun j hj => ?_
  obtain rfl : j = 0 := by
    have : sample.cfg.nphi = 1 := rfl
    omega
  have hX : sample.r1.X1c 0 = 2 := by simp [sample, R1.diagnostics, R1.sample]
  have hYs : sample.r1.Y1s 0 = -1 / 2 := by simp [sample, R1.diagnostics, R1.sample]
  have hYc : sample.r1.Y1c 0 = -1 / 2 := by simp [sample, R1.diagnostics, R1.sample]
  have hi : sample.r1.iotaN = 1 := by simp [sample, R1.diagnostics, R1.sample]
  have hmv : ∀ (f : Nat → ℝ) (j : Nat), matVec sample.cfg.nphi sample.cfg.dDvarphi f j = 0 :=
    fun f j => by rw [der_eq, sample_der]
  have z0 : (pre sample).Z20 0 = 0 := by simp only [pre, hmv]; ring
  have zs : (pre sample).Z2s 0 = 1 := by simp only [pre, hmv, hi, hX, hYs, hYc]; simp [sample]; norm_num
  have zc : (pre sample).Z2c 0 = -1 / 8 := by simp only [pre, hmv, hi, hYs, hYc]; simp [sample]; norm_num
  have xs : (pre sample).X2s 0 = 9 / 8 := by
    simp only [pre, hmv, hi, hX, hYs, hYc]; simp [sample, R1.sample]; norm_num
  have xc : (pre sample).X2c 0 = 1 := by
    simp only [pre, hmv, hi, hX, hYs, hYc]; simp [sample, R1.sample]; norm_num
  have hb : (pre sample).beta1s = -8 := by simp only [pre, hi]; simp [sample, R1.sample]; norm_num
  have ys : (finish realOps sample sampleX).Y2s 0 = (1 / 2 - 1 / 4 * (1 / 8)) - 931 / 160 := by
    simp only [finish, linOf, lin, xs, xc]; simp [sample, R1.sample, sampleX]; norm_num
  have yc : (finish realOps sample sampleX).Y2c 0 = -(17 / 32) - 931 / 160 - 19 / 4 := by
    simp only [finish, linOf, lin, xs, xc]; simp [sample, R1.sample, sampleX]; norm_num
  have x0 : (finish realOps sample sampleX).X20 0 = -931 / 40 := by simp [finish, sampleX]
  have y0 : (finish realOps sample sampleX).Y20 0 = -19 / 4 := by simp [finish, sampleX, sample, R1.sample]
  simp only [Solvable, fX0, fXs, fXc, fY0, fYs, fYc, coef, dcoef, pt, sample_der, hX, hYs, hYc, hi, z0, zs, zc, xs,
    xc, hb, ys, yc, x0, y0]
  simp only [sample, R1.sample]
  norm_num

end Qsc.R2
