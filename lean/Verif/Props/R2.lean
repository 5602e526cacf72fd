import Verif.Lemmas.R2
import Verif.Lemmas.NearAxis
import Verif.Props.R1

/-!
# The second-order solution (C43, C44, C45, C58, C59)

Exact real arithmetic.
-/

namespace Qsc.R2

open Qsc.Spec.NearAxis

/-- What `init_axis` and the first-order calculation provide. -/
structure Ok (i : In ℝ) : Prop where
  r1 : i.r1 = R1.diagnostics realOps i.cfg i.st
  l : i.G0overB0 ≠ 0
  bl : i.B0overG0 = 1 / i.G0overB0
  G0 : i.cfg.G0 = i.cfg.sG * i.G0overB0 * i.cfg.B0
  sG : i.cfg.sG = 1 ∨ i.cfg.sG = -1
  spsi : i.cfg.spsi = 1 ∨ i.cfg.spsi = -1
  B0 : i.cfg.B0 ≠ 0
  eta : i.cfg.etaBar ≠ 0
  kappa : ∀ j < i.cfg.nphi, i.cfg.curvature j ≠ 0

/-- The derivative along the axis of a profile, at a grid point. -/
def der (i : In ℝ) (f : Nat → ℝ) (j : Nat) : ℝ := ∑ k ∈ Finset.range i.cfg.nphi, i.cfg.dDvarphi j k * f k

/-- The computed coefficients at a grid point, up to second order. -/
noncomputable def coef (i : In ℝ) (r : R2 ℝ) (j : Nat) : Coef :=
  { X1c := i.r1.X1c j, Y1s := i.r1.Y1s j, Y1c := i.r1.Y1c j
    X20 := r.X20 j, X2s := (pre i).X2s j, X2c := (pre i).X2c j
    Y20 := r.Y20 j, Y2s := r.Y2s j, Y2c := r.Y2c j
    Z20 := (pre i).Z20 j, Z2s := (pre i).Z2s j, Z2c := (pre i).Z2c j
    X3c1 := 0, Y3s1 := 0, Y3c1 := 0, Z3s1 := 0, Z3c1 := 0, Z3s3 := 0, Z3c3 := 0 }

/-- Their derivatives along the axis. -/
noncomputable def dcoef (i : In ℝ) (r : R2 ℝ) (j : Nat) : Coef :=
  { X1c := der i i.r1.X1c j, Y1s := der i i.r1.Y1s j, Y1c := der i i.r1.Y1c j
    X20 := der i r.X20 j, X2s := der i (pre i).X2s j, X2c := der i (pre i).X2c j
    Y20 := der i r.Y20 j, Y2s := der i r.Y2s j, Y2c := der i r.Y2c j
    Z20 := der i (pre i).Z20 j, Z2s := der i (pre i).Z2s j, Z2c := der i (pre i).Z2c j
    X3c1 := 0, Y3s1 := 0, Y3c1 := 0, Z3s1 := 0, Z3c1 := 0, Z3s3 := 0, Z3c3 := 0 }

/-- The other quantities at a grid point.  With `theta` the angle in which the field strength is
symmetric, the coefficient of `grad phi` is `G + N I` where `iota_N = iota - N`. -/
noncomputable def pt (i : In ℝ) (r : R2 ℝ) (j : Nat) : Pt :=
  { kappa := i.cfg.curvature j, tau := i.cfg.torsion j, l := i.G0overB0, iotaN := i.r1.iotaN
    spsi := i.cfg.spsi, B0 := i.cfg.B0, etaBar := i.cfg.etaBar
    B20 := r.B20 j, B2s := i.B2s, B2c := i.B2c, G0 := i.cfg.G0
    G2 := (pre i).G2 + (i.st.iota - i.r1.iotaN) * i.cfg.I2, I2 := i.cfg.I2, beta1s := (pre i).beta1s
    p2mu0 := i.mu0 * i.p2 }

theorem der_eq (i : In ℝ) (f : Nat → ℝ) (j : Nat) : matVec i.cfg.nphi i.cfg.dDvarphi f j = der i f j := by
  rw [matVec, vsum_eq]; rfl

theorem der_add (i : In ℝ) (f g : Nat → ℝ) (j : Nat) :
    der i (fun k => f k + g k) j = der i f j + der i g j := by
  unfold der; rw [← Finset.sum_add_distrib]; exact Finset.sum_congr rfl fun k _ => by ring

theorem der_smul (i : In ℝ) (a : ℝ) (f : Nat → ℝ) (j : Nat) :
    der i (fun k => a * f k) j = a * der i f j := by
  unfold der; rw [Finset.mul_sum]; exact Finset.sum_congr rfl fun k _ => by ring

section
variable {i : In ℝ} (ok : Ok i)
include ok

theorem Ok.sGsq : (i.cfg.sG : ℝ) ^ 2 = 1 := by rcases ok.sG with h | h <;> rw [h] <;> norm_num
theorem Ok.spsisq : (i.cfg.spsi : ℝ) ^ 2 = 1 := by rcases ok.spsi with h | h <;> rw [h] <;> norm_num

theorem Ok.X1c (j : Nat) : i.r1.X1c j = i.cfg.etaBar / i.cfg.curvature j := by rw [ok.r1]; rfl
theorem Ok.Y1s (j : Nat) : i.r1.Y1s j = i.cfg.sG * i.cfg.spsi / i.cfg.etaBar * i.cfg.curvature j := by
  rw [ok.r1]; simp only [R1.diagnostics]; push_cast; rfl
theorem Ok.Y1c (j : Nat) : i.r1.Y1c j = i.r1.Y1s j * i.st.sigma j := by rw [ok.r1]; rfl
theorem Ok.area {j : Nat} (hj : j < i.cfg.nphi) : i.r1.X1c j * i.r1.Y1s j = i.cfg.sG * i.cfg.spsi := by
  rw [ok.X1c, ok.Y1s]
  have := ok.kappa j hj
  have := ok.eta
  field_simp

theorem Ok.A (r : R2 ℝ) (j : Nat) : (pt i r j).G0 / ((pt i r j).spsi * (pt i r j).B0) =
    i.cfg.sG * i.cfg.spsi * i.G0overB0 := by
  simp only [pt]
  rw [ok.G0]
  have h2 := ok.B0
  have h3 := ok.spsisq
  have h4 : (i.cfg.spsi : ℝ) ≠ 0 := by intro h; rw [h] at h3; norm_num at h3
  rw [div_eq_iff (mul_ne_zero h4 h2)]
  linear_combination -(i.cfg.sG : ℝ) * i.G0overB0 * i.cfg.B0 * h3

theorem Ok.I (r : R2 ℝ) (j : Nat) : (pt i r j).I2 / ((pt i r j).spsi * (pt i r j).B0) =
    i.cfg.spsi * (i.cfg.I2 / i.cfg.B0) := by
  simp only [pt]
  have h2 := ok.B0
  have h3 := ok.spsisq
  have h4 : (i.cfg.spsi : ℝ) ≠ 0 := by intro h; rw [h] at h3; norm_num at h3
  rw [div_eq_iff (mul_ne_zero h4 h2)]
  field_simp
  linear_combination -i.cfg.I2 * h3

end

/-! ## The linear system -/

section
variable (i : In ℝ) (x : Nat → ℝ)

theorem sum_blk11 {j : Nat} (hj : j < i.cfg.nphi) :
    ∑ k ∈ Finset.range i.cfg.nphi, blk11 i j k * x k =
      i.r1.Y1c j * der i (fun k => (linOf i).Y2sX20 k * x k) j -
      i.r1.Y1s j * der i (fun k => (linOf i).Y2cX20 k * x k) j +
      (i.r1.X1c j * (fsOf i).fXsX20 j - i.r1.Y1s j * (fsOf i).fY0X20 j +
      i.r1.Y1c j * (fsOf i).fYsX20 j - i.r1.Y1s j * (fsOf i).fYcX20 j) * x j := by
  unfold blk11 der
  simp only [add_mul, ite_mul, zero_mul, Finset.sum_add_distrib, Finset.sum_ite_eq',
    Finset.mem_range, if_pos hj, Finset.mul_sum]
  rw [← Finset.sum_sub_distrib]
  congr 1
  exact Finset.sum_congr rfl fun k _ => by ring

theorem sum_blk12 {j : Nat} (hj : j < i.cfg.nphi) :
    ∑ k ∈ Finset.range i.cfg.nphi, blk12 i j k * x (k + i.cfg.nphi) =
      -2 * i.r1.Y1s j * der i (fun k => x (k + i.cfg.nphi)) j +
      (i.r1.X1c j * (fsOf i).fXsY20 j - i.r1.Y1s j * (fsOf i).fY0Y20 j +
      i.r1.Y1c j * (fsOf i).fYsY20 j - i.r1.Y1s j * (fsOf i).fYcY20 j) * x (j + i.cfg.nphi) := by
  unfold blk12 der
  simp only [add_mul, ite_mul, zero_mul, Finset.sum_add_distrib, Finset.sum_ite_eq',
    Finset.mem_range, if_pos hj, Finset.mul_sum]
  congr 1
  exact Finset.sum_congr rfl fun k _ => by ring

theorem sum_blk21 {j : Nat} (hj : j < i.cfg.nphi) :
    ∑ k ∈ Finset.range i.cfg.nphi, blk21 i j k * x k =
      -i.r1.X1c j * der i x j +
      i.r1.Y1s j * der i (fun k => (linOf i).Y2sX20 k * x k) j +
      i.r1.Y1c j * der i (fun k => (linOf i).Y2cX20 k * x k) j +
      (-i.r1.X1c j * (fsOf i).fX0X20 j + i.r1.X1c j * (fsOf i).fXcX20 j - i.r1.Y1c j * (fsOf i).fY0X20 j +
      i.r1.Y1s j * (fsOf i).fYsX20 j + i.r1.Y1c j * (fsOf i).fYcX20 j) * x j := by
  unfold blk21 der
  simp only [add_mul, ite_mul, zero_mul, Finset.sum_add_distrib, Finset.sum_ite_eq',
    Finset.mem_range, if_pos hj, Finset.mul_sum]
  congr 1
  congr 1
  · congr 1
    · exact Finset.sum_congr rfl fun k _ => by ring
    · exact Finset.sum_congr rfl fun k _ => by ring
  · exact Finset.sum_congr rfl fun k _ => by ring

theorem sum_blk22 {j : Nat} (hj : j < i.cfg.nphi) :
    ∑ k ∈ Finset.range i.cfg.nphi, blk22 i j k * x (k + i.cfg.nphi) =
      (-i.r1.X1c j * (fsOf i).fX0Y20 j + i.r1.X1c j * (fsOf i).fXcY20 j - i.r1.Y1c j * (fsOf i).fY0Y20 j +
      i.r1.Y1s j * (fsOf i).fYsY20 j + i.r1.Y1c j * (fsOf i).fYcY20 j) * x (j + i.cfg.nphi) := by
  unfold blk22
  simp only [ite_mul, zero_mul, Finset.sum_ite_eq', Finset.mem_range, if_pos hj]

end

/-- **C43.** The linear system is equivalent to the two second-order equations: after
back-substitution of a vector `x` they hold at every grid point exactly if `x` solves the system,
whatever the matrix held before. -/
theorem system_iff {i : In ℝ} (ok : Ok i) (old : Nat → Nat → ℝ) (x : Nat → ℝ) :
    (∀ a < 2 * i.cfg.nphi, ∑ b ∈ Finset.range (2 * i.cfg.nphi), matrix i old a b * x b = rhs i a) ↔
      ∀ j < i.cfg.nphi, Solvable (pt i (finish realOps i x) j) (coef i (finish realOps i x) j)
        (dcoef i (finish realOps i x) j) := by
  have key : ∀ j < i.cfg.nphi,
      (∑ b ∈ Finset.range (2 * i.cfg.nphi), matrix i old j b * x b = rhs i j ∧
        ∑ b ∈ Finset.range (2 * i.cfg.nphi), matrix i old (j + i.cfg.nphi) b * x b =
          rhs i (j + i.cfg.nphi)) ↔
      Solvable (pt i (finish realOps i x) j) (coef i (finish realOps i x) j)
        (dcoef i (finish realOps i x) j) := by
    intro j hj
    obtain ⟨h1, h2⟩ := row_sums i old x hj
    rw [h1, h2, sum_blk11 i x hj, sum_blk12 i x hj, sum_blk21 i x hj, sum_blk22 i x hj]
    have r1 : rhs i j = -(i.r1.X1c j * (fsOf i).fXsInh j - i.r1.Y1s j * (fsOf i).fY0Inh j +
        i.r1.Y1c j * (fsOf i).fYsInh j - i.r1.Y1s j * (fsOf i).fYcInh j) := by
      simp only [rhs, if_pos hj]
    have r2 : rhs i (j + i.cfg.nphi) = -(-i.r1.X1c j * (fsOf i).fX0Inh j + i.r1.X1c j * (fsOf i).fXcInh j -
        i.r1.Y1c j * (fsOf i).fY0Inh j + i.r1.Y1s j * (fsOf i).fYsInh j + i.r1.Y1c j * (fsOf i).fYcInh j) := by
      simp only [rhs, if_neg (show ¬ j + i.cfg.nphi < i.cfg.nphi by omega), Nat.add_sub_cancel]
    rw [r1, r2]
    have hA := ok.A (finish realOps i x) j
    have hI := ok.I (finish realOps i x) j
    have hs := ok.area hj
    have dYs : der i (finish realOps i x).Y2s j = der i (linOf i).Y2sInh j +
        der i (fun k => (linOf i).Y2sX20 k * x k) j := der_add i _ _ j
    have dYc : der i (finish realOps i x).Y2c j = der i (linOf i).Y2cInh j +
        der i (fun k => (linOf i).Y2cX20 k * x k) j + der i (fun k => x (k + i.cfg.nphi)) j := by
      rw [← der_add, ← der_add]; rfl
    have eYs : (finish realOps i x).Y2s j = (linOf i).Y2sInh j + (linOf i).Y2sX20 j * x j := rfl
    have eYc : (finish realOps i x).Y2c j = (linOf i).Y2cInh j + (linOf i).Y2cX20 j * x j +
      x (j + i.cfg.nphi) := rfl
    have eX : (finish realOps i x).X20 = x := rfl
    have eY : (finish realOps i x).Y20 = fun k => x (k + i.cfg.nphi) := rfl
    have dX2s : (pre i).dX2s j = der i (pre i).X2s j := der_eq i _ j
    have dX2c : (pre i).dX2c j = der i (pre i).X2c j := der_eq i _ j
    unfold Solvable fX0 fXs fXc fY0 fYs fYc
    rw [hA, hI]
    simp only [coef, dcoef, dYs, dYc, eYs, eYc, eX, eY, fsOf, fs, der_eq, dX2s, dX2c]
    simp only [pt]
    generalize linOf i = y
    generalize pre i = q
    refine and_congr ?_ ?_
    · constructor <;> intro h
      · linear_combination h - i.r1.X1c j * (i.cfg.spsi * (i.cfg.I2 / i.cfg.B0)) * i.G0overB0 *
          i.cfg.curvature j / 2 * hs
      · linear_combination h + i.r1.X1c j * (i.cfg.spsi * (i.cfg.I2 / i.cfg.B0)) * i.G0overB0 *
          i.cfg.curvature j / 2 * hs
    · constructor <;> intro h <;> linear_combination h
  constructor
  · intro h j hj
    exact (key j hj).1 ⟨h j (by omega), h (j + i.cfg.nphi) (by omega)⟩
  · intro h a ha
    by_cases hlt : a < i.cfg.nphi
    · exact ((key a hlt).2 (h a hlt)).1
    · have := ((key (a - i.cfg.nphi) (by omega)).2 (h (a - i.cfg.nphi) (by omega))).2
      rwa [Nat.sub_add_cancel (by omega)] at this

/-- **C43.** The two relations between the second-order coefficients that come from the tangential
component hold by construction. -/
theorem area_relations {i : In ℝ} (ok : Ok i) (x : Nat → ℝ) {j : Nat} (hj : j < i.cfg.nphi) :
    Area (pt i (finish realOps i x) j) (coef i (finish realOps i x) j) := by
  have hk := ok.kappa j hj
  have he := ok.eta
  have h1 := ok.sGsq
  have h2 := ok.spsisq
  have eYs : (finish realOps i x).Y2s j = (linOf i).Y2sInh j + (linOf i).Y2sX20 j * x j := rfl
  have eYc : (finish realOps i x).Y2c j = (linOf i).Y2cInh j + (linOf i).Y2cX20 j * x j +
    x (j + i.cfg.nphi) := rfl
  have eX : (finish realOps i x).X20 j = x j := rfl
  have eY : (finish realOps i x).Y20 j = x (j + i.cfg.nphi) := rfl
  unfold Area
  simp only [coef, eYs, eYc, eX, eY, linOf, lin, pt, ok.Y1c, ok.Y1s, ok.X1c]
  generalize pre i = q
  constructor
  · field_simp
    ring
  · field_simp
    ring

/-- The product rule for two profiles at a grid point. -/
def Leibniz (i : In ℝ) (f g : Nat → ℝ) (j : Nat) : Prop :=
  der i (fun k => f k * g k) j = f j * der i g j + g j * der i f j

/-- Where the differentiation matrix obeys the product rule for the first-order profiles. -/
structure Smooth (i : In ℝ) (j : Nat) : Prop where
  xx : Leibniz i i.r1.X1c i.r1.X1c j
  ss : Leibniz i i.r1.Y1s i.r1.Y1s j
  cc : Leibniz i i.r1.Y1c i.r1.Y1c j
  sc : Leibniz i i.r1.Y1s i.r1.Y1c j
  sigma : Leibniz i i.r1.Y1s i.st.sigma j

/-- The sigma equation at a grid point. -/
def SigmaHolds (i : In ℝ) (j : Nat) : Prop :=
  Spec.R1.sigmaEq i.cfg.nphi i.cfg.dDvarphi i.cfg.etaBar i.cfg.curvature i.cfg.torsion i.cfg.spsi i.cfg.G0
    i.cfg.B0 i.cfg.I2 i.r1.iotaN i.st.sigma j = 0

theorem first {i : In ℝ} (ok : Ok i) (x : Nat → ℝ) {j : Nat} (hj : j < i.cfg.nphi) (hs : SigmaHolds i j)
    (sm : Smooth i j) :
    First (pt i (finish realOps i x) j) (coef i (finish realOps i x) j) (dcoef i (finish realOps i x) j) := by
  have hk := ok.kappa j hj
  have he := ok.eta
  have h1 := ok.sGsq
  have h2 := ok.spsisq
  have hl := ok.l
  have hA := ok.A (finish realOps i x) j
  have hI := ok.I (finish realOps i x) j
  have har := ok.area hj
  have dV1 : der i (pre i).V1 j = 2 * (i.r1.X1c j * der i i.r1.X1c j + i.r1.Y1c j * der i i.r1.Y1c j +
      i.r1.Y1s j * der i i.r1.Y1s j) := by
    have e2 := der_add i (fun k => i.r1.X1c k * i.r1.X1c k + i.r1.Y1c k * i.r1.Y1c k)
      (fun k => i.r1.Y1s k * i.r1.Y1s k) j
    have e1 := der_add i (fun k => i.r1.X1c k * i.r1.X1c k) (fun k => i.r1.Y1c k * i.r1.Y1c k) j
    refine Eq.trans e2 ?_
    have a := sm.xx
    have b := sm.ss
    have c := sm.cc
    unfold Leibniz at a b c
    rw [e1, a, b, c]
    ring
  have dV2 : der i (pre i).V2 j = 2 * (i.r1.Y1s j * der i i.r1.Y1c j + i.r1.Y1c j * der i i.r1.Y1s j) := by
    rw [← sm.sc, ← der_smul]
    refine congrArg (fun f => der i f j) (funext fun k => ?_)
    change 2 * i.r1.Y1s k * i.r1.Y1c k = _
    ring
  have dV3 : der i (pre i).V3 j = 2 * (i.r1.X1c j * der i i.r1.X1c j + i.r1.Y1c j * der i i.r1.Y1c j -
      i.r1.Y1s j * der i i.r1.Y1s j) := by
    have e2 := der_add i (fun k => i.r1.X1c k * i.r1.X1c k + i.r1.Y1c k * i.r1.Y1c k)
      (fun k => (-1) * (i.r1.Y1s k * i.r1.Y1s k)) j
    have e1 := der_add i (fun k => i.r1.X1c k * i.r1.X1c k) (fun k => i.r1.Y1c k * i.r1.Y1c k) j
    have e3 := der_smul i (-1) (fun k => i.r1.Y1s k * i.r1.Y1s k) j
    refine Eq.trans (congrArg (fun f => der i f j) (funext fun k => ?_)) (e2.trans ?_)
    · change i.r1.X1c k * i.r1.X1c k + i.r1.Y1c k * i.r1.Y1c k - i.r1.Y1s k * i.r1.Y1s k = _
      ring
    · have a := sm.xx
      have b := sm.ss
      have c := sm.cc
      unfold Leibniz at a b c
      rw [e1, e3, a, b, c]
      ring
  have dYc : der i i.r1.Y1c j = i.r1.Y1s j * der i i.st.sigma j + i.st.sigma j * der i i.r1.Y1s j := by
    rw [← sm.sigma]
    exact congrArg (fun f => der i f j) (funext fun k => ok.Y1c k)
  have z0 : (pre i).Z20 j = der i (pre i).V1 j * (-i.B0overG0 / 8) := by rw [← der_eq]; rfl
  have zs : (pre i).Z2s j = -i.B0overG0 / 8 * (der i (pre i).V2 j - 2 * i.r1.iotaN * (pre i).V3 j) := by
    rw [← der_eq]; rfl
  have zc : (pre i).Z2c j = -i.B0overG0 / 8 * (der i (pre i).V3 j + 2 * i.r1.iotaN * (pre i).V2 j) := by
    rw [← der_eq]; rfl
  have v2 : (pre i).V2 j = 2 * i.r1.Y1s j * i.r1.Y1c j := rfl
  have v3 : (pre i).V3 j = i.r1.X1c j * i.r1.X1c j + i.r1.Y1c j * i.r1.Y1c j - i.r1.Y1s j * i.r1.Y1s j := rfl
  refine ⟨?_, ?_, ?_, ?_, ?_⟩
  · rw [hA]
    simp only [coef, pt]
    rw [har]
    linear_combination (i.G0overB0 * i.cfg.spsi ^ 2) * h1 + i.G0overB0 * h2
  · rw [hI]
    simp only [coef, dcoef, pt]
    rw [har, dYc, ok.Y1c]
    unfold SigmaHolds Spec.R1.sigmaEq at hs
    have hd : ∑ k ∈ Finset.range i.cfg.nphi, i.cfg.dDvarphi j k * i.st.sigma k = der i i.st.sigma j := rfl
    rw [hd, ok.G0] at hs
    have hB := ok.B0
    have hX := ok.X1c j
    rw [← hX] at hs
    have hs2 : i.r1.X1c j ^ 2 * i.r1.Y1s j ^ 2 = 1 := by
      have : i.r1.X1c j ^ 2 * i.r1.Y1s j ^ 2 = (i.r1.X1c j * i.r1.Y1s j) ^ 2 := by ring
      rw [this, har, mul_pow, h1, h2, one_mul]
    have hs3 : der i i.st.sigma j + i.r1.iotaN * (i.r1.X1c j ^ 4 + 1 + i.st.sigma j ^ 2) -
        2 * i.r1.X1c j ^ 2 * (i.cfg.I2 / i.cfg.B0 - i.cfg.spsi * i.cfg.torsion j) * (i.cfg.sG * i.G0overB0) = 0 := by
      rw [← hs]; field_simp
    linear_combination i.r1.Y1s j ^ 2 * hs3 - (i.r1.iotaN * i.r1.X1c j ^ 2 -
      2 * (i.cfg.I2 / i.cfg.B0 - i.cfg.spsi * i.cfg.torsion j) * (i.cfg.sG * i.G0overB0)) * hs2 -
      2 * i.G0overB0 * i.cfg.I2 / i.cfg.B0 * i.cfg.sG * h2
  · simp only [coef, dcoef, pt]
    rw [z0, dV1, ok.bl]
    field_simp
    ring
  · simp only [coef, dcoef, pt]
    rw [zs, dV2, v3, ok.bl]
    field_simp
    ring
  · simp only [coef, dcoef, pt]
    rw [zc, dV3, v2, ok.bl]
    field_simp
    ring

theorem strengthEqs {i : In ℝ} (ok : Ok i) (x : Nat → ℝ) {j : Nat} (hj : j < i.cfg.nphi) :
    StrengthEqs (pt i (finish realOps i x) j) (coef i (finish realOps i x) j)
      (dcoef i (finish realOps i x) j) := by
  have hk := ok.kappa j hj
  have he := ok.eta
  have h1 := ok.sGsq
  have hl := ok.l
  have hB := ok.B0
  have qs : (pre i).qs j = -i.r1.iotaN * i.r1.X1c j - i.G0overB0 * i.r1.Y1s j * i.cfg.torsion j := rfl
  have qc : (pre i).qc j = der i i.r1.X1c j - i.G0overB0 * i.r1.Y1c j * i.cfg.torsion j := by
    rw [← der_eq]; rfl
  have rs : (pre i).rs j = der i i.r1.Y1s j - i.r1.iotaN * i.r1.Y1c j := by rw [← der_eq]; rfl
  have rc : (pre i).rc j = der i i.r1.Y1c j + (i.r1.iotaN * i.r1.Y1s j +
      i.r1.X1c j * i.cfg.torsion j * i.G0overB0) := by rw [← der_eq]; rfl
  refine ⟨?_, ?_, ?_, ?_, ?_, ?_⟩
  · simp only [pt]
    rw [ok.G0]
    linear_combination -(i.G0overB0 ^ 2 * i.cfg.B0 ^ 2) * h1
  · simp only [pt, coef]
    rw [ok.X1c]
    field_simp
  · simp only [pt]
    have : (pre i).G2 = -i.mu0 * i.p2 * i.cfg.G0 / (i.cfg.B0 * i.cfg.B0) - i.st.iota * i.cfg.I2 := rfl
    rw [this]
    field_simp
    ring
  · have hB20 : (finish realOps i x).B20 j = i.cfg.B0 * (i.cfg.curvature j * x j - i.B0overG0 * der i (pre i).Z20 j +
        1 / 2 * i.cfg.etaBar * i.cfg.etaBar - i.mu0 * i.p2 / (i.cfg.B0 * i.cfg.B0) -
        1 / 4 * i.B0overG0 * i.B0overG0 * ((pre i).qc j * (pre i).qc j + (pre i).qs j * (pre i).qs j +
          (pre i).rc j * (pre i).rc j + (pre i).rs j * (pre i).rs j)) := by
      rw [← der_eq]; rfl
    have eX : (finish realOps i x).X20 j = x j := rfl
    simp only [pt, coef, dcoef]
    rw [hB20, eX, qs, qc, rs, rc, ok.bl]
    field_simp
    ring
  · have hX : (pre i).X2s j = i.B0overG0 * (der i (pre i).Z2s j - (2 * i.r1.iotaN) * (pre i).Z2c j +
        i.B0overG0 * (i.G0overB0 * i.G0overB0 * i.B2s / i.cfg.B0 +
          ((pre i).qc j * (pre i).qs j + (pre i).rc j * (pre i).rs j) * (1 / 2))) / i.cfg.curvature j := by
      rw [← der_eq]; rfl
    simp only [pt, coef, dcoef]
    rw [hX, qs, qc, rs, rc, ok.bl]
    field_simp
    ring
  · have hX : (pre i).X2c j = i.B0overG0 * (der i (pre i).Z2c j + (2 * i.r1.iotaN) * (pre i).Z2s j -
        i.B0overG0 * (-i.G0overB0 * i.G0overB0 * i.B2c / i.cfg.B0 +
          i.G0overB0 * i.G0overB0 * i.cfg.etaBar * i.cfg.etaBar / 2 -
          ((pre i).qc j * (pre i).qc j - (pre i).qs j * (pre i).qs j + (pre i).rc j * (pre i).rc j -
            (pre i).rs j * (pre i).rs j) * (1 / 4))) / i.cfg.curvature j := by
      rw [← der_eq]; rfl
    simp only [pt, coef, dcoef]
    rw [hX, qs, qc, rs, rc, ok.bl]
    field_simp
    ring

end Qsc.R2
