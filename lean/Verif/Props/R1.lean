import Verif.Model.R1
import Verif.Spec.R1
import Verif.Lemmas.Field
import Verif.Props.Newton
import Verif.Props.Axis
import Mathlib.Analysis.Calculus.Deriv.Add
import Mathlib.Analysis.Calculus.Deriv.Mul
import Mathlib.Analysis.Calculus.Deriv.Inv
import Mathlib.Analysis.Calculus.Deriv.Pow
import Mathlib.Analysis.SpecialFunctions.Complex.Arg
import Mathlib.Tactic.FieldSimp
import Mathlib.Tactic.LinearCombination

/-!
# The sigma equation, the first-order shape and the grad B tensor (C41, C42, C48, C57)

Exact real arithmetic.
-/

namespace Qsc.R1

open Qsc.Spec.R1

/-! ## The sigma equation -/

/-- `iota_N` and `sigma` that a state stands for: entry 0 is `iota`, and `sigma` at the first grid
point is fixed. -/
def iotaNOf (p : Cfg ℝ) (x : Nat → ℝ) : ℝ := x 0 + p.helicity * p.nfp
def sigmaOf (p : Cfg ℝ) (x : Nat → ℝ) (j : Nat) : ℝ := if j = 0 then p.sigma0 else x j

/-- The residual is the sigma equation for the `iota` and `sigma` of the state. -/
theorem residual_meaning (p : Cfg ℝ) (x : Nat → ℝ) (j : Nat) :
    residual p x j = sigmaEq p.nphi p.dDvarphi p.etaBar p.curvature p.torsion p.spsi p.G0 p.B0 p.I2
      (iotaNOf p x) (sigmaOf p x) j := by
  simp only [residual, store, sigmaEq, matVec, vsum_eq, iotaNOf, sigmaOf, etaSq]
  push_cast
  ring

/-- The increment of `sigma` for an increment of the state. -/
def dSigma (d : Nat → ℝ) (j : Nat) : ℝ := if j = 0 then 0 else d j

/-- The part of the equation that is not linear in the increment. -/
def quadratic (p : Cfg ℝ) (x d : Nat → ℝ) (j : Nat) : ℝ :=
  iotaNOf p x * dSigma d j ^ 2 + d 0 * (2 * sigmaOf p x j * dSigma d j + dSigma d j ^ 2)

theorem jacobian_apply (p : Cfg ℝ) (x d : Nat → ℝ) {j : Nat} (hj : j < p.nphi) :
    (∑ k ∈ Finset.range p.nphi, jacobian p (store p x) j k * d k) =
      (∑ k ∈ Finset.range p.nphi, p.dDvarphi j k * dSigma d k) +
        iotaNOf p x * 2 * sigmaOf p x j * dSigma d j +
        (etaSq p j * etaSq p j + 1 + sigmaOf p x j ^ 2) * d 0 := by
  have h : ∀ k, jacobian p (store p x) j k * d k = p.dDvarphi j k * dSigma d k +
      ((if k = j then iotaNOf p x * 2 * sigmaOf p x j * dSigma d j else 0) +
      (if k = 0 then (etaSq p j * etaSq p j + 1 + sigmaOf p x j ^ 2) * d 0 else 0)) := by
    intro k
    unfold jacobian
    by_cases h0 : k = 0
    · subst h0
      simp only [if_pos, dSigma, mul_zero, zero_add, store, sigmaOf]
      by_cases hj0 : 0 = j
      · subst hj0; simp [pow_two]
      · have hj1 : j ≠ 0 := Ne.symm hj0
        simp [hj0, hj1, pow_two]
    · simp only [h0, if_false, add_zero, dSigma]
      by_cases hjk : j = k
      · subst hjk
        simp only [if_pos, h0, if_false, store, sigmaOf, iotaNOf]
        push_cast
        ring
      · simp [hjk, Ne.symm hjk]
  simp only [h, Finset.sum_add_distrib]
  rw [Finset.sum_ite_eq', Finset.sum_ite_eq', if_pos (Finset.mem_range.2 hj),
    if_pos (Finset.mem_range.2 (by omega))]
  ring

/-- **C41.** The residual at a moved state is the residual, plus the Jacobian applied to the
increment, plus exactly the quadratic terms. -/
theorem jacobian_exact (p : Cfg ℝ) (x d : Nat → ℝ) {j : Nat} (hj : j < p.nphi) :
    residual p (fun i => x i + d i) j = residual p x j +
      (∑ k ∈ Finset.range p.nphi, jacobian p (store p x) j k * d k) + quadratic p x d j := by
  have hs : ∀ k, sigmaOf p (fun i => x i + d i) k = sigmaOf p x k + dSigma d k := by
    intro k; unfold sigmaOf dSigma; split <;> ring
  rw [jacobian_apply p x d hj, residual_meaning, residual_meaning]
  unfold sigmaEq quadratic
  rw [hs j, Finset.sum_congr rfl fun k _ => by rw [hs k, mul_add], Finset.sum_add_distrib]
  unfold iotaNOf etaSq
  ring

/-- **C41.** Hence each row of the Jacobian is the directional derivative of the residual. -/
theorem jacobian_derivative (p : Cfg ℝ) (x d : Nat → ℝ) {j : Nat} (hj : j < p.nphi) :
    HasDerivAt (fun t : ℝ => residual p (fun i => x i + t * d i) j)
      (∑ k ∈ Finset.range p.nphi, jacobian p (store p x) j k * d k) 0 := by
  have e : (fun t : ℝ => residual p (fun i => x i + t * d i) j) = fun t : ℝ =>
      residual p x j + t * (∑ k ∈ Finset.range p.nphi, jacobian p (store p x) j k * d k) +
        (t ^ 2 * (iotaNOf p x * dSigma d j ^ 2 + 2 * d 0 * sigmaOf p x j * dSigma d j) +
          t ^ 3 * (d 0 * dSigma d j ^ 2)) := by
    funext t
    have hd : dSigma (fun i => t * d i) j = t * dSigma d j := by unfold dSigma; split <;> ring
    rw [jacobian_exact p x (fun i => t * d i) hj, Finset.mul_sum]
    unfold quadratic
    rw [hd, Finset.sum_congr rfl fun k _ => mul_left_comm _ t _]
    ring
  rw [e]
  have hid : HasDerivAt (fun t : ℝ => t) 1 0 := hasDerivAt_id 0
  have h2 : HasDerivAt (fun t : ℝ => t ^ 2) 0 0 := by simpa using hasDerivAt_pow 2 (0 : ℝ)
  have h3 : HasDerivAt (fun t : ℝ => t ^ 3) 0 0 := by simpa using hasDerivAt_pow 3 (0 : ℝ)
  refine (((hid.mul_const (∑ k ∈ Finset.range p.nphi, jacobian p (store p x) j k * d k)).const_add
    (residual p x j)).add ((h2.mul_const (iotaNOf p x * dSigma d j ^ 2 +
      2 * d 0 * sigmaOf p x j * dSigma d j)).add (h3.mul_const (d 0 * dSigma d j ^ 2)))).congr_deriv ?_
  ring

/-- **C41.** If the linear solve is exact, a full Newton step leaves only the quadratic terms. -/
theorem full_step (p : Cfg ℝ) (solve : Nat → (Nat → Nat → ℝ) → (Nat → ℝ) → Nat → ℝ) (tol : ℝ)
    (x : Nat → ℝ) (i : Nat)
    (hsolve : ∀ j < p.nphi, ∑ k ∈ Finset.range p.nphi, jacobian p (store p x) j k *
      solve i (jacobian p (store p x)) (fun j => -residual p x j) k = -residual p x j)
    {j : Nat} (hj : j < p.nphi) :
    residual p (Spec.Newton.trial (env realOps p solve tol) i x 0) j =
      quadratic p x (solve i (jacobian p (store p x)) fun j => -residual p x j) j := by
  have e : Spec.Newton.trial (env realOps p solve tol) i x 0 =
      fun k => x k + (solve i (jacobian p (store p x)) fun j => -residual p x j) k := by
    funext k
    simp only [Spec.Newton.trial, env, pow_zero]
    ring
  rw [e, jacobian_exact p x _ hj, hsolve j hj]
  ring

theorem env_nrm (p : Cfg ℝ) (solve : Nat → (Nat → Nat → ℝ) → (Nat → ℝ) → Nat → ℝ) (tol : ℝ)
    (x : Nat → ℝ) : (env realOps p solve tol).nrm ((env realOps p solve tol).res x) =
      ∑ j ∈ Finset.range p.nphi, sigmaEq p.nphi p.dDvarphi p.etaBar p.curvature p.torsion p.spsi p.G0
        p.B0 p.I2 (iotaNOf p x) (sigmaOf p x) j ^ 2 := by
  change vsum p.nphi (fun j => residual p x j * residual p x j) = _
  rw [vsum_eq]
  exact Finset.sum_congr rfl fun j _ => by rw [residual_meaning, pow_two]

/-- **C57.** What `solve_sigma_equation` leaves behind.  There always is a stored `iota` and `sigma`;
`sigma` at the first point is the input value; if the solver reports convergence, the stored
`iota` and `sigma` solve the sigma equation with the sum of squares below the squared tolerance,
whatever the linear solver did; at the iteration limit they do not; and except after a failed line
search the sum of squares is at most that of the initial guess `iota = 0, sigma = sigma0`. -/
theorem solve_spec (p : Cfg ℝ) (solve : Nat → (Nat → Nat → ℝ) → (Nat → ℝ) → Nat → ℝ) (tol : ℝ)
    (N L : Int) :
    ∃ q, (solveSigma realOps p solve tol N L).2 = some q ∧ q.sigma 0 = p.sigma0 ∧
      let S := fun (q : Stored ℝ) => ∑ j ∈ Finset.range p.nphi, sigmaEq p.nphi p.dDvarphi p.etaBar
        p.curvature p.torsion p.spsi p.G0 p.B0 p.I2 (q.iota + p.helicity * p.nfp) q.sigma j ^ 2
      ((solveSigma realOps p solve tol N L).1 = .converged → S q < tol ^ 2) ∧
      ((solveSigma realOps p solve tol N L).1 = .maxIterations → tol ^ 2 ≤ S q) ∧
      ((solveSigma realOps p solve tol N L).1 ≠ .linesearchFailed →
        S q ≤ S ⟨0, fun _ => p.sigma0⟩) := by
  have hlt : ∀ a b, (env realOps p solve tol).lt a b = decide (a < b) := fun _ _ => rfl
  obtain ⟨y, h1, h2, h3, h4⟩ := Newton.seen_state (env realOps p solve tol) hlt N L (start p)
  obtain ⟨c1, c2⟩ := Newton.converged_correct (env realOps p solve tol) N L (start p)
  have c3 := Newton.norm_not_increased (env realOps p solve tol) hlt N L (start p)
  have hsig : ∀ x, (store p x).sigma = sigmaOf p x := fun x => rfl
  have hio : ∀ x, (store p x).iota + p.helicity * p.nfp = iotaNOf p x := fun x => rfl
  have htol : (env realOps p solve tol).tolSq = tol ^ 2 := by simp [env, pow_two]
  have hst : sigmaOf p (start p) = fun _ => p.sigma0 := by
    funext j; unfold sigmaOf start; split <;> rfl
  have hs0 : iotaNOf p (start p) = 0 + p.helicity * p.nfp := rfl
  refine ⟨store p y, ?_, ?_, ?_, ?_, ?_⟩
  · simp only [solveSigma, h1, Option.map_some]
  · simp [store]
  · intro hc
    have hc' : (Newton.newton (env realOps p solve tol) N L (start p)).status = .converged := hc
    have hy := h3 (by rw [hc']; simp)
    have := (c1 hc').1
    rw [← hy, env_nrm, hlt, decide_eq_true_iff, htol] at this
    exact this
  · intro hc
    have hc' : (Newton.newton (env realOps p solve tol) N L (start p)).status = .maxIterations := hc
    have hy := h3 (by rw [hc']; simp)
    have := (c2 hc').1
    rw [← hy, env_nrm, hlt, decide_eq_false_iff_not, htol] at this
    exact not_lt.1 this
  · intro hc
    have hc' : (Newton.newton (env realOps p solve tol) N L (start p)).status ≠ .linesearchFailed := hc
    have hy := h3 hc'
    rw [← hy, env_nrm, env_nrm, hst, hs0] at c3
    exact c3

/-! ## The shape of the cross section -/

section
variable (p : Cfg ℝ) (q : Stored ℝ)

/-- **C42.** The area of the cross section: `X1c Y1s = sG spsi`. -/
theorem area {j : Nat} (hk : p.curvature j ≠ 0) (he : p.etaBar ≠ 0) :
    (diagnostics realOps p q).X1c j * (diagnostics realOps p q).Y1s j = p.sG * p.spsi := by
  simp only [diagnostics]
  push_cast
  field_simp

theorem distSq_eq (X Ys Yc t : ℝ) : distSq X Ys Yc t =
    ((X ^ 2 + Ys ^ 2 + Yc ^ 2) + ((X ^ 2 + Yc ^ 2 - Ys ^ 2) * Real.cos (2 * t) +
      2 * Ys * Yc * Real.sin (2 * t))) / 2 := by
  unfold distSq
  rw [Real.cos_two_mul, Real.sin_two_mul]
  have := Real.sin_sq_add_cos_sq t
  linear_combination (-(X ^ 2 + Ys ^ 2 + Yc ^ 2) / 2 + 2 * Ys ^ 2 + (X ^ 2 + Yc ^ 2 - Ys ^ 2) / 2) * this

/-- An ellipse with `X Ys ≠ 0` has the elongation of the code's formula. -/
theorem ellipse (X Ys Yc : ℝ) (h : X * Ys ≠ 0) :
    IsElongation X Ys Yc ((X ^ 2 + Ys ^ 2 + Yc ^ 2 +
      Real.sqrt ((X ^ 2 + Ys ^ 2 + Yc ^ 2) ^ 2 - 4 * (X * Ys) ^ 2)) / (2 * |X * Ys|)) := by
  set P := X ^ 2 + Ys ^ 2 + Yc ^ 2 with hP
  set u := X ^ 2 + Yc ^ 2 - Ys ^ 2 with hu
  set v := 2 * Ys * Yc with hv
  have hS : P ^ 2 - 4 * (X * Ys) ^ 2 = u ^ 2 + v ^ 2 := by rw [hP, hu, hv]; ring
  have hS0 : 0 ≤ P ^ 2 - 4 * (X * Ys) ^ 2 := by rw [hS]; positivity
  set s := Real.sqrt (P ^ 2 - 4 * (X * Ys) ^ 2) with hs
  have hs0 : 0 ≤ s := Real.sqrt_nonneg _
  have hss : s ^ 2 = P ^ 2 - 4 * (X * Ys) ^ 2 := Real.sq_sqrt hS0
  have hq : 0 < (X * Ys) ^ 2 := by positivity
  have hP0 : 0 < P := by
    have : 0 < X ^ 2 := by
      have : X ≠ 0 := left_ne_zero_of_mul h
      positivity
    rw [hP]; positivity
  have hlt : s < P := by
    apply lt_of_pow_lt_pow_left₀ 2 hP0.le
    rw [hss]; linarith
  have hb0 : 0 < (P - s) / 2 := by linarith
  have ha0 : 0 < (P + s) / 2 := by linarith
  have hprod : (P + s) / 2 * ((P - s) / 2) = (X * Ys) ^ 2 := by nlinarith
  have bound : ∀ t, |u * Real.cos (2 * t) + v * Real.sin (2 * t)| ≤ s := by
    intro t
    apply abs_le_of_sq_le_sq _ hs0
    rw [hss, hS]
    have := Real.sin_sq_add_cos_sq (2 * t)
    nlinarith [sq_nonneg (u * Real.sin (2 * t) - v * Real.cos (2 * t))]
  -- the angle at which the distance is largest
  obtain ⟨a, ca, sa⟩ : ∃ a : ℝ, s * Real.cos a = u ∧ s * Real.sin a = v := by
    refine ⟨Complex.arg ⟨u, v⟩, ?_, ?_⟩
    · have := Complex.norm_mul_cos_arg ⟨u, v⟩
      rw [hs, hS]
      simpa [Complex.norm_def, Complex.normSq_mk, ← pow_two] using this
    · have := Complex.norm_mul_sin_arg ⟨u, v⟩
      rw [hs, hS]
      simpa [Complex.norm_def, Complex.normSq_mk, ← pow_two] using this
  have hca := Real.sin_sq_add_cos_sq a
  refine ⟨Real.sqrt ((P + s) / 2), Real.sqrt ((P - s) / 2), Real.sqrt_pos.2 hb0, ?_,
    Real.sqrt_nonneg _, ?_, ?_, ?_⟩
  · rw [eq_div_iff (Real.sqrt_pos.2 hb0).ne']
    have e1 : |X * Ys| = Real.sqrt ((P + s) / 2) * Real.sqrt ((P - s) / 2) := by
      rw [← Real.sqrt_mul ha0.le, hprod, Real.sqrt_sq_eq_abs]
    have e2 : P + s = 2 * (Real.sqrt ((P + s) / 2) * Real.sqrt ((P + s) / 2)) := by
      rw [Real.mul_self_sqrt ha0.le]; ring
    have n1 := (Real.sqrt_pos.2 hb0).ne'
    have n2 := (Real.sqrt_pos.2 ha0).ne'
    rw [e1]
    generalize Real.sqrt ((P + s) / 2) = A at *
    generalize Real.sqrt ((P - s) / 2) = B at *
    rw [e2]
    field_simp
  · intro t
    rw [Real.sq_sqrt hb0.le, Real.sq_sqrt ha0.le, distSq_eq]
    have := abs_le.1 (bound t)
    constructor <;> linarith [this.1, this.2]
  · refine ⟨a / 2 + Real.pi / 2, ?_⟩
    rw [Real.sq_sqrt hb0.le, distSq_eq, show 2 * (a / 2 + Real.pi / 2) = a + Real.pi by ring,
      Real.cos_add_pi, Real.sin_add_pi, ← hu, ← hv, ← hP, ← ca, ← sa]
    linear_combination (-s / 2) * hca
  · refine ⟨a / 2, ?_⟩
    rw [Real.sq_sqrt ha0.le, distSq_eq, show 2 * (a / 2) = a by ring, ← hu, ← hv, ← hP, ← ca, ← sa]
    linear_combination (s / 2) * hca

/-- **C42.** The elongation at a grid point is the ratio of the largest to the smallest distance of
the cross section from the axis. -/
theorem elongation_ratio {j : Nat} (hk : p.curvature j ≠ 0) (he : p.etaBar ≠ 0) (hG : p.sG ≠ 0)
    (hpsi : p.spsi ≠ 0) :
    IsElongation ((diagnostics realOps p q).X1c j) ((diagnostics realOps p q).Y1s j)
      ((diagnostics realOps p q).Y1c j) ((diagnostics realOps p q).elongation j) := by
  have ha := area p q hk he
  have h : (diagnostics realOps p q).X1c j * (diagnostics realOps p q).Y1s j ≠ 0 := by
    rw [ha]
    exact mul_ne_zero (by exact_mod_cast hG) (by exact_mod_cast hpsi)
  have := ellipse _ _ ((diagnostics realOps p q).Y1c j) h
  have e : (diagnostics realOps p q).elongation j = (((diagnostics realOps p q).X1c j ^ 2 +
      (diagnostics realOps p q).Y1s j ^ 2 + (diagnostics realOps p q).Y1c j ^ 2 +
      Real.sqrt (((diagnostics realOps p q).X1c j ^ 2 +
      (diagnostics realOps p q).Y1s j ^ 2 + (diagnostics realOps p q).Y1c j ^ 2) ^ 2 -
        4 * ((diagnostics realOps p q).X1c j * (diagnostics realOps p q).Y1s j) ^ 2)) /
      (2 * |(diagnostics realOps p q).X1c j * (diagnostics realOps p q).Y1s j|)) := by
    simp only [diagnostics, realOps]
    rw [show ∀ x y : ℝ, 0 * x - y = -y by intros; ring, abs_neg]
    congr 3 <;> ring
  rw [e]
  exact this

/-- **C42.** Elongation is at least 1, `e + 1/e` is the sum of squares divided by the area, and `e = 1`
exactly for a circle. -/
theorem elongation_relation {j : Nat} (hk : p.curvature j ≠ 0) (he : p.etaBar ≠ 0) (hG : p.sG ≠ 0)
    (hpsi : p.spsi ≠ 0) :
    let e := (diagnostics realOps p q).elongation j
    let X := (diagnostics realOps p q).X1c j
    let Ys := (diagnostics realOps p q).Y1s j
    let Yc := (diagnostics realOps p q).Y1c j
    1 ≤ e ∧ e + 1 / e = (X ^ 2 + Ys ^ 2 + Yc ^ 2) / |X * Ys| ∧
      (e = 1 ↔ X ^ 2 = Ys ^ 2 ∧ Yc = 0) := by
  intro e X Ys Yc
  have ha := area p q hk he
  have h : X * Ys ≠ 0 := by
    change (diagnostics realOps p q).X1c j * (diagnostics realOps p q).Y1s j ≠ 0
    rw [ha]
    exact mul_ne_zero (by exact_mod_cast hG) (by exact_mod_cast hpsi)
  obtain ⟨a, b, hb, hab, ha0, hbd, ⟨t1, ht1⟩, ⟨t2, ht2⟩⟩ := elongation_ratio p q hk he hG hpsi
  change e = a / b at hab
  have hle : b ^ 2 ≤ a ^ 2 := by have := hbd 0; linarith [this.1, this.2]
  have hba : b ≤ a := le_of_sq_le_sq hle ha0
  have apos : 0 < a := lt_of_lt_of_le hb hba
  -- sums of squares at `t` and `t + pi/2`
  have hsum : ∀ t, distSq X Ys Yc t + distSq X Ys Yc (t + Real.pi / 2) = X ^ 2 + Ys ^ 2 + Yc ^ 2 := by
    intro t
    unfold distSq
    rw [Real.cos_add_pi_div_two, Real.sin_add_pi_div_two]
    have := Real.sin_sq_add_cos_sq t
    linear_combination (X ^ 2 + Ys ^ 2 + Yc ^ 2) * this
  have hP : a ^ 2 + b ^ 2 = X ^ 2 + Ys ^ 2 + Yc ^ 2 := by
    have g1 := hsum t1
    have g2 := hsum t2
    have u1 := (hbd (t1 + Real.pi / 2)).2
    have u2 := (hbd (t2 + Real.pi / 2)).1
    change distSq X Ys Yc t1 = _ at ht1
    change distSq X Ys Yc t2 = _ at ht2
    change distSq X Ys Yc _ ≤ _ at u1
    change _ ≤ distSq X Ys Yc _ at u2
    linarith
  have hab' : a * b = |X * Ys| := by
    -- from the explicit formula
    have hform : e = ((X ^ 2 + Ys ^ 2 + Yc ^ 2 +
      Real.sqrt ((X ^ 2 + Ys ^ 2 + Yc ^ 2) ^ 2 - 4 * (X * Ys) ^ 2)) / (2 * |X * Ys|)) := by
      simp only [e, X, Ys, Yc, diagnostics, realOps]
      rw [show ∀ x y : ℝ, 0 * x - y = -y by intros; ring, abs_neg]
      congr 3 <;> ring
    have hq0 : 0 < |X * Ys| := abs_pos.2 h
    have hsq : |X * Ys| ^ 2 = (X * Ys) ^ 2 := sq_abs _
    have hd : 0 ≤ (X ^ 2 + Ys ^ 2 + Yc ^ 2) ^ 2 - 4 * (X * Ys) ^ 2 := by
      have : (X ^ 2 + Ys ^ 2 + Yc ^ 2) ^ 2 - 4 * (X * Ys) ^ 2 =
        (X ^ 2 + Yc ^ 2 - Ys ^ 2) ^ 2 + (2 * Ys * Yc) ^ 2 := by ring
      rw [this]; positivity
    have hr := Real.sq_sqrt hd
    have hr0 := Real.sqrt_nonneg ((X ^ 2 + Ys ^ 2 + Yc ^ 2) ^ 2 - 4 * (X * Ys) ^ 2)
    rw [hab] at hform
    rw [div_eq_div_iff hb.ne' (by positivity)] at hform
    rw [← hP] at hform hr hr0
    generalize Real.sqrt ((a ^ 2 + b ^ 2) ^ 2 - 4 * (X * Ys) ^ 2) = r at *
    generalize |X * Ys| = c at *
    rw [← hsq] at hr
    -- `2 a c = (a² + b² + r) b`, `r² = (a² + b²)² - 4 c²`
    have e1 : r * b = 2 * a * c - (a ^ 2 + b ^ 2) * b := by linarith
    have e2 : (2 * a * c - (a ^ 2 + b ^ 2) * b) ^ 2 = ((a ^ 2 + b ^ 2) ^ 2 - 4 * c ^ 2) * b ^ 2 := by
      rw [← e1, mul_pow, hr]
    have e3 : 4 * c * (a ^ 2 + b ^ 2) * (c - a * b) = 0 := by linear_combination e2
    have e4 : 4 * c * (a ^ 2 + b ^ 2) ≠ 0 := by positivity
    have := (mul_eq_zero.1 e3).resolve_left e4
    linarith
  refine ⟨?_, ?_, ?_⟩
  · rw [hab, le_div_iff₀ hb]; linarith
  · rw [hab, ← hab', ← hP]; field_simp
  · rw [hab, div_eq_one_iff_eq hb.ne']
    constructor
    · intro hEq
      have h0 := hbd 0
      have h1 := hbd (Real.pi / 2)
      have h2 := hbd (Real.pi / 4)
      rw [hEq] at h0 h1 h2
      change b ^ 2 ≤ distSq X Ys Yc 0 ∧ distSq X Ys Yc 0 ≤ b ^ 2 at h0
      change b ^ 2 ≤ distSq X Ys Yc _ ∧ distSq X Ys Yc _ ≤ b ^ 2 at h1
      change b ^ 2 ≤ distSq X Ys Yc _ ∧ distSq X Ys Yc _ ≤ b ^ 2 at h2
      rw [distSq_eq] at h0 h1 h2
      rw [show 2 * (Real.pi / 2) = Real.pi by ring, Real.cos_pi, Real.sin_pi] at h1
      rw [show 2 * (Real.pi / 4) = Real.pi / 2 by ring, Real.cos_pi_div_two, Real.sin_pi_div_two] at h2
      rw [mul_zero, Real.cos_zero, Real.sin_zero] at h0
      have g0 := le_antisymm h0.1 h0.2
      have g1 := le_antisymm h1.1 h1.2
      have g2 := le_antisymm h2.1 h2.2
      have hYs : Ys ≠ 0 := right_ne_zero_of_mul h
      have k1 : Ys * Yc = 0 := by linarith
      have k2 := (mul_eq_zero.1 k1).resolve_left hYs
      refine ⟨?_, k2⟩
      rw [k2] at g0 g1
      linarith
    · rintro ⟨h1, h2⟩
      have hc : ∀ t, distSq X Ys Yc t = X ^ 2 := by
        intro t; rw [distSq_eq, h2, h1]; ring
      have g1 : distSq X Ys Yc t1 = b ^ 2 := ht1
      have g2 : distSq X Ys Yc t2 = a ^ 2 := ht2
      rw [hc] at g1 g2
      exact le_antisymm (le_of_sq_le_sq (by linarith) hb.le) hba

/-- **C42.** The reported maximum bounds the elongation and is attained; the mean lies between 1 and
the maximum. -/
theorem elongation_bounds (hn : 0 < p.nphi) (hk : ∀ j < p.nphi, p.curvature j ≠ 0)
    (he : p.etaBar ≠ 0) (hG : p.sG ≠ 0) (hpsi : p.spsi ≠ 0) (hdl : ∀ j < p.nphi, 0 < p.dl j) :
    let r := diagnostics realOps p q
    (∀ j < p.nphi, r.elongation j ≤ r.maxElongation) ∧
    (∃ j < p.nphi, r.maxElongation = r.elongation j) ∧
    1 ≤ r.meanElongation ∧ r.meanElongation ≤ r.maxElongation ∧
    r.meanElongation * ∑ j ∈ Finset.range p.nphi, p.dl j =
      ∑ j ∈ Finset.range p.nphi, r.elongation j * p.dl j := by
  intro r
  obtain ⟨h1, h2⟩ := vmax_spec p.nphi hn r.elongation
  have hpos : 0 < ∑ j ∈ Finset.range p.nphi, p.dl j :=
    Finset.sum_pos (fun j hj => hdl j (Finset.mem_range.1 hj)) ⟨0, Finset.mem_range.2 hn⟩
  have hmean : r.meanElongation = (∑ j ∈ Finset.range p.nphi, r.elongation j * p.dl j) /
      ∑ j ∈ Finset.range p.nphi, p.dl j := by
    have : r.meanElongation = vsum p.nphi (fun j => r.elongation j * p.dl j) / vsum p.nphi p.dl := rfl
    rw [this, vsum_eq, vsum_eq]
  obtain ⟨m1, m2⟩ := mean_between (a := 1) (b := r.maxElongation) hdl hn
    (fun j hj => (elongation_relation p q (hk j hj) he hG hpsi).1) h1
  refine ⟨h1, h2, ?_, ?_, ?_⟩
  · rw [hmean]; exact m1
  · rw [hmean]; exact m2
  · rw [hmean, div_mul_cancel₀ _ hpos.ne']

/-! ## The grad B tensor -/

/-- The code's `Y1c` and derivative profiles, for use below. -/
theorem Y1c_eq (j : Nat) : (diagnostics realOps p q).Y1c j =
    (diagnostics realOps p q).Y1s j * q.sigma j := rfl

/-- **C48.** The divergence: the trace of the tensor is the derivative the differentiation matrix
gives to `X1c Y1s`, by the product rule; that product is constant. -/
theorem trace_eq (j : Nat) :
    let r := diagnostics realOps p q
    let T := gradB p r j
    T 0 0 + T 1 1 + T 2 2 = p.spsi * p.B0 / p.dlDvarphi * (r.dX1c j * r.Y1s j + r.X1c j * r.dY1s j) := by
  simp only [gradB]
  ring

/-- **C48.** The component of the curl along the axis: twice the current `I2`, up to the residual of
the sigma equation and the error of the product rule for `Y1s sigma`. -/
theorem curl_eq {j : Nat} (hk : p.curvature j ≠ 0) (he : p.etaBar ≠ 0) (hB : p.B0 ≠ 0)
    (hl : p.dlDvarphi ≠ 0) (hG : p.sG = 1 ∨ p.sG = -1) (hpsi : p.spsi = 1 ∨ p.spsi = -1)
    (hG0 : p.G0 = p.sG * p.dlDvarphi * p.B0) :
    let r := diagnostics realOps p q
    let T := gradB p r j
    let dsigma := ∑ k ∈ Finset.range p.nphi, p.dDvarphi j k * q.sigma k
    T 0 1 - T 1 0 = 2 * p.spsi * p.sG * p.I2 + p.spsi * p.B0 / p.dlDvarphi *
      ((p.curvature j / p.etaBar) ^ 2 * sigmaEq p.nphi p.dDvarphi p.etaBar p.curvature p.torsion p.spsi
          p.G0 p.B0 p.I2 r.iotaN q.sigma j +
        r.Y1s j * (r.dY1c j - (r.dY1s j * q.sigma j + r.Y1s j * dsigma))) := by
  intro r T dsigma
  have hs : ((p.sG : ℝ)) ^ 2 = 1 := by rcases hG with h | h <;> rw [h] <;> norm_num
  have hp : ((p.spsi : ℝ)) ^ 2 = 1 := by rcases hpsi with h | h <;> rw [h] <;> norm_num
  have hX : r.X1c j = p.etaBar / p.curvature j := rfl
  have hY : r.Y1s j = (p.sG : ℝ) * p.spsi / p.etaBar * p.curvature j := by
    simp only [r, diagnostics]; push_cast; ring
  have hYc : r.Y1c j = r.Y1s j * q.sigma j := rfl
  have hT : T 0 1 - T 1 0 = p.spsi * p.B0 / p.dlDvarphi *
      (r.dY1c j * r.Y1s j - r.dY1s j * r.Y1c j + 2 * (p.sG * p.spsi * p.dlDvarphi) * p.torsion j +
        r.iotaN * (r.X1c j ^ 2 + r.Y1s j ^ 2 + r.Y1c j ^ 2)) := by
    simp only [T, gradB]; ring
  have hds : (∑ k ∈ Finset.range p.nphi, p.dDvarphi j k * q.sigma k) = dsigma := rfl
  unfold sigmaEq
  rw [hT, hds, hYc, hX, hY, hG0]
  generalize r.dY1c j = a
  generalize r.dY1s j = b
  generalize r.iotaN = i
  generalize dsigma = ds
  generalize q.sigma j = s
  generalize p.torsion j = t
  generalize p.curvature j = k at *
  generalize (p.sG : ℝ) = g at *
  generalize (p.spsi : ℝ) = m at *
  have e1 : (p.etaBar / k) ^ 4 * (k / p.etaBar) ^ 2 = (p.etaBar / k) ^ 2 := by field_simp
  have e2 : (p.etaBar / k) ^ 2 * (k / p.etaBar) ^ 2 = 1 := by field_simp
  have e3 : (g * m / p.etaBar * k) ^ 2 = (k / p.etaBar) ^ 2 := by
    have : (g * m / p.etaBar * k) ^ 2 = g ^ 2 * m ^ 2 * (k / p.etaBar) ^ 2 := by ring
    rw [this, hs, hp]; ring
  generalize g * m / p.etaBar * k = y at *
  have e4 : m * p.B0 / p.dlDvarphi * (2 * (p.I2 / p.B0 - m * t) * (g * p.dlDvarphi * p.B0) / p.B0) =
      2 * m * g * p.I2 - m * p.B0 / p.dlDvarphi * (2 * (g * m * p.dlDvarphi) * t) := by
    field_simp
  have key : (k / p.etaBar) ^ 2 * (ds + i * ((p.etaBar / k) ^ 4 + 1 + s ^ 2) -
      2 * (p.etaBar / k) ^ 2 * (p.I2 / p.B0 - m * t) * (g * p.dlDvarphi * p.B0) / p.B0) =
      y ^ 2 * ds + i * ((p.etaBar / k) ^ 2 + y ^ 2 + (y * s) ^ 2) -
      2 * (p.I2 / p.B0 - m * t) * (g * p.dlDvarphi * p.B0) / p.B0 := by
    rw [e3.symm] at e1 e2 ⊢
    linear_combination i * e1 - (2 * (p.I2 / p.B0 - m * t) * (g * p.dlDvarphi * p.B0) / p.B0) * e2
  rw [key]
  linear_combination e4

/-- **C48.** The other two components of the curl vanish. -/
theorem curl_perp (j : Nat) :
    let T := gradB p (diagnostics realOps p q) j
    T 0 2 - T 2 0 = 0 ∧ T 1 2 - T 2 1 = 0 := by
  simp [gradB]

/-- **C48.** So, where the differentiation matrix obeys the product rule for the two products and the
sigma equation holds, the tensor is that of a divergence-free field whose curl is `2 spsi sG I2` along
the axis; it is symmetric exactly if there is no current. -/
theorem maxwell {j : Nat} (hk : p.curvature j ≠ 0) (he : p.etaBar ≠ 0) (hB : p.B0 ≠ 0)
    (hl : p.dlDvarphi ≠ 0) (hG : p.sG = 1 ∨ p.sG = -1) (hpsi : p.spsi = 1 ∨ p.spsi = -1)
    (hG0 : p.G0 = p.sG * p.dlDvarphi * p.B0)
    (h1 : (diagnostics realOps p q).dX1c j * (diagnostics realOps p q).Y1s j +
      (diagnostics realOps p q).X1c j * (diagnostics realOps p q).dY1s j = 0)
    (h2 : (diagnostics realOps p q).dY1c j = (diagnostics realOps p q).dY1s j * q.sigma j +
      (diagnostics realOps p q).Y1s j * ∑ k ∈ Finset.range p.nphi, p.dDvarphi j k * q.sigma k)
    (h3 : sigmaEq p.nphi p.dDvarphi p.etaBar p.curvature p.torsion p.spsi p.G0 p.B0 p.I2
      (q.iota + p.helicity * p.nfp) q.sigma j = 0) :
    let T := gradB p (diagnostics realOps p q) j
    T 0 0 + T 1 1 + T 2 2 = 0 ∧ T 0 1 - T 1 0 = 2 * p.spsi * p.sG * p.I2 ∧ T 0 2 = T 2 0 ∧
      T 1 2 = T 2 1 ∧ (T 0 1 = T 1 0 ↔ p.I2 = 0) := by
  intro T
  have c1 := trace_eq p q j
  have c2 := curl_eq p q hk he hB hl hG hpsi hG0
  have c3 := curl_perp p q j
  dsimp only at c1 c2 c3
  have hi : (diagnostics realOps p q).iotaN = q.iota + p.helicity * p.nfp := by
    simp only [diagnostics]; push_cast; rfl
  rw [h1, mul_zero] at c1
  rw [hi, h3, h2, sub_self] at c2
  have c2' : T 0 1 - T 1 0 = 2 * p.spsi * p.sG * p.I2 := by
    refine c2.trans ?_; ring
  refine ⟨c1, c2', by linarith [c3.1], by linarith [c3.2], ?_⟩
  have hs : (p.sG : ℝ) ≠ 0 := by rcases hG with h | h <;> rw [h] <;> norm_num
  have hp : (p.spsi : ℝ) ≠ 0 := by rcases hpsi with h | h <;> rw [h] <;> norm_num
  constructor
  · intro e
    rw [e, sub_self] at c2'
    have : (2 * p.spsi * p.sG : ℝ) ≠ 0 := mul_ne_zero (mul_ne_zero two_ne_zero hp) hs
    exact (mul_eq_zero.1 c2'.symm).resolve_left this
  · intro e
    rw [e] at c2'
    linarith

/-- **C48.** The product rule hypotheses of `maxwell` hold when the matrix differentiates the four
profiles exactly at this point. -/
theorem product_rule {j : Nat} (kap sig : ℝ → ℝ) (v kap' sig' : ℝ) (hk : HasDerivAt kap kap' v)
    (hsg : HasDerivAt sig sig' v) (k0 : kap v = p.curvature j) (s0 : sig v = q.sigma j)
    (hk0 : p.curvature j ≠ 0) (he : p.etaBar ≠ 0)
    (d1 : (diagnostics realOps p q).dX1c j = deriv (fun s => p.etaBar / kap s) v)
    (d2 : (diagnostics realOps p q).dY1s j = deriv (fun s => (p.sG * p.spsi : ℝ) / p.etaBar * kap s) v)
    (d3 : (diagnostics realOps p q).dY1c j =
      deriv (fun s => (p.sG * p.spsi : ℝ) / p.etaBar * kap s * sig s) v)
    (d4 : ∑ k ∈ Finset.range p.nphi, p.dDvarphi j k * q.sigma k = deriv sig v) :
    (diagnostics realOps p q).dX1c j * (diagnostics realOps p q).Y1s j +
      (diagnostics realOps p q).X1c j * (diagnostics realOps p q).dY1s j = 0 ∧
    (diagnostics realOps p q).dY1c j = (diagnostics realOps p q).dY1s j * q.sigma j +
      (diagnostics realOps p q).Y1s j * ∑ k ∈ Finset.range p.nphi, p.dDvarphi j k * q.sigma k := by
  have hX : (diagnostics realOps p q).X1c j = p.etaBar / p.curvature j := rfl
  have hY : (diagnostics realOps p q).Y1s j = (p.sG : ℝ) * p.spsi / p.etaBar * p.curvature j := by
    simp only [diagnostics]; push_cast; ring
  have e1 : deriv (fun s => p.etaBar / kap s) v = -(p.etaBar * kap') / p.curvature j ^ 2 := by
    rw [← k0]
    refine (((hasDerivAt_const v p.etaBar).div hk (by rwa [k0])).congr_deriv ?_).deriv
    ring
  have e2 : deriv (fun s => (p.sG * p.spsi : ℝ) / p.etaBar * kap s) v =
      (p.sG * p.spsi : ℝ) / p.etaBar * kap' := (hk.const_mul _).deriv
  have e3 : deriv (fun s => (p.sG * p.spsi : ℝ) / p.etaBar * kap s * sig s) v =
      (p.sG * p.spsi : ℝ) / p.etaBar * kap' * q.sigma j +
        (p.sG * p.spsi : ℝ) / p.etaBar * p.curvature j * sig' := by
    rw [← k0, ← s0]
    exact ((hk.const_mul _).mul hsg).deriv
  rw [d1, d2, d3, d4, e1, e2, e3, hsg.deriv, hX, hY]
  constructor
  · field_simp; ring
  · ring

/-- **C48.** `L_grad_B` measures the tensor: `2 B0^2 / L^2` is the sum of the squares of all nine
entries, `L_grad_B_inverse` is its inverse and the reported minimum is attained. -/
theorem length_scale {j : Nat} (hk : p.curvature j ≠ 0) (hB : 0 < p.B0) (hG : p.sG ≠ 0) :
    let r := diagnostics realOps p q
    let L := LgradB realOps p r j
    0 < L ∧ 2 * p.B0 ^ 2 / L ^ 2 =
      ∑ i ∈ Finset.range 3, ∑ k ∈ Finset.range 3, gradB p r j i k ^ 2 ∧
    LgradBInverse realOps p r j * L = 1 := by
  intro r L
  have hs : ∑ i ∈ Finset.range 3, ∑ k ∈ Finset.range 3, gradB p r j i k ^ 2 =
      gradB p r j 2 0 * gradB p r j 2 0 + gradB p r j 0 2 * gradB p r j 0 2 +
      gradB p r j 1 1 * gradB p r j 1 1 + gradB p r j 0 0 * gradB p r j 0 0 +
      gradB p r j 1 0 * gradB p r j 1 0 + gradB p r j 0 1 * gradB p r j 0 1 := by
    have z1 : gradB p r j 1 2 = 0 := rfl
    have z2 : gradB p r j 2 1 = 0 := rfl
    have z3 : gradB p r j 2 2 = 0 := rfl
    simp only [Finset.sum_range_succ, Finset.sum_range_zero, z1, z2, z3]
    ring
  have hL : L = p.B0 * Real.sqrt (2 / ∑ i ∈ Finset.range 3, ∑ k ∈ Finset.range 3,
      gradB p r j i k ^ 2) := by rw [hs]; rfl
  have hpos : 0 < ∑ i ∈ Finset.range 3, ∑ k ∈ Finset.range 3, gradB p r j i k ^ 2 := by
    rw [hs]
    have h20 : gradB p r j 2 0 ≠ 0 := by
      change (p.sG : ℝ) * p.B0 * p.curvature j ≠ 0
      exact mul_ne_zero (mul_ne_zero (by exact_mod_cast hG) hB.ne') hk
    have := mul_self_pos.2 h20
    have := mul_self_nonneg (gradB p r j 0 2)
    have := mul_self_nonneg (gradB p r j 1 1)
    have := mul_self_nonneg (gradB p r j 0 0)
    have := mul_self_nonneg (gradB p r j 1 0)
    have := mul_self_nonneg (gradB p r j 0 1)
    linarith
  generalize ∑ i ∈ Finset.range 3, ∑ k ∈ Finset.range 3, gradB p r j i k ^ 2 = S at *
  have h2 : 0 < 2 / S := by positivity
  have hsq := Real.sq_sqrt h2.le
  have hr := Real.sqrt_pos.2 h2
  have hLpos : 0 < L := by rw [hL]; positivity
  refine ⟨hLpos, ?_, ?_⟩
  · rw [hL, mul_pow, hsq]; field_simp
  · change 1 / L * L = 1
    field_simp

theorem length_scale_min (hn : 0 < p.nphi) :
    let r := diagnostics realOps p q
    (∀ j < p.nphi, minLgradB realOps p r ≤ LgradB realOps p r j) ∧
      ∃ j < p.nphi, minLgradB realOps p r = LgradB realOps p r j :=
  vmin_spec p.nphi hn _

end

/-- The hypotheses of `curl_eq`, `maxwell` and `elongation_bounds` about the configuration hold after
`init_axis` for an axis that avoids `R = 0` and has non-zero curvature. -/
theorem after_init_axis (c : Axis.Coeffs ℝ) (hc : c.WellSized) (M : Nat) (sG spsi : Int)
    (etaBar sigma0 I2 B0 : ℝ) (a : Axis.Axis ℝ)
    (h : Axis.initAxis realOps c (2 * M + 1) sG spsi B0 = .ok a) (hn : 0 < c.nfp)
    (hR : ∀ k < 2 * M + 1, Axis.Rf c (a.phi k) ≠ 0) :
    let p := Cfg.ofAxis a (2 * M + 1) c.nfp sG spsi etaBar sigma0 I2 B0
    p.dlDvarphi ≠ 0 ∧ p.G0 = p.sG * p.dlDvarphi * p.B0 ∧ (∀ j < p.nphi, 0 < p.dl j) ∧ 0 < p.nphi := by
  intro p
  obtain ⟨h1, h2, -⟩ := Axis.averages hc h hn hR
  have hdl : ∀ j < 2 * M + 1, 0 < (a.loc j).dl := by
    intro j hj; rw [Axis.speed_eq hc h]; exact Axis.speed_pos (hR j hj)
  have hL : 0 < a.axisLength := by
    rw [Axis.length_eq hc h hn]
    have : 0 < ∑ k ∈ Finset.range (2 * M + 1), Spec.Axis.speed (Axis.axisCurve c) (a.phi k) :=
      Finset.sum_pos (fun k hk => Axis.speed_pos (hR k (Finset.mem_range.1 hk))) ⟨0, by simp⟩
    have := Real.pi_pos
    positivity
  refine ⟨?_, ?_, hdl, Nat.succ_pos _⟩
  · change a.dlDvarphi ≠ 0
    rw [h2]
    have := Real.pi_pos
    positivity
  · change a.G0 = sG * a.dlDvarphi * B0
    rw [h1, h2]; ring

/-! ## A configuration that meets the hypotheses -/

/-- Circular axis, one grid point, with a current. -/
noncomputable def sample : Cfg ℝ :=
  { nphi := 1, nfp := 1, helicity := 0, sG := 1, spsi := -1, etaBar := 2, sigma0 := 1, I2 := 9 / 4
    B0 := 1, G0 := 1, dlDvarphi := 1, curvature := fun _ => 1, torsion := fun _ => 0
    dl := fun _ => 1, dDvarphi := fun _ _ => 0 }

/-- The sigma equation holds with `iota = sigma = 1`, and the product rule hypotheses hold. -/
example : sigmaEq sample.nphi sample.dDvarphi sample.etaBar sample.curvature sample.torsion sample.spsi
      sample.G0 sample.B0 sample.I2 (1 + sample.helicity * sample.nfp) (fun _ => 1) 0 = 0 ∧
    (diagnostics realOps sample ⟨1, fun _ => 1⟩).dX1c 0 = 0 ∧
    (diagnostics realOps sample ⟨1, fun _ => 1⟩).dY1s 0 = 0 ∧
    (diagnostics realOps sample ⟨1, fun _ => 1⟩).dY1c 0 = 0 := by
  refine ⟨?_, ?_, ?_, ?_⟩
  · simp [sigmaEq, sample]; norm_num
  all_goals simp [diagnostics, matVec, vsum_eq, sample]

/-- The curl of the sample is not zero. -/
example : gradB sample (diagnostics realOps sample ⟨1, fun _ => 1⟩) 0 0 1 -
    gradB sample (diagnostics realOps sample ⟨1, fun _ => 1⟩) 0 1 0 = -(9 / 2) := by
  simp [gradB, diagnostics, matVec, vsum_eq, sample]; norm_num

/-- The hypothesis of `full_step`, with a linear solver for one grid point. -/
example : ∀ j < sample.nphi, ∑ k ∈ Finset.range sample.nphi,
    jacobian sample (store sample fun _ => 0) j k *
      (fun k => -residual sample (fun _ => 0) k / jacobian sample (store sample fun _ => 0) k k) k =
    -residual sample (fun _ => 0) j := by
  intro j hj
  obtain rfl : j = 0 := Nat.lt_one_iff.1 hj
  simp [residual, store, etaSq, matVec, vsum_eq, sample, jacobian]
  norm_num

example : residual sample (Spec.Newton.trial (env realOps sample (fun _ m b k => b k / m k k) 1) 0
    (fun _ => 0) 0) 0 = 0 := by
  simp [residual, store, etaSq, matVec, vsum_eq, sample, Spec.Newton.trial, env, jacobian]
  norm_num

end Qsc.R1
