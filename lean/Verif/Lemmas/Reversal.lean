import Verif.Lemmas.ScalingRun

/-!
# Lemmas on the reversal of the field
-/

namespace Qsc.Reversal
open Qsc.Netcdf Qsc.Single Qsc.Toml Qsc.Spec.Single

/-- The axis with the opposite `G0`. -/
noncomputable def revAxis (x : Axis.Axis ℝ) : Axis.Axis ℝ := { x with G0 := -x.G0 }

/-- The configuration with the opposite field. -/
noncomputable def revCfg (p : R1.Cfg ℝ) : R1.Cfg ℝ := { p with sG := -p.sG, spsi := -p.spsi, I2 := -p.I2, G0 := -p.G0 }

/-- The input of second order with the opposite field. -/
noncomputable def revIn (i : R2.In ℝ) : R2.In ℝ := { i with cfg := revCfg i.cfg }

theorem initAxis_rev (c : Axis.Coeffs ℝ) (n : Nat) (sG spsi : Int) (B0 : ℝ) :
    Axis.initAxis realOps c n (-sG) (-spsi) B0 = (Axis.initAxis realOps c n sG spsi B0).map revAxis := by
  have hh : ∀ x z : Nat → ℝ, Helicity.calculateHelicity realOps.ge0 n x z (-spsi) (-sG)
      = Helicity.calculateHelicity realOps.ge0 n x z spsi sG := fun x z => by
    simp only [Helicity.calculateHelicity, Helicity.finish, neg_mul_neg]
  have ha : ∀ R00 Z00 ms d h, Axis.axisData realOps c.nfp n (-sG) B0 R00 Z00 ms d h
      = revAxis (Axis.axisData realOps c.nfp n sG B0 R00 Z00 ms d h) := fun R00 Z00 ms d h => by
    simp only [Axis.axisData, revAxis, Int.cast_neg, neg_mul]
  unfold Axis.initAxis
  split
  · rename_i m R00 Z00 h1 h2 h3
    simp only [h1, h2, h3, hh, ha]
    cases c.modes with
    | error e => rfl
    | ok ms =>
      simp only [Except.bind]
      have : ∀ x : Axis.Axis ℝ, (revAxis x).loc = x.loc := fun _ => rfl
      simp only [this]
      cases Helicity.calculateHelicity realOps.ge0 n _ _ spsi sG <;> rfl
  · rfl

/-! ## First order -/

theorem residual_rev (p : R1.Cfg ℝ) : R1.residual (revCfg p) = R1.residual p := by
  funext x j
  simp only [R1.residual, R1.etaSq, R1.store, revCfg, Int.cast_neg]
  ring

theorem jacobian_rev (p : R1.Cfg ℝ) : R1.jacobian (revCfg p) = R1.jacobian p := rfl

theorem env_rev (p : R1.Cfg ℝ) (solve : Nat → (Nat → Nat → ℝ) → (Nat → ℝ) → Nat → ℝ) (tol : ℝ) :
    R1.env realOps (revCfg p) solve tol = R1.env realOps p solve tol := by
  simp only [R1.env, residual_rev, jacobian_rev]
  rfl

theorem solveSigma_rev (p : R1.Cfg ℝ) (solve : Nat → (Nat → Nat → ℝ) → (Nat → ℝ) → Nat → ℝ) (tol : ℝ) (N M : Int) :
    R1.solveSigma realOps (revCfg p) solve tol N M = R1.solveSigma realOps p solve tol N M := by
  simp only [R1.solveSigma, env_rev]
  rfl

theorem newtonThrows_rev {L : Lib ℝ} (ho : L.ops = realOps) (p : R1.Cfg ℝ) (tol : ℝ) (N M : Int) :
    newtonThrows L (revCfg p) tol N M = newtonThrows L p tol N M := by
  simp only [newtonThrows, ho, env_rev, residual_rev, jacobian_rev]
  rfl

theorem diagnostics_rev (p : R1.Cfg ℝ) (q : R1.Stored ℝ) :
    R1.diagnostics realOps (revCfg p) q = R1.diagnostics realOps p q := by
  simp only [R1.diagnostics, revCfg, neg_mul_neg]

theorem gradB_rev (p : R1.Cfg ℝ) (r : R1.R1 ℝ) (j i k : Nat) :
    R1.gradB (revCfg p) r j i k = -1 * R1.gradB p r j i k := by
  unfold R1.gradB
  split <;> simp only [revCfg, Int.cast_neg, mul_zero] <;> ring

theorem LgradB_rev (p : R1.Cfg ℝ) (r : R1.R1 ℝ) : R1.LgradB realOps (revCfg p) r = R1.LgradB realOps p r := by
  funext j
  simp only [R1.LgradB, gradB_rev, neg_mul, one_mul, mul_neg, neg_neg]
  rfl

theorem LgradBInverse_rev (p : R1.Cfg ℝ) (r : R1.R1 ℝ) :
    R1.LgradBInverse realOps (revCfg p) r = R1.LgradBInverse realOps p r := by
  funext j
  simp only [R1.LgradBInverse, LgradB_rev]

theorem minLgradB_rev (p : R1.Cfg ℝ) (r : R1.R1 ℝ) :
    R1.minLgradB realOps (revCfg p) r = R1.minLgradB realOps p r := by
  simp only [R1.minLgradB, LgradB_rev]
  rfl

/-! ## Second order -/

theorem pre_rev (i : R2.In ℝ) : R2.pre (revIn i) = { R2.pre i with G2 := -(R2.pre i).G2 } := by
  have h1 : -i.mu0 * i.p2 * -i.cfg.G0 / (i.cfg.B0 * i.cfg.B0) - i.st.iota * -i.cfg.I2
    = -(-i.mu0 * i.p2 * i.cfg.G0 / (i.cfg.B0 * i.cfg.B0) - i.st.iota * i.cfg.I2) := by ring
  have h2 : (-4 : ℝ) * -(i.cfg.spsi : ℝ) * -(i.cfg.sG : ℝ) = -4 * i.cfg.spsi * i.cfg.sG := by ring
  simp only [R2.pre, revIn, revCfg, Int.cast_neg, h1, h2]

theorem lin_rev (i : R2.In ℝ) : R2.linOf (revIn i) = R2.linOf i := by
  simp only [R2.linOf, pre_rev]
  simp only [R2.lin, revIn, revCfg, Int.cast_neg, neg_neg, neg_mul_neg, mul_neg, neg_mul]

theorem fs_rev (i : R2.In ℝ) : R2.fsOf (revIn i) = R2.fsOf i := by
  simp only [R2.fsOf, lin_rev, pre_rev]
  simp only [R2.fs, revIn, revCfg, Int.cast_neg, neg_neg, neg_mul_neg, mul_neg, neg_mul, neg_div]

theorem matrix_rev (i : R2.In ℝ) : R2.matrix (revIn i) = R2.matrix i := by
  funext old
  simp only [R2.matrix, fs_rev, lin_rev]
  rfl

theorem rhs_rev (i : R2.In ℝ) : R2.rhs (revIn i) = R2.rhs i := by
  funext a
  simp only [R2.rhs, fs_rev]
  rfl

theorem finish_rev (i : R2.In ℝ) (x : Nat → ℝ) : R2.finish realOps (revIn i) x = R2.finish realOps i x := by
  simp only [R2.finish, lin_rev, pre_rev]
  rfl

theorem r2p1_rev (i : R2.In ℝ) (r : R2.R2 ℝ) : R2.r2p1 realOps (revIn i) r = R2.r2p1 realOps i r := by
  have h : (R2.r2p1 realOps (revIn i) r).lambda = (R2.r2p1 realOps i r).lambda := by
    funext j
    simp only [R2.r2p1, pre_rev]
    simp only [revIn, revCfg, Int.cast_neg]
    generalize (i.cfg.sG : ℝ) = s, (i.cfg.spsi : ℝ) = t
    simp only [neg_mul, mul_neg, neg_neg, div_neg, neg_div]
    ring
  have key : ∀ (i' : R2.In ℝ), i'.cfg.nphi = i.cfg.nphi → i'.cfg.dDvarphi = i.cfg.dDvarphi → i'.r1 = i.r1 →
      R2.r2p1 realOps i' r = R2.R2p1.mk (R2.r2p1 realOps i' r).lambda
        (fun j => i.r1.X1c j * (R2.r2p1 realOps i' r).lambda j) (fun j => i.r1.Y1c j * (R2.r2p1 realOps i' r).lambda j)
        (fun j => i.r1.Y1s j * (R2.r2p1 realOps i' r).lambda j)
        (R2.absMax realOps i.cfg.nphi (fun j => i.r1.X1c j * (R2.r2p1 realOps i' r).lambda j)
          [fun j => i.r1.Y1c j * (R2.r2p1 realOps i' r).lambda j, fun j => i.r1.Y1s j * (R2.r2p1 realOps i' r).lambda j])
        (R2.absMax realOps i.cfg.nphi (matVec i.cfg.nphi i.cfg.dDvarphi fun j => i.r1.X1c j * (R2.r2p1 realOps i' r).lambda j)
          [matVec i.cfg.nphi i.cfg.dDvarphi fun j => i.r1.Y1c j * (R2.r2p1 realOps i' r).lambda j,
           matVec i.cfg.nphi i.cfg.dDvarphi fun j => i.r1.Y1s j * (R2.r2p1 realOps i' r).lambda j])
        (R2.absMax realOps i.cfg.nphi (matVec i.cfg.nphi i.cfg.dDvarphi (matVec i.cfg.nphi i.cfg.dDvarphi
            fun j => i.r1.X1c j * (R2.r2p1 realOps i' r).lambda j))
          [matVec i.cfg.nphi i.cfg.dDvarphi (matVec i.cfg.nphi i.cfg.dDvarphi
            fun j => i.r1.Y1c j * (R2.r2p1 realOps i' r).lambda j),
           matVec i.cfg.nphi i.cfg.dDvarphi (matVec i.cfg.nphi i.cfg.dDvarphi
            fun j => i.r1.Y1s j * (R2.r2p1 realOps i' r).lambda j)]) := by
    intro i' h1 h2 h3
    rw [← h1, ← h2, ← h3]
    rfl
  rw [key (revIn i) rfl rfl rfl, h, ← key i rfl rfl rfl]

theorem mercier_rev (i : R2.In ℝ) (mean dPhi len : ℝ) :
    R2.mercier realOps (revIn i) mean dPhi len = R2.mercier realOps i mean dPhi len := by
  have ha : realOps.abs (-i.cfg.G0) = realOps.abs i.cfg.G0 := abs_neg _
  have hg : 2 * (-(R2.pre i).G2 + i.st.iota * -i.cfg.I2) / -i.cfg.G0 = 2 * ((R2.pre i).G2 + i.st.iota * i.cfg.I2) / i.cfg.G0 := by
    rw [show 2 * (-(R2.pre i).G2 + i.st.iota * -i.cfg.I2) = -(2 * ((R2.pre i).G2 + i.st.iota * i.cfg.I2)) from by ring,
      neg_div_neg_eq]
  have hp : ∀ x : ℝ, x * -i.cfg.G0 * -i.cfg.G0 * -i.cfg.G0 * -i.cfg.G0 = x * i.cfg.G0 * i.cfg.G0 * i.cfg.G0 * i.cfg.G0 :=
    fun x => by ring
  simp only [R2.mercier, pre_rev]
  simp only [revIn, revCfg, ha, hg, hp]

theorem sing_rev (t : RSing.Tol ℝ) (geev : Quartic.Geev ℝ) (i : R2.In ℝ) (r : R2.R2 ℝ) :
    RSing.calculate realOps t geev (revIn i) r = RSing.calculate realOps t geev i r := by
  have hj : RSing.jac (revIn i) r = RSing.jac i r := by
    funext j
    simp only [RSing.jac, pre_rev]
    rfl
  simp only [RSing.calculate, hj]
  rfl

/-! ## The second derivatives of the field -/

section
open Qsc.GradGradB

/-- The values at a grid point with the opposite field. -/
noncomputable def revAt (v : At ℝ) : At ℝ :=
  { v with sG := -v.sG, spsi := -v.spsi, G0 := -v.G0, G2 := -v.G2, I2 := -v.I2 }

theorem at_rev (i : R2.In ℝ) (r : R2.R2 ℝ) (j : Nat) : At.of (revIn i) r j = revAt (At.of i r j) := by
  simp only [At.of, pre_rev]
  simp only [revIn, revCfg, revAt, Int.cast_neg]

theorem main000_rev (v : At ℝ) : main000 (revAt v) = -1 * main000 v := by
  simp only [main000, revAt]; ring

theorem main001_rev (v : At ℝ) : main001 (revAt v) = -1 * main001 v := by
  simp only [main001, revAt]; ring

theorem main002_rev (v : At ℝ) : main002 (revAt v) = -1 * main002 v := by
  simp only [main002, revAt]; ring

theorem main010_rev (v : At ℝ) : main010 (revAt v) = -1 * main010 v := by
  simp only [main010, revAt]; ring

theorem main011_rev (v : At ℝ) : main011 (revAt v) = -1 * main011 v := by
  simp only [main011, revAt]; ring

theorem main012_rev (v : At ℝ) : main012 (revAt v) = -1 * main012 v := by
  simp only [main012, revAt]; ring

theorem main020_rev (v : At ℝ) : main020 (revAt v) = -1 * main020 v := by
  simp only [main020, revAt]; ring

theorem main021_rev (v : At ℝ) : main021 (revAt v) = -1 * main021 v := by
  simp only [main021, revAt]; ring

theorem main022_rev (v : At ℝ) : main022 (revAt v) = -1 * main022 v := by
  simp only [main022, revAt]; ring

theorem main100_rev (v : At ℝ) : main100 (revAt v) = -1 * main100 v := by
  simp only [main100, revAt]; ring

theorem main101_rev (v : At ℝ) : main101 (revAt v) = -1 * main101 v := by
  simp only [main101, revAt]; ring

theorem main102_rev (v : At ℝ) : main102 (revAt v) = -1 * main102 v := by
  simp only [main102, revAt]; ring

theorem main110_rev (v : At ℝ) : main110 (revAt v) = -1 * main110 v := by
  simp only [main110, revAt]; ring

theorem main111_rev (v : At ℝ) : main111 (revAt v) = -1 * main111 v := by
  simp only [main111, revAt]; ring

theorem main112_rev (v : At ℝ) : main112 (revAt v) = -1 * main112 v := by
  simp only [main112, revAt]; ring

theorem main120_rev (v : At ℝ) : main120 (revAt v) = -1 * main120 v := by
  simp only [main120, revAt]; ring

theorem main121_rev (v : At ℝ) : main121 (revAt v) = -1 * main121 v := by
  simp only [main121, revAt]; ring

theorem main122_rev (v : At ℝ) : main122 (revAt v) = -1 * main122 v := by
  simp only [main122, revAt]; ring

theorem main200_rev (v : At ℝ) : main200 (revAt v) = -1 * main200 v := by
  simp only [main200, revAt]; ring

theorem main201_rev (v : At ℝ) : main201 (revAt v) = -1 * main201 v := by
  simp only [main201, revAt]; ring

theorem main202_rev (v : At ℝ) : main202 (revAt v) = -1 * main202 v := by
  simp only [main202, revAt]; ring

theorem main210_rev (v : At ℝ) : main210 (revAt v) = -1 * main210 v := by
  simp only [main210, revAt]; ring

theorem main211_rev (v : At ℝ) : main211 (revAt v) = -1 * main211 v := by
  simp only [main211, revAt]; ring

theorem main212_rev (v : At ℝ) : main212 (revAt v) = -1 * main212 v := by
  simp only [main212, revAt]; ring

theorem main220_rev (v : At ℝ) : main220 (revAt v) = -1 * main220 v := by
  simp only [main220, revAt]; ring

theorem main221_rev (v : At ℝ) : main221 (revAt v) = -1 * main221 v := by
  simp only [main221, revAt]; ring

theorem main222_rev (v : At ℝ) : main222 (revAt v) = -1 * main222 v := by
  simp only [main222, revAt]; ring

theorem main_rev (v : At ℝ) (x y z : Nat) : main (revAt v) x y z = -1 * main v x y z := by
  unfold main
  split
  · exact main000_rev v
  · exact main001_rev v
  · exact main002_rev v
  · exact main010_rev v
  · exact main011_rev v
  · exact main012_rev v
  · exact main020_rev v
  · exact main021_rev v
  · exact main022_rev v
  · exact main100_rev v
  · exact main101_rev v
  · exact main102_rev v
  · exact main110_rev v
  · exact main111_rev v
  · exact main112_rev v
  · exact main120_rev v
  · exact main121_rev v
  · exact main122_rev v
  · exact main200_rev v
  · exact main201_rev v
  · exact main202_rev v
  · exact main210_rev v
  · exact main211_rev v
  · exact main212_rev v
  · exact main220_rev v
  · exact main221_rev v
  · exact main222_rev v
  · rw [mul_zero]

theorem LgradGradB_rev (v : At ℝ) : LgradGradB realOps (revAt v) = LgradGradB realOps v := by
  simp only [LgradGradB, main_rev, neg_mul, one_mul, mul_neg, neg_neg]
  rfl

theorem LgradGradBInverse_rev (v : At ℝ) : LgradGradBInverse realOps (revAt v) = LgradGradBInverse realOps v := by
  simp only [LgradGradBInverse, LgradGradB_rev]

theorem minLgradGradB_rev (i : R2.In ℝ) (r : R2.R2 ℝ) :
    minLgradGradB realOps (revIn i) r = minLgradGradB realOps i r := by
  simp only [minLgradGradB, at_rev, LgradGradB_rev]
  rfl

end

/-! ## The calculation -/

/-- The results beyond first order with the opposite field. -/
noncomputable def revSecond (d : Second ℝ) : Second ℝ := { d with inp := revIn d.inp }

/-- The results with the opposite field. -/
noncomputable def revResult (r : Result ℝ) : Result ℝ :=
  { r with axis := revAxis r.axis, cfg := revCfg r.cfg, second := r.second.map revSecond }

/-- The input with the opposite field, as the calculation uses it. -/
structure InputRel (q q' : QscIn ℝ) : Prop where
  coeffs : coeffs q' = coeffs q
  nfp : q'.nfp = q.nfp
  sG : q'.sG = -q.sG
  spsi : q'.spsi = -q.spsi
  B0 : q'.B0 = q.B0
  etaBar : q'.eta_bar = q.eta_bar
  sigma0 : q'.sigma0 = q.sigma0
  I2 : q'.I2 = -q.I2
  p2 : q'.p2 = q.p2
  B2s : q'.B2s = q.B2s
  B2c : q'.B2c = q.B2c
  tol : q'.newton_tolerance = q.newton_tolerance
  N : q'.max_newton_iterations = q.max_newton_iterations
  M : q'.max_linesearch_iterations = q.max_linesearch_iterations
  nphi : q'.nphi = q.nphi
  order : q'.order_r_option = q.order_r_option

theorem second_rev {L : Lib ℝ} (ho : L.ops = realOps) (i : R2.In ℝ) (x : Axis.Axis ℝ) (t : Bool) :
    second L (revIn i) (revAxis x) t = (second L i x t).map revSecond := by
  unfold second
  rw [matrix_rev, rhs_rev, show (revIn i).cfg.nphi = i.cfg.nphi from rfl]
  cases L.gesv (2 * i.cfg.nphi) (R2.matrix i fun _ _ => 0) (R2.rhs i) with
  | none => rfl
  | some y =>
    simp only [ho, finish_rev, r2p1_rev, mercier_rev, sing_rev]
    cases RSing.calculate realOps (if L.single then RSing.tolSingle else RSing.tolDouble) L.geev i
      (R2.finish realOps i y) <;> rfl

theorem calculate_rev {L : Lib ℝ} (ho : L.ops = realOps) {q q' : QscIn ℝ} (h : InputRel q q') (n : Nat)
    (ord : Setup.Order) : calculate L q' n ord = (calculate L q n ord).map revResult := by
  unfold calculate
  rw [h.coeffs, h.sG, h.spsi, h.B0, ho, initAxis_rev]
  cases Axis.initAxis realOps (coeffs q) n q.sG q.spsi q.B0 with
  | error e => rfl
  | ok x =>
    have hc : R1.Cfg.ofAxis (revAxis x) n q'.nfp.toNat (-q.sG) (-q.spsi) q'.eta_bar q'.sigma0 q'.I2 q.B0
        = revCfg (R1.Cfg.ofAxis x n q.nfp.toNat q.sG q.spsi q.eta_bar q.sigma0 q.I2 q.B0) := by
      simp only [R1.Cfg.ofAxis, revCfg, revAxis, h.nfp, h.etaBar, h.sigma0, h.I2]
    simp only [Except.map, hc, newtonThrows_rev ho, solveSigma_rev, diagnostics_rev, h.tol, h.N, h.M, h.p2, h.B2s, h.B2c]
    generalize R1.Cfg.ofAxis x n q.nfp.toNat q.sG q.spsi q.eta_bar q.sigma0 q.I2 q.B0 = p
    have hi : ∀ st r, R2.In.of (revAxis x) (revCfg p) st r (mu0 realOps) q.p2 q.B2s q.B2c
        = revIn (R2.In.of x p st r (mu0 realOps) q.p2 q.B2s q.B2c) := fun _ _ => rfl
    simp only [hi, second_rev ho]
    cases newtonThrows L p q.newton_tolerance q.max_newton_iterations q.max_linesearch_iterations with
    | true => rfl
    | false =>
      simp only [Bool.false_eq_true, if_false]
      rcases R1.solveSigma realOps p (newtonSolve L n) q.newton_tolerance q.max_newton_iterations
        q.max_linesearch_iterations with ⟨s, st⟩
      cases st with
      | none => rfl
      | some st =>
        dsimp only
        cases ord.atLeastR2 with
        | false => rfl
        | true =>
          simp only [if_true]
          cases second L (R2.In.of x p st (R1.diagnostics realOps p st) (mu0 realOps) q.p2 q.B2s q.B2c) x ord.r2p1 <;> rfl

end Qsc.Reversal
