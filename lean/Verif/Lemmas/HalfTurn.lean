import Verif.Lemmas.ScalingRun

/-!
# Lemmas on the sign of `eta_bar`
-/

namespace Qsc.HalfTurn
open Qsc.Netcdf Qsc.Single Qsc.Toml Qsc.Spec.Single

/-- The configuration with the opposite `eta_bar`. -/
noncomputable def etaCfg (p : R1.Cfg ℝ) : R1.Cfg ℝ := { p with etaBar := -p.etaBar }

/-- The first order with the opposite `eta_bar`. -/
noncomputable def etaR1 (r : R1.R1 ℝ) : R1.R1 ℝ :=
  { r with
    X1c := fun j => -r.X1c j, Y1s := fun j => -r.Y1s j, Y1c := fun j => -r.Y1c j
    dX1c := fun j => -r.dX1c j, dY1s := fun j => -r.dY1s j, dY1c := fun j => -r.dY1c j }

/-- The input of second order with the opposite `eta_bar`. -/
noncomputable def etaIn (i : R2.In ℝ) : R2.In ℝ := { i with cfg := etaCfg i.cfg, r1 := etaR1 i.r1 }

theorem matVec_neg (n : Nat) (D : Nat → Nat → ℝ) (f : Nat → ℝ) :
    matVec n D (fun j => -f j) = fun j => -matVec n D f j := by
  have h := Scaling.matVec_scale n D (-1) f
  simpa only [neg_mul, one_mul] using h

theorem mul_neg2 (x a b : ℝ) : x * -a * -b = x * a * b := by ring

/-! ## First order -/

theorem residual_eta (p : R1.Cfg ℝ) : R1.residual (etaCfg p) = R1.residual p := by
  funext x j
  simp only [R1.residual, R1.etaSq, R1.store, etaCfg, neg_mul_neg]

theorem jacobian_eta (p : R1.Cfg ℝ) : R1.jacobian (etaCfg p) = R1.jacobian p := by
  funext x j k
  simp only [R1.jacobian, R1.etaSq, etaCfg, neg_mul_neg]

theorem env_eta (p : R1.Cfg ℝ) (solve : Nat → (Nat → Nat → ℝ) → (Nat → ℝ) → Nat → ℝ) (tol : ℝ) :
    R1.env realOps (etaCfg p) solve tol = R1.env realOps p solve tol := by
  simp only [R1.env, residual_eta, jacobian_eta]
  rfl

theorem solveSigma_eta (p : R1.Cfg ℝ) (solve : Nat → (Nat → Nat → ℝ) → (Nat → ℝ) → Nat → ℝ) (tol : ℝ) (N M : Int) :
    R1.solveSigma realOps (etaCfg p) solve tol N M = R1.solveSigma realOps p solve tol N M := by
  simp only [R1.solveSigma, env_eta]
  rfl

theorem newtonThrows_eta {L : Lib ℝ} (ho : L.ops = realOps) (p : R1.Cfg ℝ) (tol : ℝ) (N M : Int) :
    newtonThrows L (etaCfg p) tol N M = newtonThrows L p tol N M := by
  simp only [newtonThrows, ho, env_eta, residual_eta, jacobian_eta]
  rfl

theorem diagnostics_eta (p : R1.Cfg ℝ) (q : R1.Stored ℝ) :
    R1.diagnostics realOps (etaCfg p) q = etaR1 (R1.diagnostics realOps p q) := by
  simp only [R1.diagnostics, etaCfg, etaR1, neg_div, div_neg, neg_mul, matVec_neg, mul_neg, neg_neg, zero_mul, neg_zero]

theorem gradB_eta (p : R1.Cfg ℝ) (r : R1.R1 ℝ) : R1.gradB (etaCfg p) (etaR1 r) = R1.gradB p r := by
  funext j i k
  unfold R1.gradB
  split <;> simp only [etaCfg, etaR1] <;> ring

theorem LgradB_eta (p : R1.Cfg ℝ) (r : R1.R1 ℝ) :
    R1.LgradB realOps (etaCfg p) (etaR1 r) = R1.LgradB realOps p r := by
  funext j
  simp only [R1.LgradB, gradB_eta]
  rfl

theorem LgradBInverse_eta (p : R1.Cfg ℝ) (r : R1.R1 ℝ) :
    R1.LgradBInverse realOps (etaCfg p) (etaR1 r) = R1.LgradBInverse realOps p r := by
  funext j
  simp only [R1.LgradBInverse, LgradB_eta]

theorem minLgradB_eta (p : R1.Cfg ℝ) (r : R1.R1 ℝ) :
    R1.minLgradB realOps (etaCfg p) (etaR1 r) = R1.minLgradB realOps p r := by
  simp only [R1.minLgradB, LgradB_eta]
  rfl

/-! ## Second order -/

/-- What is computed first, with the opposite `eta_bar`. -/
noncomputable def etaPre (a : R2.Pre ℝ) : R2.Pre ℝ :=
  { a with
    beta1s := -a.beta1s, qs := fun j => -a.qs j, qc := fun j => -a.qc j, rs := fun j => -a.rs j, rc := fun j => -a.rc j }

theorem pre_eta (i : R2.In ℝ) : R2.pre (etaIn i) = etaPre (R2.pre i) := by
  have h1 : ∀ a b t : ℝ, i.r1.iotaN * a - i.G0overB0 * -b * t = -(-i.r1.iotaN * a - i.G0overB0 * b * t) :=
    fun a b t => by ring
  have h2 : ∀ a b t : ℝ, -a - i.G0overB0 * -b * t = -(a - i.G0overB0 * b * t) := fun a b t => by ring
  have h3 : ∀ a b : ℝ, -a - i.r1.iotaN * -b = -(a - i.r1.iotaN * b) := fun a b => by ring
  have h4 : ∀ a b c t : ℝ, -a + (i.r1.iotaN * -b + -c * t * i.G0overB0) = -(a + (i.r1.iotaN * b + c * t * i.G0overB0)) :=
    fun a b c t => by ring
  have h5 : ∀ x d : ℝ, x * -i.cfg.etaBar * i.G0overB0 / d = -(x * i.cfg.etaBar * i.G0overB0 / d) := fun x d => by ring
  simp only [R2.pre, etaIn, etaCfg, etaR1, etaPre, matVec_neg, h1, h2, h3, h4, h5, neg_mul_neg, mul_neg2]

theorem lin_eta (i : R2.In ℝ) : R2.linOf (etaIn i) = R2.linOf i := by
  simp only [R2.linOf, pre_eta]
  simp only [R2.lin, etaIn, etaCfg, etaPre, neg_mul_neg]

theorem fs_eta (i : R2.In ℝ) : R2.fsOf (etaIn i) = R2.fsOf i := by
  have h1 : ∀ b l y : ℝ, -b * l / 2 * -y = b * l / 2 * y := fun b l y => by ring
  simp only [R2.fsOf, lin_eta, pre_eta]
  simp only [R2.fs, etaIn, etaCfg, etaR1, etaPre, h1, mul_neg2]

/-- The opposite matrix. -/
noncomputable def negM (m : Nat → Nat → ℝ) : Nat → Nat → ℝ := fun a b => -m a b

theorem forLoop_neg {f f' : Nat → (Nat → Nat → ℝ) → Nat → Nat → ℝ} (h : ∀ j m, f' j (negM m) = negM (f j m)) (n : Nat)
    (m : Nat → Nat → ℝ) : forLoop n f' (negM m) = negM (forLoop n f m) := by
  induction n with
  | zero => rfl
  | succ n ih => rw [forLoop_succ, forLoop_succ, ih, h]

theorem setE_neg (m : Nat → Nat → ℝ) (a b : Nat) {v v' : ℝ} (h : v' = -v) :
    R2.setE (negM m) a b v' = negM (R2.setE m a b v) := by
  funext x y
  simp only [R2.setE, negM, h]
  split <;> rfl

theorem matrix_eta (i : R2.In ℝ) :
    R2.matrix (etaIn i) (fun _ _ => 0) = fun a b => -R2.matrix i (fun _ _ => 0) a b := by
  have h0 : (fun _ _ => 0 : Nat → Nat → ℝ) = negM fun _ _ => 0 := by
    funext a b
    simp only [negM, neg_zero]
  change _ = negM (R2.matrix i fun _ _ => 0)
  conv_lhs => rw [h0]
  unfold R2.matrix
  simp only [fs_eta, lin_eta]
  refine forLoop_neg (fun j m => ?_) _ _
  simp only [etaIn, etaCfg, etaR1]
  rw [forLoop_neg (f := fun k m => R2.setE (R2.setE (R2.setE (R2.setE m j k
      (i.r1.Y1c j * i.cfg.dDvarphi j k * (R2.linOf i).Y2sX20 k - i.r1.Y1s j * i.cfg.dDvarphi j k * (R2.linOf i).Y2cX20 k))
      j (k + i.cfg.nphi) (-2 * i.r1.Y1s j * i.cfg.dDvarphi j k))
      (j + i.cfg.nphi) k (-i.r1.X1c j * i.cfg.dDvarphi j k + i.r1.Y1s j * i.cfg.dDvarphi j k * (R2.linOf i).Y2sX20 k
        + i.r1.Y1c j * i.cfg.dDvarphi j k * (R2.linOf i).Y2cX20 k)) (j + i.cfg.nphi) (k + i.cfg.nphi) 0)
    (fun k m => by
      rw [setE_neg _ _ _ (v := i.r1.Y1c j * i.cfg.dDvarphi j k * (R2.linOf i).Y2sX20 k
          - i.r1.Y1s j * i.cfg.dDvarphi j k * (R2.linOf i).Y2cX20 k) (by ring),
        setE_neg _ _ _ (v := -2 * i.r1.Y1s j * i.cfg.dDvarphi j k) (by ring),
        setE_neg _ _ _ (v := -i.r1.X1c j * i.cfg.dDvarphi j k + i.r1.Y1s j * i.cfg.dDvarphi j k * (R2.linOf i).Y2sX20 k
          + i.r1.Y1c j * i.cfg.dDvarphi j k * (R2.linOf i).Y2cX20 k) (by ring),
        setE_neg _ _ _ (v := 0) (by ring)])]
  generalize forLoop i.cfg.nphi _ m = M
  have key : ∀ (M : Nat → Nat → ℝ) (a b : Nat) (v v' : ℝ), v' = -v →
      R2.setE (negM M) a b (negM M a b + v') = negM (R2.setE M a b (M a b + v)) := fun M a b v v' h =>
    setE_neg _ _ _ (by simp only [negM, h]; ring)
  have e : ∀ x a b c d : ℝ, x + a - b + c - d = x + (a - b + c - d) := fun x a b c d => by ring
  have e' : ∀ x a b c d g : ℝ, x - a + b - c + d + g = x + (-a + b - c + d + g) := fun x a b c d g => by ring
  simp only [e, e']
  generalize R2.fsOf i = f
  rw [key M _ _ (i.r1.X1c j * f.fXsX20 j - i.r1.Y1s j * f.fY0X20 j + i.r1.Y1c j * f.fYsX20 j - i.r1.Y1s j * f.fYcX20 j) _
      (by ring),
    key _ _ _ (i.r1.X1c j * f.fXsY20 j - i.r1.Y1s j * f.fY0Y20 j + i.r1.Y1c j * f.fYsY20 j - i.r1.Y1s j * f.fYcY20 j) _
      (by ring),
    key _ _ _ (-(i.r1.X1c j * f.fX0X20 j) + i.r1.X1c j * f.fXcX20 j - i.r1.Y1c j * f.fY0X20 j + i.r1.Y1s j * f.fYsX20 j
      + i.r1.Y1c j * f.fYcX20 j) _ (by ring),
    key _ _ _ (-(i.r1.X1c j * f.fX0Y20 j) + i.r1.X1c j * f.fXcY20 j - i.r1.Y1c j * f.fY0Y20 j + i.r1.Y1s j * f.fYsY20 j
      + i.r1.Y1c j * f.fYcY20 j) _ (by ring)]

theorem rhs_eta (i : R2.In ℝ) : R2.rhs (etaIn i) = fun a => -R2.rhs i a := by
  funext a
  simp only [R2.rhs, fs_eta]
  by_cases h : a < i.cfg.nphi
  · have h' : a < (etaIn i).cfg.nphi := h
    simp only [if_pos h, if_pos h']
    simp only [etaIn, etaR1]
    ring
  · have h' : ¬a < (etaIn i).cfg.nphi := h
    simp only [if_neg h, if_neg h']
    simp only [etaIn, etaCfg, etaR1]
    ring

theorem finish_eta (i : R2.In ℝ) (x : Nat → ℝ) : R2.finish realOps (etaIn i) x = R2.finish realOps i x := by
  simp only [R2.finish, lin_eta, pre_eta]
  simp only [etaIn, etaCfg, etaPre, neg_mul_neg, mul_neg2]

/-- The third order with the opposite `eta_bar`. -/
noncomputable def etaThird (t : R2.R2p1 ℝ) : R2.R2p1 ℝ :=
  { t with X3c1 := fun j => -t.X3c1 j, Y3c1 := fun j => -t.Y3c1 j, Y3s1 := fun j => -t.Y3s1 j }

theorem r2p1_eta (i : R2.In ℝ) (r : R2.R2 ℝ) : R2.r2p1 realOps (etaIn i) r = etaThird (R2.r2p1 realOps i r) := by
  have ha : ∀ x : ℝ, realOps.abs (-x) = realOps.abs x := fun x => abs_neg x
  simp only [R2.r2p1, pre_eta]
  simp only [etaIn, etaCfg, etaR1, etaPre, etaThird, neg_mul_neg]
  simp only [neg_mul, matVec_neg, R2.absMax, List.foldl, ha]

theorem mercier_eta (i : R2.In ℝ) (mean dPhi len : ℝ) :
    R2.mercier realOps (etaIn i) mean dPhi len = R2.mercier realOps i mean dPhi len := by
  simp only [R2.mercier, pre_eta]
  simp only [etaIn, etaCfg, etaR1, etaPre, neg_mul_neg, mul_neg2]

/-! ## The search for singularities -/

section
open Qsc.RSing

/-- The Jacobian at the opposite angle. -/
noncomputable def etaG (g : G ℝ) : G ℝ := { g with g1c := -g.g1c }

theorem jac_eta (i : R2.In ℝ) (r : R2.R2 ℝ) (j : Nat) : jac (etaIn i) r j = etaG (jac i r j) := by
  simp only [jac, pre_eta]
  simp only [etaIn, etaCfg, etaR1, etaPre, etaG, G.mk.injEq]
  refine ⟨by ring, by ring, by ring, by ring, by ring⟩

theorem unscaled_eta (g : G ℝ) : unscaled (etaG g) = unscaled g := by
  simp only [unscaled, etaG, mul_neg2]
  simp only [neg_mul_neg]

theorem scaled_eta (g : G ℝ) : scaled (etaG g) = scaled g := by
  simp only [scaled, unscaled_eta]

theorem angle_neg (s2 c2 v : ℝ) :
    angle realOps s2 c2 (-v) = (-(angle realOps s2 c2 v).1, -(angle realOps s2 c2 v).2) := by
  unfold angle
  split <;> simp only [neg_mul, mul_neg, div_neg]

theorem radius_eta (g : G ℝ) (s2 c2 s c sign : ℝ) :
    radius realOps (etaG g) s2 c2 (-s) (-c) sign = radius realOps g s2 c2 s c sign := by
  simp only [radius, etaG, neg_mul_neg, neg_neg, mul_neg, neg_mul]

/-- A candidate is taken if it is accepted and smaller. -/
noncomputable def take (t : Tol ℝ) (x : Option (ℝ × ℝ)) (rc : ℝ) : ℝ :=
  match x with
  | none => rc
  | some (rr, residual) =>
    if (realOps.lt 0 rr && realOps.lt (realOps.abs residual) t.res) && realOps.lt rr rc then rr else rc

theorem tryRadius_eq (t : Tol ℝ) (g : G ℝ) (s2 c2 s c rc sign : ℝ) :
    tryRadius realOps t g s2 c2 s c rc sign = take t (radius realOps g s2 c2 s c sign) rc := by
  unfold tryRadius take
  cases radius realOps g s2 c2 s c sign <;> rfl

theorem take_comm (t : Tol ℝ) (x y : Option (ℝ × ℝ)) (rc : ℝ) : take t x (take t y rc) = take t y (take t x rc) := by
  rcases x with - | ⟨a, p⟩
  · rfl
  rcases y with - | ⟨b, q⟩
  · rfl
  have e : ∀ c z x, take t (some (c, z)) x = if (0 < c ∧ |z| < t.res) ∧ c < x then c else x := fun c z x => by
    simp only [take, realOps, Bool.and_eq_true, decide_eq_true_eq]
  simp only [e]
  by_cases hu : 0 < a ∧ |p| < t.res <;> by_cases hw : 0 < b ∧ |q| < t.res <;>
    simp only [hu, hw, false_and, true_and, if_false]
  split_ifs <;> linarith

theorem tryAngle_eta (t : Tol ℝ) (g : G ℝ) (s2 c2 rc v : ℝ) :
    tryAngle realOps t (etaG g) s2 c2 rc (-v) = tryAngle realOps t g s2 c2 rc v := by
  simp only [tryAngle, angle_neg, neg_mul_neg, List.foldl, tryRadius_eq, radius_eta]

theorem angles_eta (t : Tol ℝ) (g : G ℝ) (s2 c2 rc : ℝ) :
    [-1, 1].foldlM (tryAngle realOps t (etaG g) s2 c2) rc = [-1, 1].foldlM (tryAngle realOps t g s2 c2) rc := by
  have h1 : ∀ rc, tryAngle realOps t (etaG g) s2 c2 rc 1 = tryAngle realOps t g s2 c2 rc (-1) := fun rc => by
    rw [← tryAngle_eta t g s2 c2 rc (-1), neg_neg]
  simp only [List.foldlM_cons, List.foldlM_nil, bind_pure, tryAngle_eta, h1]
  have e1 : ∀ rc, tryAngle realOps t g s2 c2 rc (-1) =
      if realOps.lt t.sc (realOps.abs ((angle realOps s2 c2 1).2 * (angle realOps s2 c2 1).2
        + (angle realOps s2 c2 1).1 * (angle realOps s2 c2 1).1 - 1)) then .error "sin^2 + cos^2 is far from 1."
      else .ok (take t (radius realOps g s2 c2 (-(angle realOps s2 c2 1).1) (-(angle realOps s2 c2 1).2) 1)
        (take t (radius realOps g s2 c2 (-(angle realOps s2 c2 1).1) (-(angle realOps s2 c2 1).2) (-1)) rc)) := fun rc => by
    simp only [tryAngle, angle_neg, neg_mul_neg, List.foldl, tryRadius_eq]
  have e2 : ∀ rc, tryAngle realOps t g s2 c2 rc 1 =
      if realOps.lt t.sc (realOps.abs ((angle realOps s2 c2 1).2 * (angle realOps s2 c2 1).2
        + (angle realOps s2 c2 1).1 * (angle realOps s2 c2 1).1 - 1)) then .error "sin^2 + cos^2 is far from 1."
      else .ok (take t (radius realOps g s2 c2 (angle realOps s2 c2 1).1 (angle realOps s2 c2 1).2 1)
        (take t (radius realOps g s2 c2 (angle realOps s2 c2 1).1 (angle realOps s2 c2 1).2 (-1)) rc)) := fun rc => by
    simp only [tryAngle, List.foldl, tryRadius_eq]
  simp only [e1, e2]
  cases realOps.lt t.sc (realOps.abs ((angle realOps s2 c2 1).2 * (angle realOps s2 c2 1).2
        + (angle realOps s2 c2 1).1 * (angle realOps s2 c2 1).1 - 1)) with
  | true => rfl
  | false =>
    simp only [Bool.false_eq_true, if_false]
    generalize radius realOps g s2 c2 (angle realOps s2 c2 1).1 (angle realOps s2 c2 1).2 1 = x1
    generalize radius realOps g s2 c2 (angle realOps s2 c2 1).1 (angle realOps s2 c2 1).2 (-1) = x2
    generalize radius realOps g s2 c2 (-(angle realOps s2 c2 1).1) (-(angle realOps s2 c2 1).2) 1 = y1
    generalize radius realOps g s2 c2 (-(angle realOps s2 c2 1).1) (-(angle realOps s2 c2 1).2) (-1) = y2
    change Except.ok (take t y1 (take t y2 (take t x1 (take t x2 rc)))) = Except.ok (take t x1 (take t x2 (take t y1 (take t y2 rc))))
    rw [take_comm t y2 x1, take_comm t y2 x2, take_comm t y1 x1, take_comm t y1 x2]

theorem gridPoint_eta (t : Tol ℝ) (geev : Quartic.Geev ℝ) (g : G ℝ) :
    gridPoint realOps t geev (etaG g) = gridPoint realOps t geev g := by
  have h : ∀ k roots, tryRoot realOps t (etaG g) k roots = tryRoot realOps t g k roots := fun k roots => by
    funext rc jr
    simp only [tryRoot, angles_eta]
  simp only [gridPoint, unscaled_eta, scaled_eta, h]

theorem sing_eta (t : Tol ℝ) (geev : Quartic.Geev ℝ) (i : R2.In ℝ) (r : R2.R2 ℝ) :
    RSing.calculate realOps t geev (etaIn i) r = RSing.calculate realOps t geev i r := by
  have hs : profileStep realOps t geev (jac (etaIn i) r) = profileStep realOps t geev (jac i r) := by
    funext j s
    simp only [profileStep, jac_eta, gridPoint_eta]
  simp only [RSing.calculate, profile, hs]
  rfl

end

/-! ## The second derivatives of the field -/

section
open Qsc.GradGradB

/-- The values at a grid point with the opposite `eta_bar`. -/
noncomputable def etaAt (v : At ℝ) : At ℝ :=
  { v with
    X1c := -v.X1c, Y1s := -v.Y1s, Y1c := -v.Y1c, dX1c := -v.dX1c, dY1s := -v.dY1s, dY1c := -v.dY1c
    d2X1c := -v.d2X1c, d2Y1s := -v.d2Y1s, d2Y1c := -v.d2Y1c }

theorem at_eta (i : R2.In ℝ) (r : R2.R2 ℝ) (j : Nat) : At.of (etaIn i) r j = etaAt (At.of i r j) := by
  simp only [At.of, pre_eta]
  simp only [etaIn, etaCfg, etaR1, etaPre, etaAt, matVec_neg]

theorem main000_eta (v : At ℝ) : main000 (etaAt v) = main000 v := by
  simp only [main000, etaAt]; ring

theorem main001_eta (v : At ℝ) : main001 (etaAt v) = main001 v := by
  simp only [main001, etaAt]; ring

theorem main002_eta (v : At ℝ) : main002 (etaAt v) = main002 v := by
  simp only [main002, etaAt]; ring

theorem main010_eta (v : At ℝ) : main010 (etaAt v) = main010 v := by
  simp only [main010, etaAt]; ring

theorem main011_eta (v : At ℝ) : main011 (etaAt v) = main011 v := by
  simp only [main011, etaAt]; ring

theorem main012_eta (v : At ℝ) : main012 (etaAt v) = main012 v := by
  simp only [main012, etaAt]; ring

theorem main020_eta (v : At ℝ) : main020 (etaAt v) = main020 v := by
  simp only [main020, etaAt]; ring

theorem main021_eta (v : At ℝ) : main021 (etaAt v) = main021 v := by
  simp only [main021, etaAt]; ring

theorem main022_eta (v : At ℝ) : main022 (etaAt v) = main022 v := by
  simp only [main022, etaAt]; ring

theorem main100_eta (v : At ℝ) : main100 (etaAt v) = main100 v := by
  simp only [main100, etaAt]; ring

theorem main101_eta (v : At ℝ) : main101 (etaAt v) = main101 v := by
  simp only [main101, etaAt]; ring

theorem main102_eta (v : At ℝ) : main102 (etaAt v) = main102 v := by
  simp only [main102, etaAt]; ring

theorem main110_eta (v : At ℝ) : main110 (etaAt v) = main110 v := by
  simp only [main110, etaAt]; ring

theorem main111_eta (v : At ℝ) : main111 (etaAt v) = main111 v := by
  simp only [main111, etaAt]; ring

theorem main112_eta (v : At ℝ) : main112 (etaAt v) = main112 v := by
  simp only [main112, etaAt]; ring

theorem main120_eta (v : At ℝ) : main120 (etaAt v) = main120 v := by
  simp only [main120, etaAt]; ring

theorem main121_eta (v : At ℝ) : main121 (etaAt v) = main121 v := by
  simp only [main121, etaAt]; ring

theorem main122_eta (v : At ℝ) : main122 (etaAt v) = main122 v := by
  simp only [main122, etaAt]; ring

theorem main200_eta (v : At ℝ) : main200 (etaAt v) = main200 v := by
  simp only [main200, etaAt]; ring

theorem main201_eta (v : At ℝ) : main201 (etaAt v) = main201 v := by
  simp only [main201, etaAt]; ring

theorem main202_eta (v : At ℝ) : main202 (etaAt v) = main202 v := by
  simp only [main202, etaAt]; ring

theorem main210_eta (v : At ℝ) : main210 (etaAt v) = main210 v := by
  simp only [main210, etaAt]; ring

theorem main211_eta (v : At ℝ) : main211 (etaAt v) = main211 v := by
  simp only [main211, etaAt]; ring

theorem main212_eta (v : At ℝ) : main212 (etaAt v) = main212 v := by
  simp only [main212, etaAt]; ring

theorem main220_eta (v : At ℝ) : main220 (etaAt v) = main220 v := by
  simp only [main220, etaAt]; ring

theorem main221_eta (v : At ℝ) : main221 (etaAt v) = main221 v := by
  simp only [main221, etaAt]; ring

theorem main222_eta (v : At ℝ) : main222 (etaAt v) = main222 v := by
  simp only [main222, etaAt]; ring

theorem main_eta (v : At ℝ) : main (etaAt v) = main v := by
  funext x y z
  unfold main
  split
  · exact main000_eta v
  · exact main001_eta v
  · exact main002_eta v
  · exact main010_eta v
  · exact main011_eta v
  · exact main012_eta v
  · exact main020_eta v
  · exact main021_eta v
  · exact main022_eta v
  · exact main100_eta v
  · exact main101_eta v
  · exact main102_eta v
  · exact main110_eta v
  · exact main111_eta v
  · exact main112_eta v
  · exact main120_eta v
  · exact main121_eta v
  · exact main122_eta v
  · exact main200_eta v
  · exact main201_eta v
  · exact main202_eta v
  · exact main210_eta v
  · exact main211_eta v
  · exact main212_eta v
  · exact main220_eta v
  · exact main221_eta v
  · exact main222_eta v
  · rfl

theorem LgradGradB_eta (v : At ℝ) : LgradGradB realOps (etaAt v) = LgradGradB realOps v := by
  simp only [LgradGradB, main_eta]
  rfl

theorem LgradGradBInverse_eta (v : At ℝ) : LgradGradBInverse realOps (etaAt v) = LgradGradBInverse realOps v := by
  simp only [LgradGradBInverse, LgradGradB_eta]

theorem minLgradGradB_eta (i : R2.In ℝ) (r : R2.R2 ℝ) :
    minLgradGradB realOps (etaIn i) r = minLgradGradB realOps i r := by
  simp only [minLgradGradB, at_eta, LgradGradB_eta]
  rfl

end

/-! ## The calculation -/

/-- The results beyond first order with the opposite `eta_bar`. -/
noncomputable def etaSecond (d : Second ℝ) : Second ℝ := { d with inp := etaIn d.inp, third := d.third.map etaThird }

/-- The results with the opposite `eta_bar`. -/
noncomputable def etaResult (r : Result ℝ) : Result ℝ :=
  { r with cfg := etaCfg r.cfg, r1 := etaR1 r.r1, second := r.second.map etaSecond }

theorem second_eta {L : Lib ℝ} (ho : L.ops = realOps) (i : R2.In ℝ) (x : Axis.Axis ℝ) (t : Bool)
    (hg : ∀ n m y, L.gesv n (fun a b => -m a b) (fun a => -y a) = L.gesv n m y) :
    second L (etaIn i) x t = (second L i x t).map etaSecond := by
  unfold second
  rw [matrix_eta, rhs_eta, hg, show (etaIn i).cfg.nphi = i.cfg.nphi from rfl]
  cases L.gesv (2 * i.cfg.nphi) (R2.matrix i fun _ _ => 0) (R2.rhs i) with
  | none => rfl
  | some y =>
    simp only [ho, finish_eta, r2p1_eta, mercier_eta, sing_eta]
    cases RSing.calculate realOps (if L.single then RSing.tolSingle else RSing.tolDouble) L.geev i
      (R2.finish realOps i y) with
    | error e => rfl
    | ok s => cases t <;> rfl

/-- The input with the opposite `eta_bar`, as the calculation uses it. -/
structure InputRel (q q' : QscIn ℝ) : Prop where
  coeffs : coeffs q' = coeffs q
  nfp : q'.nfp = q.nfp
  sG : q'.sG = q.sG
  spsi : q'.spsi = q.spsi
  B0 : q'.B0 = q.B0
  etaBar : q'.eta_bar = -q.eta_bar
  sigma0 : q'.sigma0 = q.sigma0
  I2 : q'.I2 = q.I2
  p2 : q'.p2 = q.p2
  B2s : q'.B2s = q.B2s
  B2c : q'.B2c = q.B2c
  tol : q'.newton_tolerance = q.newton_tolerance
  N : q'.max_newton_iterations = q.max_newton_iterations
  M : q'.max_linesearch_iterations = q.max_linesearch_iterations
  nphi : q'.nphi = q.nphi
  order : q'.order_r_option = q.order_r_option

theorem calculate_eta {L : Lib ℝ} (ho : L.ops = realOps) {q q' : QscIn ℝ} (h : InputRel q q') (n : Nat)
    (ord : Setup.Order)
    (hg : ord.atLeastR2 = true → ∀ n m y, L.gesv n (fun a b => -m a b) (fun a => -y a) = L.gesv n m y) :
    calculate L q' n ord = (calculate L q n ord).map etaResult := by
  unfold calculate
  rw [h.coeffs, h.sG, h.spsi, h.B0, ho]
  cases Axis.initAxis realOps (coeffs q) n q.sG q.spsi q.B0 with
  | error e => rfl
  | ok x =>
    have hc : R1.Cfg.ofAxis x n q'.nfp.toNat q.sG q.spsi q'.eta_bar q'.sigma0 q'.I2 q.B0
        = etaCfg (R1.Cfg.ofAxis x n q.nfp.toNat q.sG q.spsi q.eta_bar q.sigma0 q.I2 q.B0) := by
      simp only [R1.Cfg.ofAxis, etaCfg, h.nfp, h.etaBar, h.sigma0, h.I2]
    simp only [hc, newtonThrows_eta ho, solveSigma_eta, diagnostics_eta, h.tol, h.N, h.M, h.p2, h.B2s, h.B2c]
    generalize R1.Cfg.ofAxis x n q.nfp.toNat q.sG q.spsi q.eta_bar q.sigma0 q.I2 q.B0 = p
    have hi : ∀ st r, R2.In.of x (etaCfg p) st (etaR1 r) (mu0 realOps) q.p2 q.B2s q.B2c
        = etaIn (R2.In.of x p st r (mu0 realOps) q.p2 q.B2s q.B2c) := fun _ _ => rfl
    simp only [hi]
    cases newtonThrows L p q.newton_tolerance q.max_newton_iterations q.max_linesearch_iterations with
    | true => rfl
    | false =>
      simp only [Bool.false_eq_true, if_false]
      rcases R1.solveSigma realOps p (newtonSolve L n) q.newton_tolerance q.max_newton_iterations
        q.max_linesearch_iterations with ⟨s, st⟩
      cases st with
      | none => rfl
      | some st =>
        dsimp only
        cases ha : ord.atLeastR2 with
        | false => rfl
        | true =>
          simp only [if_true, second_eta ho _ _ _ (hg ha)]
          cases second L (R2.In.of x p st (R1.diagnostics realOps p st) (mu0 realOps) q.p2 q.B2s q.B2c) x ord.r2p1 <;> rfl

end Qsc.HalfTurn
