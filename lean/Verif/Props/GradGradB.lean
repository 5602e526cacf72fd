import Verif.Lemmas.GradGradBTaylor
import Verif.Props.R2Field
import Mathlib.Analysis.Calculus.Deriv.Inv
import Mathlib.Analysis.Calculus.Deriv.Pow
import Mathlib.Analysis.SpecialFunctions.ExpDeriv

/-!
# The grad B and grad grad B tensors are the derivatives of the field (C64, C65, C66, C67)

Exact real arithmetic.  `lower c = coef ..` says that `c` holds the computed coefficients, with any
third-order part.
-/

namespace Qsc.GradGradB

open Qsc.Spec.NearAxis R2

/-- What `init_axis` and the first two orders provide, with the two names for the length of the axis per
unit Boozer angle. -/
structure Ready (i : In ℝ) : Prop extends Ok i where
  dl : i.cfg.dlDvarphi = i.G0overB0

/-- The product rule for `X1c Y1s`, which is constant, at a grid point. -/
def Product (i : In ℝ) (j : Nat) : Prop := i.r1.dX1c j * i.r1.Y1s j + i.r1.X1c j * i.r1.dY1s j = 0

section
variable {i : In ℝ} (ok : Ready i) (x : Nat → ℝ) {j : Nat} (hj : j < i.cfg.nphi)
include ok hj

theorem first_of : First (At.of i (finish realOps i x) j) i.cfg.etaBar where
  sG := by rcases ok.sG with h | h <;> [left; right] <;> simp [At.of, h]
  spsi := by rcases ok.spsi with h | h <;> [left; right] <;> simp [At.of, h]
  lp := ok.l
  B0 := ok.B0
  G0 := ok.G0
  area := ok.toOk.area hj
  kap := by
    change i.cfg.curvature j * i.r1.X1c j = _
    rw [ok.toOk.X1c, mul_div_cancel₀ _ (ok.kappa j hj)]

theorem second_of : Second (At.of i (finish realOps i x) j) where
  cos := (area_relations ok.toOk x hj).1
  sin := (area_relations ok.toOk x hj).2

omit hj in
theorem dX1c_eq (j : Nat) : i.r1.dX1c j = der i i.r1.X1c j := by
  rw [ok.r1, ← der_eq]; rfl
omit hj in
theorem dY1s_eq (j : Nat) : i.r1.dY1s j = der i i.r1.Y1s j := by
  rw [ok.r1, ← der_eq]; rfl
omit hj in
theorem dY1c_eq (j : Nat) : i.r1.dY1c j = der i i.r1.Y1c j := by
  rw [ok.r1, ← der_eq]; rfl

omit hj in
theorem match_of {c d : Coef} (hc : lower c = coef i (finish realOps i x) j)
    (hd : lower d = dcoef i (finish realOps i x) j) :
    Match (At.of i (finish realOps i x) j) i.cfg.etaBar (pt i (finish realOps i x) j) c d where
  kappa := rfl
  tau := rfl
  l := rfl
  iotaN := rfl
  B0 := rfl
  eta := rfl
  B20 := rfl
  B2s := rfl
  B2c := rfl
  G0 := rfl
  G2 := by simp only [pt, At.of]; ring
  X1c := (congrArg Coef.X1c hc : _)
  Y1s := (congrArg Coef.Y1s hc : _)
  Y1c := (congrArg Coef.Y1c hc : _)
  X20 := (congrArg Coef.X20 hc : _)
  X2s := (congrArg Coef.X2s hc : _)
  X2c := (congrArg Coef.X2c hc : _)
  Y20 := (congrArg Coef.Y20 hc : _)
  Y2s := (congrArg Coef.Y2s hc : _)
  Y2c := (congrArg Coef.Y2c hc : _)
  Z2s := (congrArg Coef.Z2s hc : _)
  Z2c := (congrArg Coef.Z2c hc : _)
  dX1c := (congrArg Coef.X1c hd : _).trans (dX1c_eq ok j).symm
  dY1s := (congrArg Coef.Y1s hd : _).trans (dY1s_eq ok j).symm
  dY1c := (congrArg Coef.Y1c hd : _).trans (dY1c_eq ok j).symm
  dX20 := (congrArg Coef.X20 hd : _).trans (der_eq _ _ _).symm
  dX2s := (congrArg Coef.X2s hd : _).trans (der_eq _ _ _).symm
  dX2c := (congrArg Coef.X2c hd : _).trans (der_eq _ _ _).symm
  dY20 := (congrArg Coef.Y20 hd : _).trans (der_eq _ _ _).symm
  dY2s := (congrArg Coef.Y2s hd : _).trans (der_eq _ _ _).symm
  dY2c := (congrArg Coef.Y2c hd : _).trans (der_eq _ _ _).symm
  dZ20 := (congrArg Coef.Z20 hd : _).trans (der_eq _ _ _).symm
  dZ2s := (congrArg Coef.Z2s hd : _).trans (der_eq _ _ _).symm
  dZ2c := (congrArg Coef.Z2c hd : _).trans (der_eq _ _ _).symm

omit hj in
theorem gradM_of : gradM (At.of i (finish realOps i x) j) = R1.gradB i.cfg i.r1 j := by
  funext m k
  unfold gradM R1.gradB
  rw [ok.dl]
  split <;> simp only [At.of]
  all_goals first | rfl | (split <;> first | rfl | simp_all)

omit ok hj in
theorem smooth1_of (hp : Product i j) : Smooth1 (At.of i (finish realOps i x) j) := ⟨hp⟩

/-- In the plane across the axis, the two calculations agree. -/
theorem same_of (hp : Product i j) {m n k : Nat} (hm : m < 2) (hn : n < 2) (hk : k < 3) :
    main (At.of i (finish realOps i x) j) m n k = alt (At.of i (finish realOps i x) j) m n k := by
  have h := first_of ok x hj
  have q := second_of ok x hj
  have s := smooth1_of (x := x) hp
  match m, n, k, hm, hn, hk with
  | 0, 0, 0, _, _, _ => exact same000 h q s
  | 0, 0, 1, _, _, _ => exact same001 h q s
  | 0, 0, 2, _, _, _ => exact same002 h q s
  | 0, 1, 0, _, _, _ => exact same010 h q s
  | 0, 1, 1, _, _, _ => exact same011 h q s
  | 0, 1, 2, _, _, _ => exact same012 h q s
  | 1, 0, 0, _, _, _ => exact same100 h q s
  | 1, 0, 1, _, _, _ => exact same101 h q s
  | 1, 0, 2, _, _, _ => exact same102 h q s
  | 1, 1, 0, _, _, _ => exact same110 h q s
  | 1, 1, 1, _, _, _ => exact same111 h q s
  | 1, 1, 2, _, _, _ => exact same112 h q s

/-- **C65.** The field is its Taylor polynomial of second order, with `grad_B_tensor` and
`grad_grad_B_tensor` as first and second derivatives, up to an error of third order in `r`: for every
angle, every component, every solution vector and all third-order coefficients. -/
theorem second_derivative (hp : Product i j) {c d : Coef} (hc : lower c = coef i (finish realOps i x) j)
    (hd : lower d = dcoef i (finish realOps i x) j) (θ : ℝ) {k : Nat} (hk : k < 3) :
    Order 3 fun r => comp (fieldVec (pt i (finish realOps i x) j) c d r θ) k -
      taylor2 (onAxis (i.cfg.sG * i.cfg.B0)) (R1.gradB i.cfg i.r1 j)
        (main (At.of i (finish realOps i x) j)) (position c r θ) k := by
  have h := taylor_order (first_of ok x hj) (match_of ok x hc hd) (smooth1_of (x := x) hp) θ hk
  rw [gradM_of ok x] at h
  have hb : (At.of i (finish realOps i x) j).sG * (At.of i (finish realOps i x) j).B0 =
    i.cfg.sG * i.cfg.B0 := rfl
  rw [hb] at h
  have h2 := taylor2_congr c θ (onAxis (i.cfg.sG * i.cfg.B0)) (R1.gradB i.cfg i.r1 j) k
    fun m n hm hn => (same_of ok x hj hp (m := m) (n := n) hm hn hk).symm
  exact (h.add h2).congr_left fun r => by ring

/-- **C64.** The field is its Taylor polynomial of first order with `grad_B_tensor` as derivative, up to an
error of second order in `r`. -/
theorem first_derivative (hp : Product i j) {c d : Coef} (hc : lower c = coef i (finish realOps i x) j)
    (hd : lower d = dcoef i (finish realOps i x) j) (θ : ℝ) {k : Nat} (hk : k < 3) :
    Order 2 fun r => comp (fieldVec (pt i (finish realOps i x) j) c d r θ) k -
      taylor1 (onAxis (i.cfg.sG * i.cfg.B0)) (R1.gradB i.cfg i.r1 j) (position c r θ) k := by
  have h := second_derivative ok x hj hp hc hd θ hk
  have h1 := taylor2_sub c θ (onAxis (i.cfg.sG * i.cfg.B0)) (R1.gradB i.cfg i.r1 j)
    (main (At.of i (finish realOps i x) j)) k
  exact ((order_mono (by norm_num) h).add h1).congr_left fun r => by ring

/-- **C65.** The derivatives across the axis are determined by that: no other tensor that is symmetric in
the two directions has the property. -/
theorem second_derivative_unique (hp : Product i j) {c d : Coef}
    (hc : lower c = coef i (finish realOps i x) j) (hd : lower d = dcoef i (finish realOps i x) j) {k : Nat}
    (hk : k < 3) (T : Nat → Nat → Nat → ℝ) (hs : T 0 1 k = T 1 0 k)
    (hT : ∀ θ, Order 3 fun r => comp (fieldVec (pt i (finish realOps i x) j) c d r θ) k -
      taylor2 (onAxis (i.cfg.sG * i.cfg.B0)) (R1.gradB i.cfg i.r1 j) T (position c r θ) k) {m n : Nat}
    (hm : m < 2) (hn : n < 2) : T m n k = main (At.of i (finish realOps i x) j) m n k := by
  have h := first_of ok x hj
  have hX : c.X1c ≠ 0 := by
    have e : c.X1c = i.r1.X1c j := congrArg Coef.X1c hc
    rw [e]; exact h.X1c
  have hY : c.Y1s ≠ 0 := by
    have e : c.Y1s = i.r1.Y1s j := congrArg Coef.Y1s hc
    rw [e]
    intro h0
    have := ok.toOk.area hj
    rw [h0, mul_zero] at this
    exact h.s_ne this.symm
  have s1 : main (At.of i (finish realOps i x) j) 0 1 k = main (At.of i (finish realOps i x) j) 1 0 k := by
    rw [same_of ok x hj hp (by norm_num) (by norm_num) hk, same_of ok x hj hp (by norm_num) (by norm_num) hk]
    have s := smooth1_of (x := x) hp
    match k, hk with
    | 0, _ => exact symm010 h s
    | 1, _ => exact symm011 h s
    | 2, _ => exact symm012 h s
  refine quad_unique c hX hY (b := onAxis (i.cfg.sG * i.cfg.B0)) (M := R1.gradB i.cfg i.r1 j) _ _ k hs s1 (fun θ => ?_) hm hn
  exact ((second_derivative ok x hj hp hc hd θ hk).sub (hT θ)).congr_left fun r => by ring

end

/-! ## Along the axis -/

/-- Smooth functions along the axis that have, at one point, the values and derivatives of the profiles at
the grid point `j`. -/
structure Profiles (i : In ℝ) (j : Nat) where
  X : ℝ → ℝ
  Ys : ℝ → ℝ
  Yc : ℝ → ℝ
  kap : ℝ → ℝ
  tor : ℝ → ℝ
  dX : ℝ → ℝ
  dYs : ℝ → ℝ
  dYc : ℝ → ℝ
  u : ℝ
  X_d : ∀ v, HasDerivAt X (dX v) v
  Ys_d : ∀ v, HasDerivAt Ys (dYs v) v
  Yc_d : ∀ v, HasDerivAt Yc (dYc v) v
  area : ∀ v, X v * Ys v = i.cfg.sG * i.cfg.spsi
  X_u : X u = i.r1.X1c j
  Ys_u : Ys u = i.r1.Y1s j
  Yc_u : Yc u = i.r1.Y1c j
  kap_u : kap u = i.cfg.curvature j
  tor_u : tor u = i.cfg.torsion j
  dX_u : dX u = i.r1.dX1c j
  dYs_u : dYs u = i.r1.dY1s j
  dYc_u : dYc u = i.r1.dY1c j
  X_dd : HasDerivAt dX (der i i.r1.dX1c j) u
  Ys_dd : HasDerivAt dYs (der i i.r1.dY1s j) u
  Yc_dd : HasDerivAt dYc (der i i.r1.dY1c j) u
  kap_d : HasDerivAt kap (der i i.cfg.curvature j) u
  tor_d : HasDerivAt tor (der i i.cfg.torsion j) u

/-- The grad B tensor along the axis. -/
noncomputable def Profiles.gradB {i : In ℝ} {j : Nat} (f : Profiles i j) (v : ℝ) : Nat → Nat → ℝ :=
  R1.gradB { i.cfg with curvature := fun _ => f.kap v, torsion := fun _ => f.tor v }
    { i.r1 with X1c := fun _ => f.X v, Y1s := fun _ => f.Ys v, Y1c := fun _ => f.Yc v,
                dX1c := fun _ => f.dX v, dY1s := fun _ => f.dYs v, dY1c := fun _ => f.dYc v } 0

section
variable {i : In ℝ} {j : Nat} (f : Profiles i j)
include f

theorem Profiles.product : Product i j := by
  have h := (f.X_d f.u).mul (f.Ys_d f.u)
  have h0 : (f.X * f.Ys) = fun _ => (i.cfg.sG * i.cfg.spsi : ℝ) := funext f.area
  rw [h0] at h
  have := h.unique (hasDerivAt_const _ _)
  rw [f.X_u, f.Ys_u, f.dX_u, f.dYs_u] at this
  exact this

theorem Profiles.product2 : der i i.r1.dX1c j * i.r1.Y1s j + 2 * (i.r1.dX1c j * i.r1.dY1s j) +
    i.r1.X1c j * der i i.r1.dY1s j = 0 := by
  have h0 : (f.dX * f.Ys + f.X * f.dYs) = fun _ => (0 : ℝ) := by
    funext v
    have h := (f.X_d v).mul (f.Ys_d v)
    have h0 : (f.X * f.Ys) = fun _ => (i.cfg.sG * i.cfg.spsi : ℝ) := funext f.area
    rw [h0] at h
    exact h.unique (hasDerivAt_const _ _)
  have h := (f.X_dd.mul (f.Ys_d f.u)).add ((f.X_d f.u).mul f.Ys_dd)
  rw [h0] at h
  have := h.unique (hasDerivAt_const _ _)
  rw [f.X_u, f.Ys_u, f.dX_u, f.dYs_u] at this
  linear_combination this

variable (x : Nat → ℝ)

theorem Profiles.smooth : GradGradB.Smooth (At.of i (finish realOps i x) j) where
  one := f.product
  two := by
    have := f.product2
    simp only [At.of, der_eq]
    exact this

theorem Profiles.gradB_at : f.gradB f.u = R1.gradB i.cfg i.r1 j := by
  funext m k
  simp only [Profiles.gradB, R1.gradB, f.X_u, f.Ys_u, f.Yc_u, f.dX_u, f.dYs_u, f.dYc_u, f.kap_u, f.tor_u]

theorem Profiles.gradB_deriv (ok : Ready i) (m k : Nat) :
    HasDerivAt (fun v => f.gradB v m k) (dGradM (At.of i (finish realOps i x) j) m k) f.u := by
  have hX := f.X_d f.u
  have hs := f.Ys_d f.u
  have hc := f.Yc_d f.u
  rw [f.dX_u] at hX
  rw [f.dYs_u] at hs
  rw [f.dYc_u] at hc
  unfold Profiles.gradB R1.gradB dGradM
  simp only [ok.dl]
  simp only [At.of, der_eq, ← f.X_u, ← f.Ys_u, ← f.Yc_u]
  split
  · exact f.kap_d.const_mul _
  · exact f.kap_d.const_mul _
  · have h := ((hX.mul f.Ys_dd).sub ((hX.mul hc).const_mul i.r1.iotaN)).const_mul
      (i.cfg.spsi * i.cfg.B0 / i.G0overB0)
    refine (h.congr_of_eventuallyEq (Filter.Eventually.of_forall fun v => ?_)).congr_deriv ?_
    · simp only [Pi.mul_apply, Pi.sub_apply, Pi.add_apply]; ring
    · simp [f.dYs_u]
  · have h := ((f.X_dd.mul hs).add ((hX.mul hc).const_mul i.r1.iotaN)).const_mul
      (i.cfg.spsi * i.cfg.B0 / i.G0overB0)
    refine (h.congr_of_eventuallyEq (Filter.Eventually.of_forall fun v => ?_)).congr_deriv ?_
    · simp only [Pi.mul_apply, Pi.sub_apply, Pi.add_apply]; ring
    · simp [f.dX_u]
  · have h := ((f.tor_d.const_mul (-i.cfg.sG * i.cfg.spsi * i.G0overB0)).sub
      ((hX.mul hX).const_mul i.r1.iotaN)).const_mul (i.cfg.spsi * i.cfg.B0 / i.G0overB0)
    refine (h.congr_of_eventuallyEq (Filter.Eventually.of_forall fun v => ?_)).congr_deriv ?_
    · simp only [Pi.mul_apply, Pi.sub_apply, Pi.add_apply]; ring
    · change _ = i.cfg.spsi * i.cfg.B0 / i.G0overB0 * (-i.cfg.sG * i.cfg.spsi * i.G0overB0 *
        der i i.cfg.torsion j - 2 * i.r1.iotaN * f.X f.u * i.r1.dX1c j)
      ring
  · have h := ((((f.Yc_dd.mul hs).sub (f.Ys_dd.mul hc)).add
      (f.tor_d.const_mul (i.cfg.sG * i.cfg.spsi * i.G0overB0))).add
      (((hs.mul hs).add (hc.mul hc)).const_mul i.r1.iotaN)).const_mul (i.cfg.spsi * i.cfg.B0 / i.G0overB0)
    refine (h.congr_of_eventuallyEq (Filter.Eventually.of_forall fun v => ?_)).congr_deriv ?_
    · simp only [Pi.mul_apply, Pi.sub_apply, Pi.add_apply]
    · change _ = i.cfg.spsi * i.cfg.B0 / i.G0overB0 * (der i i.r1.dY1c j * f.Ys f.u -
        der i i.r1.dY1s j * f.Yc f.u + i.cfg.sG * i.cfg.spsi * i.G0overB0 * der i i.cfg.torsion j +
        2 * i.r1.iotaN * (f.Ys f.u * i.r1.dY1s j + f.Yc f.u * i.r1.dY1c j))
      rw [f.dYs_u, f.dYc_u]; ring
  · split <;> first | exact hasDerivAt_const _ _ | simp_all

end

section
variable {i : In ℝ} (ok : Ready i) (x : Nat → ℝ) {j : Nat} (hj : j < i.cfg.nphi) (f : Profiles i j)
include ok hj f

/-- **C66.** The alternative calculation gives the same tensor. -/
theorem alternative (m n k : Nat) :
    main (At.of i (finish realOps i x) j) m n k = alt (At.of i (finish realOps i x) j) m n k := by
  have h := first_of ok x hj
  have q := second_of ok x hj
  have s := f.smooth x
  have s1 := s.toSmooth1
  unfold main alt
  split
  · exact same000 h q s1
  · exact same001 h q s1
  · exact same002 h q s1
  · exact same010 h q s1
  · exact same011 h q s1
  · exact same012 h q s1
  · exact same020 h q s1
  · exact same021 h q s
  · exact same022 h q s1
  · exact same100 h q s1
  · exact same101 h q s1
  · exact same102 h q s1
  · exact same110 h q s1
  · exact same111 h q s1
  · exact same112 h q s1
  · exact same120 h q s1
  · exact same121 h q s
  · exact same122 h q s1
  · exact same200 h q s1
  · exact same201 h q s
  · exact same202 h q s1
  · exact same210 h q s1
  · exact same211 h q s
  · exact same212 h q s1
  · exact same220 h q s1
  · exact same221 h q s1
  · exact same222 h q s1
  · rfl

/-- **C65.** The order of the two directions does not matter. -/
theorem symmetric {m n k : Nat} (hm : m < 3) (hn : n < 3) (hk : k < 3) :
    main (At.of i (finish realOps i x) j) m n k = main (At.of i (finish realOps i x) j) n m k := by
  have h := first_of ok x hj
  have s := f.smooth x
  have s1 := s.toSmooth1
  rw [alternative ok x hj f, alternative ok x hj f]
  match m, n, k, hm, hn, hk with
  | 0, 0, _, _, _, _ => rfl
  | 1, 1, _, _, _, _ => rfl
  | 2, 2, _, _, _, _ => rfl
  | 0, 1, 0, _, _, _ => exact symm010 h s1
  | 0, 1, 1, _, _, _ => exact symm011 h s1
  | 0, 1, 2, _, _, _ => exact symm012 h s1
  | 0, 2, 0, _, _, _ => exact symm020 h s1
  | 0, 2, 1, _, _, _ => exact symm021 h s
  | 0, 2, 2, _, _, _ => exact symm022 h s1
  | 1, 2, 0, _, _, _ => exact symm120 h s1
  | 1, 2, 1, _, _, _ => exact symm121 h s
  | 1, 2, 2, _, _, _ => exact symm122 h s1
  | 1, 0, 0, _, _, _ => exact (symm010 h s1).symm
  | 1, 0, 1, _, _, _ => exact (symm011 h s1).symm
  | 1, 0, 2, _, _, _ => exact (symm012 h s1).symm
  | 2, 0, 0, _, _, _ => exact (symm020 h s1).symm
  | 2, 0, 1, _, _, _ => exact (symm021 h s).symm
  | 2, 0, 2, _, _, _ => exact (symm022 h s1).symm
  | 2, 1, 0, _, _, _ => exact (symm120 h s1).symm
  | 2, 1, 1, _, _, _ => exact (symm121 h s).symm
  | 2, 1, 2, _, _, _ => exact (symm122 h s1).symm

/-- **C65.** With the tangent as one direction, the tensor is the derivative of the grad B tensor along the
axis, in the turning frame. -/
theorem along_axis {m k : Nat} (hm : m < 3) (hk : k < 3) :
    ∃ A' : Nat → Nat → ℝ, (∀ m k, HasDerivAt (fun v => f.gradB v m k) (A' m k) f.u) ∧
      main (At.of i (finish realOps i x) j) 2 m k =
        along i.G0overB0 (i.cfg.curvature j) (i.cfg.torsion j) (f.gradB f.u) A' m k := by
  refine ⟨dGradM (At.of i (finish realOps i x) j), fun m k => f.gradB_deriv x ok m k, ?_⟩
  have h := first_of ok x hj
  have s := f.smooth x
  have g := gradM_of ok x (j := j)
  rw [alternative ok x hj f, f.gradB_at, ← g]
  exact along_eq h s hm hk

end

/-! ## The length scale -/

section
variable {i : In ℝ} (ok : Ready i) (x : Nat → ℝ) {j : Nat} (hj : j < i.cfg.nphi)
include ok hj

/-- **C67.** `L_grad_grad_B` is positive; its square times the norm of the tensor over all 27 entries is
`4 B0`; and `L_grad_grad_B_inverse` is its inverse. -/
theorem length_scale (hB : 0 < i.cfg.B0) :
    let a := At.of i (finish realOps i x) j
    let L := LgradGradB realOps a
    0 < L ∧ L ^ 2 * Real.sqrt (∑ l ∈ Finset.range 3, ∑ m ∈ Finset.range 3, ∑ k ∈ Finset.range 3,
      main a l m k ^ 2) = 4 * i.cfg.B0 ∧ LgradGradBInverse realOps a * L = 1 := by
  intro a L
  have h := first_of ok x hj
  have h222 : main a 2 2 2 ≠ 0 := by
    have e : main a 2 2 2 = main222 a := rfl
    rw [e, main222_eq h]
    have hk : a.kap ≠ 0 := ok.kappa j hj
    have hs : a.sG ≠ 0 := by rcases h.sG with g | g <;> rw [g] <;> norm_num
    exact neg_ne_zero.2 (mul_ne_zero two_ne_zero (mul_ne_zero (mul_ne_zero hs h.B0) (pow_ne_zero 2 hk)))
  have hL : L = Real.sqrt (4 * i.cfg.B0 / Real.sqrt (∑ l ∈ Finset.range 3, ∑ m ∈ Finset.range 3,
      ∑ k ∈ Finset.range 3, main a l m k ^ 2)) := by
    simp only [L, LgradGradB, Finset.sum_range_succ, Finset.sum_range_zero, realOps, zero_add]
    congr 3
    ring
  have hpos : 0 < ∑ l ∈ Finset.range 3, ∑ m ∈ Finset.range 3, ∑ k ∈ Finset.range 3, main a l m k ^ 2 := by
    refine lt_of_lt_of_le (pow_pos (abs_pos.2 h222) 2) ?_
    rw [sq_abs]
    refine le_trans ?_ (Finset.single_le_sum (f := fun l => ∑ m ∈ Finset.range 3, ∑ k ∈ Finset.range 3,
      main a l m k ^ 2) (fun _ _ => by positivity) (Finset.mem_range.2 (by norm_num : 2 < 3)))
    refine le_trans ?_ (Finset.single_le_sum (f := fun m => ∑ k ∈ Finset.range 3,
      main a 2 m k ^ 2) (fun _ _ => by positivity) (Finset.mem_range.2 (by norm_num : 2 < 3)))
    exact Finset.single_le_sum (f := fun k => main a 2 2 k ^ 2) (fun _ _ => by positivity)
      (Finset.mem_range.2 (by norm_num : 2 < 3))
  generalize ∑ l ∈ Finset.range 3, ∑ m ∈ Finset.range 3, ∑ k ∈ Finset.range 3, main a l m k ^ 2 = S at *
  have hr := Real.sqrt_pos.2 hpos
  have hq : 0 < 4 * i.cfg.B0 / Real.sqrt S := by positivity
  have hL0 : 0 < L := by rw [hL]; exact Real.sqrt_pos.2 hq
  refine ⟨hL0, ?_, ?_⟩
  · rw [hL, Real.sq_sqrt hq.le, div_mul_cancel₀ _ hr.ne']
  · change 1 / L * L = 1
    field_simp

end

/-- **C67.** The reported minimum is the smallest value on the grid. -/
theorem length_scale_min (i : In ℝ) (x : Nat → ℝ) (hn : 0 < i.cfg.nphi) :
    let r := finish realOps i x
    (∀ j < i.cfg.nphi, minLgradGradB realOps i r ≤ LgradGradB realOps (At.of i r j)) ∧
      ∃ j < i.cfg.nphi, minLgradGradB realOps i r = LgradGradB realOps (At.of i r j) :=
  vmin_spec i.cfg.nphi hn _

/-- What the scale means: for the field of a straight wire it is the distance from the wire. -/
theorem wire_scale {ρ : ℝ} (hρ : 0 < ρ) :
    let Bx := fun x y : ℝ => (wire x y).n
    let By := fun x y : ℝ => (wire x y).b
    let xx := fun F : ℝ → ℝ → ℝ => deriv (fun x => deriv (fun x => F x 0) x) ρ
    let xy := fun F : ℝ → ℝ → ℝ => deriv (fun x => deriv (fun y => F x y) 0) ρ
    let yy := fun F : ℝ → ℝ → ℝ => deriv (fun y => deriv (fun y => F ρ y) y) 0
    Real.sqrt (4 * By ρ 0 / Real.sqrt (xx Bx ^ 2 + 2 * xy Bx ^ 2 + yy Bx ^ 2 + (xx By ^ 2 + 2 * xy By ^ 2 +
      yy By ^ 2))) = ρ := by
  intro Bx By xx xy yy
  have hne : ∀ x y : ℝ, x ≠ 0 → x ^ 2 + y ^ 2 ≠ 0 := fun x y hx => by positivity
  have hy : ∀ x y : ℝ, HasDerivAt (fun y => x ^ 2 + y ^ 2) (2 * y) y := fun x y => by
    simpa using (hasDerivAt_pow 2 y).const_add (x ^ 2)
  have near : ∀ᶠ x in nhds ρ, x ≠ 0 := (isOpen_ne.mem_nhds hρ.ne' : {x : ℝ | x ≠ 0} ∈ nhds ρ)
  have e1 : xx Bx = 0 := by simp [xx, Bx, wire]
  have e2 : xx By = 2 / ρ ^ 3 := by
    have h1 : (fun x => By x 0) = fun x => x⁻¹ := by
      funext x
      simp only [By, wire]
      by_cases hx : x = 0
      · simp [hx]
      · field_simp; ring
    simp only [xx, h1, deriv_inv]
    have h2 := ((hasDerivAt_pow 2 ρ).fun_inv (by positivity)).fun_neg
    rw [h2.deriv]
    field_simp
    norm_num [mul_comm]
  have d1 : ∀ x, x ≠ 0 → ∀ y, HasDerivAt (fun y => Bx x y) ((y ^ 2 - x ^ 2) / (x ^ 2 + y ^ 2) ^ 2) y := by
    intro x hx y
    have h := ((hasDerivAt_id' y).fun_neg).fun_div (hy x y) (hne x y hx)
    refine h.congr_deriv ?_
    ring
  have d2 : ∀ x, x ≠ 0 → ∀ y, HasDerivAt (fun y => By x y) (-(2 * x * y) / (x ^ 2 + y ^ 2) ^ 2) y := by
    intro x hx y
    have h := (hasDerivAt_const y x).fun_div (hy x y) (hne x y hx)
    refine h.congr_deriv ?_
    ring
  have e3 : xy Bx = 2 / ρ ^ 3 := by
    have h1 : (fun x => deriv (fun y => Bx x y) 0) =ᶠ[nhds ρ] fun x => -(x ^ 2)⁻¹ := by
      filter_upwards [near] with x hx
      rw [(d1 x hx 0).deriv]
      field_simp
      ring
    simp only [xy]
    rw [h1.deriv_eq, (((hasDerivAt_pow 2 ρ).fun_inv (by positivity)).fun_neg).deriv]
    field_simp
    norm_num [mul_comm]
  have e4 : xy By = 0 := by
    have h1 : (fun x => deriv (fun y => By x y) 0) =ᶠ[nhds ρ] fun _ => 0 := by
      filter_upwards [near] with x hx
      rw [(d2 x hx 0).deriv]
      simp
    simp only [xy]
    rw [h1.deriv_eq, deriv_const]
  have hsq : HasDerivAt (fun y => (ρ ^ 2 + y ^ 2) ^ 2) 0 0 := by
    simpa using (hy ρ 0).fun_pow 2
  have hs0 : (ρ ^ 2 + 0 ^ 2) ^ 2 ≠ 0 := pow_ne_zero 2 (hne ρ 0 hρ.ne')
  have e5 : yy Bx = 0 := by
    have h1 : (fun y => deriv (fun y => Bx ρ y) y) = fun y => (y ^ 2 - ρ ^ 2) / (ρ ^ 2 + y ^ 2) ^ 2 :=
      funext fun y => (d1 ρ hρ.ne' y).deriv
    simp only [yy, h1]
    have := ((hasDerivAt_pow 2 (0 : ℝ)).sub_const (ρ ^ 2)).fun_div hsq hs0
    rw [this.deriv]
    simp
  have e6 : yy By = -(2 / ρ ^ 3) := by
    have h1 : (fun y => deriv (fun y => By ρ y) y) = fun y => -(2 * ρ * y) / (ρ ^ 2 + y ^ 2) ^ 2 :=
      funext fun y => (d2 ρ hρ.ne' y).deriv
    simp only [yy, h1]
    have := (((hasDerivAt_id' (0 : ℝ)).const_mul (2 * ρ)).fun_neg).fun_div hsq hs0
    rw [this.deriv]
    simp
    field_simp
  have e7 : By ρ 0 = 1 / ρ := by simp only [By, wire]; field_simp; ring
  rw [e1, e2, e3, e4, e5, e6, e7]
  have h4 : (0 : ℝ) ^ 2 + 2 * (2 / ρ ^ 3) ^ 2 + 0 ^ 2 + ((2 / ρ ^ 3) ^ 2 + 2 * 0 ^ 2 + (-(2 / ρ ^ 3)) ^ 2) =
      (4 / ρ ^ 3) ^ 2 := by ring
  rw [h4, Real.sqrt_sq (by positivity)]
  have h5 : 4 * (1 / ρ) / (4 / ρ ^ 3) = ρ ^ 2 := by field_simp
  rw [h5, Real.sqrt_sq hρ.le]

/-! ## The hypotheses hold after `init_axis` -/

theorem ready_after_init_axis (c : Axis.Coeffs ℝ) (hc : c.WellSized) (M : Nat) (sG spsi : Int)
    (etaBar sigma0 I2 B0 mu0 p2 B2s B2c : ℝ) (a : Axis.Axis ℝ)
    (h : Axis.initAxis realOps c (2 * M + 1) sG spsi B0 = .ok a) (hn : 0 < c.nfp)
    (hR : ∀ k < 2 * M + 1, Axis.Rf c (a.phi k) ≠ 0) (hsG : sG = 1 ∨ sG = -1) (hsp : spsi = 1 ∨ spsi = -1)
    (hB : B0 ≠ 0) (he : etaBar ≠ 0) (hk : ∀ k < 2 * M + 1, (a.loc k).curvature ≠ 0) (q : R1.Stored ℝ) :
    let p := R1.Cfg.ofAxis a (2 * M + 1) c.nfp sG spsi etaBar sigma0 I2 B0
    Ready (In.of a p q (R1.diagnostics realOps p q) mu0 p2 B2s B2c) := by
  intro p
  obtain ⟨g1, g2, g3, g4, -⟩ := Axis.averages hc h hn hR
  exact ⟨(ok_after_init_axis c hc M sG spsi etaBar sigma0 I2 B0 mu0 p2 B2s B2c a h hn hR hsG hsp hB he hk q).1,
    by change a.dlDvarphi = a.G0overB0; rw [g2, g3]⟩

/-! ## A configuration that meets the hypotheses -/

/-- Two grid points; curvature 1 and 2, torsion 1 and 2. -/
noncomputable def cfg2 : R1.Cfg ℝ :=
  { R1.sample with
    nphi := 2, etaBar := 2, curvature := fun j => j + 1, torsion := fun j => j + 1
    dDvarphi := fun j k => if j = 0 then (if k = 0 then -5 else 4) else 1 }

noncomputable def sample2 : In ℝ :=
  { cfg := cfg2, st := ⟨1, fun _ => 1⟩, r1 := R1.diagnostics realOps cfg2 ⟨1, fun _ => 1⟩
    B0overG0 := 1, G0overB0 := 1, mu0 := 1, p2 := -1, B2s := 1, B2c := 2 }

theorem sample2_ready : Ready sample2 where
  r1 := rfl
  l := by simp [sample2]
  bl := by simp [sample2]
  G0 := by simp [sample2, cfg2, R1.sample]
  sG := Or.inl rfl
  spsi := Or.inr rfl
  B0 := by simp [sample2, cfg2, R1.sample]
  eta := by simp [sample2, cfg2]
  kappa := fun j _ => by simp only [sample2, cfg2]; positivity
  dl := by simp [sample2, cfg2, R1.sample]

theorem exp_pos_d (v : ℝ) : HasDerivAt (fun v : ℝ => Real.exp (3 * v - 6 * v ^ 2))
    ((3 - 12 * v) * Real.exp (3 * v - 6 * v ^ 2)) v := by
  have h := (((hasDerivAt_id' v).const_mul 3).fun_sub ((hasDerivAt_pow 2 v).const_mul 6)).exp
  refine h.congr_deriv ?_
  norm_num
  ring

theorem exp_neg_d (v : ℝ) : HasDerivAt (fun v : ℝ => Real.exp (-3 * v + 6 * v ^ 2))
    ((-3 + 12 * v) * Real.exp (-3 * v + 6 * v ^ 2)) v := by
  have h := (((hasDerivAt_id' v).const_mul (-3)).fun_add ((hasDerivAt_pow 2 v).const_mul 6)).exp
  refine h.congr_deriv ?_
  norm_num
  ring

theorem half_d (v : ℝ) : HasDerivAt (fun v : ℝ => -(1 / 2) * Real.exp (3 * v - 6 * v ^ 2))
    ((-(3 / 2) + 6 * v) * Real.exp (3 * v - 6 * v ^ 2)) v :=
  ((exp_pos_d v).const_mul (-(1 / 2))).congr_deriv (by ring)

theorem half_dd : HasDerivAt (fun v : ℝ => (-(3 / 2) + 6 * v) * Real.exp (3 * v - 6 * v ^ 2)) (3 / 2) 0 := by
  have h := (((hasDerivAt_id' (0 : ℝ)).const_mul 6).const_add (-(3 / 2))).fun_mul (exp_pos_d 0)
  refine h.congr_deriv ?_
  norm_num

/-- The functions `2 exp (-3 v + 6 v^2)` and so on. -/
noncomputable def profiles2 : Profiles sample2 0 where
  X v := 2 * Real.exp (-3 * v + 6 * v ^ 2)
  Ys v := -(1 / 2) * Real.exp (3 * v - 6 * v ^ 2)
  Yc v := -(1 / 2) * Real.exp (3 * v - 6 * v ^ 2)
  kap v := Real.exp (3 * v - 6 * v ^ 2)
  tor v := 1 + 3 * v
  dX v := (-6 + 24 * v) * Real.exp (-3 * v + 6 * v ^ 2)
  dYs v := (-(3 / 2) + 6 * v) * Real.exp (3 * v - 6 * v ^ 2)
  dYc v := (-(3 / 2) + 6 * v) * Real.exp (3 * v - 6 * v ^ 2)
  u := 0
  X_d v := ((exp_neg_d v).const_mul 2).congr_deriv (by ring)
  Ys_d := half_d
  Yc_d := half_d
  area v := by
    have h : Real.exp (-3 * v + 6 * v ^ 2) * Real.exp (3 * v - 6 * v ^ 2) = 1 := by
      rw [← Real.exp_add, ← Real.exp_zero]; congr 1; ring
    simp only [sample2, cfg2, R1.sample, Int.cast_one, Int.cast_neg]
    linear_combination -h
  X_u := by simp [sample2, cfg2, R1.diagnostics]
  Ys_u := by simp [sample2, cfg2, R1.sample, R1.diagnostics]; norm_num
  Yc_u := by simp [sample2, cfg2, R1.sample, R1.diagnostics]; norm_num
  kap_u := by simp [sample2, cfg2]
  tor_u := by simp [sample2, cfg2]
  dX_u := by simp [sample2, cfg2, R1.diagnostics, matVec, vsum_eq, Finset.sum_range_succ]; norm_num
  dYs_u := by simp [sample2, cfg2, R1.sample, R1.diagnostics, matVec, vsum_eq, Finset.sum_range_succ]; norm_num
  dYc_u := by simp [sample2, cfg2, R1.sample, R1.diagnostics, matVec, vsum_eq, Finset.sum_range_succ]; norm_num
  X_dd := by
    have h := (((hasDerivAt_id' (0 : ℝ)).const_mul 24).const_add (-6)).fun_mul (exp_neg_d 0)
    refine h.congr_deriv ?_
    simp [der, sample2, cfg2, R1.sample, R1.diagnostics, matVec, vsum_eq, Finset.sum_range_succ]; norm_num
  Ys_dd := half_dd.congr_deriv (by
    simp [der, sample2, cfg2, R1.sample, R1.diagnostics, matVec, vsum_eq, Finset.sum_range_succ]; norm_num)
  Yc_dd := half_dd.congr_deriv (by
    simp [der, sample2, cfg2, R1.sample, R1.diagnostics, matVec, vsum_eq, Finset.sum_range_succ]; norm_num)
  kap_d := (exp_pos_d 0).congr_deriv (by
    simp [der, sample2, cfg2, R1.sample, R1.diagnostics, matVec, vsum_eq, Finset.sum_range_succ]; norm_num)
  tor_d := (((hasDerivAt_id' (0 : ℝ)).const_mul 3).const_add 1).congr_deriv (by
    simp [der, sample2, cfg2, R1.sample, R1.diagnostics, matVec, vsum_eq, Finset.sum_range_succ]; norm_num)

/-- The product rule hypothesis of `second_derivative`, with profiles that change along the axis. -/
example : Product sample2 0 ∧ sample2.r1.dX1c 0 ≠ 0 := by
  refine ⟨profiles2.product, ?_⟩
  rw [← profiles2.dX_u]
  norm_num [profiles2]

end Qsc.GradGradB
