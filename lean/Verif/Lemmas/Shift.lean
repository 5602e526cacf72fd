import Verif.Lemmas.ScalingRun
import Verif.Spec.Shift

/-!
# Lemmas on shifts along the axis of symmetry
-/

namespace Qsc.Shift
open Qsc.Axis Qsc.Single Qsc.Toml Qsc.Spec.Shift

noncomputable def movePt (h : ℝ) (p : Pt ℝ) : Pt ℝ := { p with Z0 := p.Z0 + h }

theorem addMode_move (h : ℝ) (nfp : Nat) (φ : ℝ) (p : Pt ℝ) (m : Mode ℝ) :
    addMode realOps nfp φ (movePt h p) m = movePt h (addMode realOps nfp φ p m) := by
  simp only [addMode, movePt, Pt.mk.injEq, and_true, true_and]
  ring

theorem foldl_move (h : ℝ) (nfp : Nat) (φ : ℝ) (ms : List (Mode ℝ)) (p : Pt ℝ) :
    ms.foldl (addMode realOps nfp φ) (movePt h p) = movePt h (ms.foldl (addMode realOps nfp φ) p) := by
  induction ms generalizing p with
  | nil => rfl
  | cons m ms ih => rw [List.foldl_cons, List.foldl_cons, addMode_move, ih]

theorem addMode_zero (nfp : Nat) (φ : ℝ) (p : Pt ℝ) (n : Nat) : addMode realOps nfp φ p ⟨n, 0, 0, 0, 0⟩ = p := by
  simp only [addMode, zero_mul, add_zero]

/-- The sum over all modes below `N`. -/
noncomputable def upTo (c : Coeffs ℝ) (N : Nat) (φ : ℝ) (p : Pt ℝ) : Pt ℝ :=
  (((List.range N).drop 1).map (modeAt c)).foldl (addMode realOps c.nfp φ) p

theorem range_drop (N : Nat) : (List.range (N + 1)).drop 1 = (List.range N).map (· + 1) := by
  rw [List.range_succ_eq_map]; rfl

theorem upTo_succ (c : Coeffs ℝ) {N : Nat} (hN : 0 < N) (φ : ℝ) (p : Pt ℝ) :
    upTo c (N + 1) φ p = addMode realOps c.nfp φ (upTo c N φ p) (modeAt c N) := by
  obtain ⟨K, rfl⟩ : ∃ K, N = K + 1 := ⟨N - 1, by omega⟩
  unfold upTo
  rw [range_drop, range_drop, List.range_succ]
  simp only [List.map_append, List.map_cons, List.map_nil, List.foldl_append, List.foldl_cons, List.foldl_nil]

theorem upTo_more {c : Coeffs ℝ} (hc : c.WellSized) (k : Nat) (φ : ℝ) (p : Pt ℝ) :
    upTo c (c.R0c.length + k) φ p = upTo c c.R0c.length φ p := by
  induction k with
  | zero => rfl
  | succ k ih =>
    have hp := hc.pos
    rw [← add_assoc, upTo_succ c (by omega), ih]
    have e : modeAt c (c.R0c.length + k) = ⟨c.R0c.length + k, 0, 0, 0, 0⟩ := by
      have h1 := hc.R0s
      have h2 := hc.Z0c
      have h3 := hc.Z0s
      simp only [modeAt]
      simp only [List.getD_eq_getElem?_getD]
      rw [List.getElem?_eq_none (by omega), List.getElem?_eq_none (by omega), List.getElem?_eq_none (by omega),
        List.getElem?_eq_none (by omega)]
      rfl
    rw [e, addMode_zero]

/-- The coefficients describe the same curve, moved. -/
structure CoeffsRel (h : ℝ) (c c' : Coeffs ℝ) : Prop where
  nfp : c'.nfp = c.nfp
  R0 : c'.R0c.getD 0 0 = c.R0c.getD 0 0
  Z0 : c'.Z0c.getD 0 0 = c.Z0c.getD 0 0 + h
  mode : ∀ n ≠ 0, modeAt c' n = modeAt c n

theorem upTo_rel {h : ℝ} {c c' : Coeffs ℝ} (r : CoeffsRel h c c') (N : Nat) (φ : ℝ) (p : Pt ℝ) :
    upTo c' N φ p = upTo c N φ p := by
  unfold upTo
  rw [r.nfp]
  congr 1
  apply List.map_congr_left
  intro n hn
  refine r.mode n ?_
  rintro rfl
  cases N with
  | zero => simp at hn
  | succ N => rw [range_drop] at hn; simp at hn

theorem point_rel {h : ℝ} {c c' : Coeffs ℝ} (hc : c.WellSized) (hc' : c'.WellSized) (r : CoeffsRel h c c') (φ : ℝ) :
    point realOps c.nfp (c'.R0c.getD 0 0) (c'.Z0c.getD 0 0) (((List.range c'.R0c.length).drop 1).map (modeAt c')) φ
      = movePt h (point realOps c.nfp (c.R0c.getD 0 0) (c.Z0c.getD 0 0) (((List.range c.R0c.length).drop 1).map (modeAt c)) φ) := by
  rw [← r.nfp]
  change upTo c' c'.R0c.length φ _ = movePt h (point realOps c'.nfp _ _ _ _)
  rw [r.nfp]
  change _ = movePt h (upTo c c.R0c.length φ _)
  rw [r.R0, r.Z0, ← upTo_more hc' c.R0c.length, upTo_rel r, ← upTo_more hc c'.R0c.length, add_comm c'.R0c.length]
  unfold upTo
  exact foldl_move h c.nfp φ _ ⟨_, c.Z0c.getD 0 0, 0, 0, 0, 0, 0, 0⟩

theorem localOf_move (h : ℝ) (p : Pt ℝ) : localOf realOps (movePt h p) = localOf realOps p := rfl

noncomputable def moveAxis (h : ℝ) (x : Axis ℝ) : Axis ℝ :=
  { x with pt := fun j => movePt h (x.pt j), meanZ := x.meanZ + h }

theorem mean_move {S T d k L h : ℝ} (hL : L = S * d * k) (h0 : h = 0 ∨ L ≠ 0) :
    (T + h * S) * d * k / L = T * d * k / L + h := by
  rcases h0 with rfl | h0
  · simp
  · have : h * S * d * k / L = h := by rw [div_eq_iff h0, hL]; ring
    rw [add_mul, add_mul, add_div, this]

theorem axisData_rel {h : ℝ} {c c' : Coeffs ℝ} (hc : c.WellSized) (hc' : c'.WellSized) (r : CoeffsRel h c c')
    (n : Nat) (sG : Int) (B0 : ℝ) (D : Nat → Nat → ℝ) (k : Int) {x : Axis ℝ}
    (hx : x = axisData realOps c.nfp n sG B0 (c.R0c.getD 0 0) (c.Z0c.getD 0 0)
      (((List.range c.R0c.length).drop 1).map (modeAt c)) D k) (h0 : h = 0 ∨ x.axisLength ≠ 0) :
    axisData realOps c'.nfp n sG B0 (c'.R0c.getD 0 0) (c'.Z0c.getD 0 0)
      (((List.range c'.R0c.length).drop 1).map (modeAt c')) D k = moveAxis h x := by
  have hs : ∀ f g : Nat → ℝ, vsum n (fun j => (f j + h) * g j) = vsum n (fun j => f j * g j) + h * vsum n g := by
    intro f g
    simp only [vsum_eq, add_mul, Finset.sum_add_distrib, Finset.mul_sum]
  have hm : ((axisData realOps c'.nfp n sG B0 (c'.R0c.getD 0 0) (c'.Z0c.getD 0 0)
      (((List.range c'.R0c.length).drop 1).map (modeAt c')) D k).meanZ) = x.meanZ + h := by
    subst hx
    simp only [axisData, point_rel hc hc' r, localOf_move, r.nfp] at h0 ⊢
    simp only [movePt, hs]
    exact mean_move rfl h0
  have e : ∀ a b : ℝ, a + h - (b + h) = a - b := fun a b => by ring
  have hd : ((axisData realOps c'.nfp n sG B0 (c'.R0c.getD 0 0) (c'.Z0c.getD 0 0)
      (((List.range c'.R0c.length).drop 1).map (modeAt c')) D k).sdZ) = x.sdZ := by
    have hm' := hm
    subst hx
    simp only [axisData] at hm' ⊢
    rw [hm']
    simp only [point_rel hc hc' r, localOf_move, r.nfp]
    simp only [movePt, e]
  have hall : (axisData realOps c'.nfp n sG B0 (c'.R0c.getD 0 0) (c'.Z0c.getD 0 0)
      (((List.range c'.R0c.length).drop 1).map (modeAt c')) D k) = { moveAxis h x with
        meanZ := ((axisData realOps c'.nfp n sG B0 (c'.R0c.getD 0 0) (c'.Z0c.getD 0 0)
          (((List.range c'.R0c.length).drop 1).map (modeAt c')) D k).meanZ)
        sdZ := ((axisData realOps c'.nfp n sG B0 (c'.R0c.getD 0 0) (c'.Z0c.getD 0 0)
          (((List.range c'.R0c.length).drop 1).map (modeAt c')) D k).sdZ) } := by
    subst hx
    simp only [axisData, moveAxis, point_rel hc hc' r, localOf_move, r.nfp]
    rfl
  rw [hall, hm, hd]
  rfl

theorem initAxis_rel {h : ℝ} {c c' : Coeffs ℝ} (hc : c.WellSized) (hc' : c'.WellSized) (r : CoeffsRel h c c')
    (M : Nat) (sG spsi : Int) (B0 : ℝ) {x : Axis ℝ} (hx : initAxis realOps c (2 * M + 1) sG spsi B0 = .ok x)
    (h0 : h = 0 ∨ x.axisLength ≠ 0) : initAxis realOps c' (2 * M + 1) sG spsi B0 = .ok (moveAxis h x) := by
  obtain ⟨k, e1, g1⟩ := initAxis_eq c hc M sG spsi B0
  obtain ⟨k', e2, g2⟩ := initAxis_eq c' hc' M sG spsi B0
  simp only [point_rel hc hc' r, localOf_move, r.nfp] at g2
  rw [g1] at g2
  injection g2 with g2
  subst g2
  rw [hx] at e1
  injection e1 with e1
  rw [e2, ← axisData_rel hc hc' r _ _ _ _ _ e1 h0, r.nfp]

/-- The input of the moved configuration, as the calculation uses it. -/
structure InputRel (h : ℝ) (q q' : QscIn ℝ) : Prop where
  coeffs : CoeffsRel h (coeffs q) (coeffs q')
  nfp : q'.nfp = q.nfp
  sG : q'.sG = q.sG
  spsi : q'.spsi = q.spsi
  B0 : q'.B0 = q.B0
  etaBar : q'.eta_bar = q.eta_bar
  sigma0 : q'.sigma0 = q.sigma0
  I2 : q'.I2 = q.I2
  p2 : q'.p2 = q.p2
  B2s : q'.B2s = q.B2s
  B2c : q'.B2c = q.B2c
  tol : q'.newton_tolerance = q.newton_tolerance
  N : q'.max_newton_iterations = q.max_newton_iterations
  M : q'.max_linesearch_iterations = q.max_linesearch_iterations
  nphi : q'.nphi = q.nphi
  order : q'.order_r_option = q.order_r_option

theorem inputRel {h : ℝ} {q q' : QscIn ℝ} (m : Moved h q q') : InputRel h q q' := by
  have e := m.rest
  have hn := congrArg QscIn.nfp e
  refine ⟨⟨(congrArg Int.toNat hn :), m.R0c 0, m.Z0c0, fun n h0 => ?_⟩, hn, (congrArg QscIn.sG e :), (congrArg QscIn.spsi e :),
    (congrArg QscIn.B0 e :), (congrArg QscIn.eta_bar e :), (congrArg QscIn.sigma0 e :), (congrArg QscIn.I2 e :),
    (congrArg QscIn.p2 e :), (congrArg QscIn.B2s e :), (congrArg QscIn.B2c e :), (congrArg QscIn.newton_tolerance e :),
    (congrArg QscIn.max_newton_iterations e :), (congrArg QscIn.max_linesearch_iterations e :), (congrArg QscIn.nphi e :),
    (congrArg QscIn.order_r_option e :)⟩
  simp only [modeAt, coeffs, m.R0c n, m.R0s n h0, m.Z0c n h0, m.Z0s n h0]

noncomputable def moveResult (h : ℝ) (r : Result ℝ) : Result ℝ := { r with axis := moveAxis h r.axis }

theorem calculate_rel {L : Lib ℝ} (ho : L.ops = realOps) {h : ℝ} {q q' : QscIn ℝ} (I : InputRel h q q')
    (hc : (coeffs q).WellSized) (hc' : (coeffs q').WellSized) {M : Nat} {ord : Setup.Order} {r : Result ℝ}
    (hr : calculate L q (2 * M + 1) ord = .ok r) (h0 : h = 0 ∨ r.axis.axisLength ≠ 0) :
    calculate L q' (2 * M + 1) ord = .ok (moveResult h r) := by
  have hx := calculate_axis ho hr
  have hx' := initAxis_rel hc hc' I.coeffs M q.sG q.spsi q.B0 hx h0
  have hf : ∀ n nfp sG spsi e s i b, R1.Cfg.ofAxis (moveAxis h r.axis) n nfp sG spsi e s i b
    = R1.Cfg.ofAxis r.axis n nfp sG spsi e s i b := fun _ _ _ _ _ _ _ _ => rfl
  have hi : ∀ p st r1 m a b c, R2.In.of (moveAxis h r.axis) p st r1 m a b c = R2.In.of r.axis p st r1 m a b c :=
    fun _ _ _ _ _ _ _ => rfl
  have h2 : ∀ i b, second L i (moveAxis h r.axis) b = second L i r.axis b := fun _ _ => rfl
  rw [calculate, ho, hx] at hr
  rw [calculate, ho, I.sG, I.spsi, I.B0, hx']
  dsimp only at hr ⊢
  rw [hf, I.nfp, I.etaBar, I.sigma0, I.I2, I.tol, I.N, I.M, I.p2, I.B2s, I.B2c]
  simp only [hi, h2]
  split at hr
  · cases hr
  · rename_i ht
    rw [if_neg ht]
    split at hr
    · cases hr
    · rename_i s st hs
      split at hr
      · rename_i h2
        rw [if_pos h2]
        split at hr
        · cases hr
        · rename_i d hd
          injection hr with hr
          rw [← hr]
          rfl
      · rename_i h2
        rw [if_neg h2]
        injection hr with hr
        rw [← hr]
        rfl

end Qsc.Shift
