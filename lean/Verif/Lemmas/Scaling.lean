import Verif.Lemmas.Axis
import Mathlib.Tactic.FieldSimp
import Mathlib.Analysis.Real.Sqrt

/-!
# Lemmas on changes of units: sums, extrema, the axis
-/

namespace Qsc.Scaling

theorem sqrt_scale {c : ℝ} (hc : 0 ≤ c) (x : ℝ) : Real.sqrt (c * c * x) = c * Real.sqrt x := by
  rw [Real.sqrt_mul (mul_self_nonneg c), Real.sqrt_mul_self hc]

theorem vsum_scale (n : Nat) (c : ℝ) (f : Nat → ℝ) : vsum n (fun j => c * f j) = c * vsum n f := by
  rw [vsum_eq, vsum_eq, Finset.mul_sum]

theorem matVec_scale (n : Nat) (D : Nat → Nat → ℝ) (c : ℝ) (f : Nat → ℝ) :
    matVec n D (fun j => c * f j) = fun j => c * matVec n D f j := by
  funext j
  simp only [matVec]
  rw [← vsum_scale]
  congr 1; funext k; ring

theorem vmin_scale (n : Nat) {c : ℝ} (hc : 0 < c) (f : Nat → ℝ) :
    vmin realOps n (fun j => c * f j) = c * vmin realOps n f := by
  unfold vmin
  generalize n - 1 = m
  induction m with
  | zero => rfl
  | succ m ih =>
    rw [forLoop_succ, forLoop_succ, ih]
    simp only [realOps, decide_eq_true_eq]
    by_cases h : f (m + 1) < forLoop m (fun j m => if f (j + 1) < m then f (j + 1) else m) (f 0)
    · rw [if_pos h, if_pos (mul_lt_mul_of_pos_left h hc)]
    · rw [if_neg h, if_neg fun h' => h (lt_of_mul_lt_mul_left h' hc.le)]

theorem vmax_scale (n : Nat) {c : ℝ} (hc : 0 < c) (f : Nat → ℝ) :
    vmax realOps n (fun j => c * f j) = c * vmax realOps n f := by
  unfold vmax
  generalize n - 1 = m
  induction m with
  | zero => rfl
  | succ m ih =>
    rw [forLoop_succ, forLoop_succ, ih]
    simp only [realOps, decide_eq_true_eq]
    by_cases h : forLoop m (fun j m => if m < f (j + 1) then f (j + 1) else m) (f 0) < f (m + 1)
    · rw [if_pos h, if_pos (mul_lt_mul_of_pos_left h hc)]
    · rw [if_neg h, if_neg fun h' => h (lt_of_mul_lt_mul_left h' hc.le)]

/-! ## The axis -/

open Qsc.Axis

def scaleMode (a : ℝ) (m : Mode ℝ) : Mode ℝ := ⟨m.n, a * m.rc, a * m.rs, a * m.zc, a * m.zs⟩

def scalePt (a : ℝ) (p : Pt ℝ) : Pt ℝ :=
  ⟨a * p.R0, a * p.Z0, a * p.R0p, a * p.Z0p, a * p.R0pp, a * p.Z0pp, a * p.R0ppp, a * p.Z0ppp⟩

theorem point_scale (a : ℝ) (nfp : Nat) (R00 Z00 : ℝ) (ms : List (Mode ℝ)) (phi : ℝ) :
    point realOps nfp (a * R00) (a * Z00) (ms.map (scaleMode a)) phi =
      scalePt a (point realOps nfp R00 Z00 ms phi) := by
  have key : ∀ (ms : List (Mode ℝ)) (p : Pt ℝ),
      (ms.map (scaleMode a)).foldl (addMode realOps nfp phi) (scalePt a p)
        = scalePt a (ms.foldl (addMode realOps nfp phi) p) := by
    intro ms
    induction ms with
    | nil => intro p; rfl
    | cons m ms ih =>
      intro p
      rw [List.map_cons, List.foldl_cons, List.foldl_cons, ← ih]
      congr 1
      simp only [addMode, scalePt, scaleMode, Pt.mk.injEq]
      refine ⟨?_, ?_, ?_, ?_, ?_, ?_, ?_, ?_⟩ <;> ring
  have := key ms ⟨R00, Z00, 0, 0, 0, 0, 0, 0⟩
  simpa [point, scalePt] using this

def scaleV (c : ℝ) (v : V3 ℝ) : V3 ℝ := ⟨c * v.x, c * v.y, c * v.z⟩

/-- Lengths grow, curvature and torsion shrink, directions stay. -/
noncomputable def scaleLocal (a : ℝ) (l : Local ℝ) : Local ℝ :=
  ⟨a * l.dl, a * l.d2l, l.tangent, scaleV a⁻¹ l.dTangent, a⁻¹ * l.curvature, l.normal, l.binormal, a⁻¹ * l.torsion⟩

theorem localOf_scale {a : ℝ} (ha : 0 < a) (p : Pt ℝ) :
    localOf realOps (scalePt a p) = scaleLocal a (localOf realOps p) := by
  have ha' : a ≠ 0 := ha.ne'
  have e1 : (localOf realOps (scalePt a p)).dl = a * (localOf realOps p).dl := by
    change Real.sqrt _ = a * Real.sqrt _
    rw [← sqrt_scale ha.le]; congr 1; simp only [scalePt]; ring
  have e2 : (localOf realOps (scalePt a p)).d2l = a * (localOf realOps p).d2l := by
    change _ / (localOf realOps (scalePt a p)).dl = a * (_ / (localOf realOps p).dl)
    rw [e1]; simp only [scalePt]; generalize (localOf realOps p).dl = d
    rw [show a * p.R0 * (a * p.R0p) + a * p.R0p * (a * p.R0pp) + a * p.Z0p * (a * p.Z0pp)
      = a * (a * (p.R0 * p.R0p + p.R0p * p.R0pp + p.Z0p * p.Z0pp)) from by ring,
      mul_div_mul_left _ _ ha', mul_div_assoc]
  have e3 : (localOf realOps (scalePt a p)).tangent = (localOf realOps p).tangent := by
    change (⟨_ / (localOf realOps (scalePt a p)).dl, _ / (localOf realOps (scalePt a p)).dl,
      _ / (localOf realOps (scalePt a p)).dl⟩ : V3 ℝ) =
      ⟨_ / (localOf realOps p).dl, _ / (localOf realOps p).dl, _ / (localOf realOps p).dl⟩
    rw [e1]; simp only [scalePt, Pt.d1, mul_div_mul_left _ _ ha']
  have quot : ∀ x d2 dl y : ℝ, (-(a * x) * (a * d2) / (a * dl) + a * y) / (a * dl * (a * dl))
      = a⁻¹ * ((-x * d2 / dl + y) / (dl * dl)) := by
    intro x d2 dl y
    rw [show -(a * x) * (a * d2) / (a * dl) = a * (-x * d2 / dl) from by
      rw [show -(a * x) * (a * d2) = a * (a * (-x * d2)) from by ring, mul_div_mul_left _ _ ha', mul_div_assoc],
      ← mul_add, show a * dl * (a * dl) = a * (a * (dl * dl)) from by ring, mul_div_mul_left _ _ ha',
      div_mul_eq_div_div, div_right_comm, div_eq_inv_mul]
  have e4 : (localOf realOps (scalePt a p)).dTangent = scaleV a⁻¹ (localOf realOps p).dTangent := by
    change (⟨(-_ * (localOf realOps (scalePt a p)).d2l / (localOf realOps (scalePt a p)).dl + _) /
        ((localOf realOps (scalePt a p)).dl * (localOf realOps (scalePt a p)).dl),
      (-_ * (localOf realOps (scalePt a p)).d2l / (localOf realOps (scalePt a p)).dl + _) /
        ((localOf realOps (scalePt a p)).dl * (localOf realOps (scalePt a p)).dl),
      (-_ * (localOf realOps (scalePt a p)).d2l / (localOf realOps (scalePt a p)).dl + _) /
        ((localOf realOps (scalePt a p)).dl * (localOf realOps (scalePt a p)).dl)⟩ : V3 ℝ) =
      ⟨a⁻¹ * ((-_ * (localOf realOps p).d2l / (localOf realOps p).dl + _) / ((localOf realOps p).dl * (localOf realOps p).dl)),
      a⁻¹ * ((-_ * (localOf realOps p).d2l / (localOf realOps p).dl + _) / ((localOf realOps p).dl * (localOf realOps p).dl)),
      a⁻¹ * ((-_ * (localOf realOps p).d2l / (localOf realOps p).dl + _) / ((localOf realOps p).dl * (localOf realOps p).dl))⟩
    rw [e1, e2]
    simp only [V3.mk.injEq]
    refine ⟨?_, ?_, ?_⟩ <;> (rw [← quot]; simp only [scalePt, Pt.d1, Pt.d2]; try (congr 2; ring))
  have e5 : (localOf realOps (scalePt a p)).curvature = a⁻¹ * (localOf realOps p).curvature := by
    change Real.sqrt ((localOf realOps (scalePt a p)).dTangent.x * (localOf realOps (scalePt a p)).dTangent.x +
      (localOf realOps (scalePt a p)).dTangent.y * (localOf realOps (scalePt a p)).dTangent.y +
      (localOf realOps (scalePt a p)).dTangent.z * (localOf realOps (scalePt a p)).dTangent.z) =
      a⁻¹ * Real.sqrt ((localOf realOps p).dTangent.x * (localOf realOps p).dTangent.x +
      (localOf realOps p).dTangent.y * (localOf realOps p).dTangent.y +
      (localOf realOps p).dTangent.z * (localOf realOps p).dTangent.z)
    rw [e4, ← sqrt_scale (inv_nonneg.2 ha.le)]; congr 1; simp only [scaleV]; ring
  have ha2 : a⁻¹ ≠ 0 := inv_ne_zero ha'
  have e6 : (localOf realOps (scalePt a p)).normal = (localOf realOps p).normal := by
    change (⟨(localOf realOps (scalePt a p)).dTangent.x / (localOf realOps (scalePt a p)).curvature,
      (localOf realOps (scalePt a p)).dTangent.y / (localOf realOps (scalePt a p)).curvature,
      (localOf realOps (scalePt a p)).dTangent.z / (localOf realOps (scalePt a p)).curvature⟩ : V3 ℝ) =
      ⟨(localOf realOps p).dTangent.x / (localOf realOps p).curvature,
      (localOf realOps p).dTangent.y / (localOf realOps p).curvature,
      (localOf realOps p).dTangent.z / (localOf realOps p).curvature⟩
    rw [e4, e5]; simp only [scaleV, mul_div_mul_left _ _ ha2]
  have e7 : (localOf realOps (scalePt a p)).binormal = (localOf realOps p).binormal := by
    change (⟨(localOf realOps (scalePt a p)).tangent.y * (localOf realOps (scalePt a p)).normal.z
        - (localOf realOps (scalePt a p)).tangent.z * (localOf realOps (scalePt a p)).normal.y,
      (localOf realOps (scalePt a p)).tangent.z * (localOf realOps (scalePt a p)).normal.x
        - (localOf realOps (scalePt a p)).tangent.x * (localOf realOps (scalePt a p)).normal.z,
      (localOf realOps (scalePt a p)).tangent.x * (localOf realOps (scalePt a p)).normal.y
        - (localOf realOps (scalePt a p)).tangent.y * (localOf realOps (scalePt a p)).normal.x⟩ : V3 ℝ) = _
    rw [e3, e6]; rfl
  have e8 : (localOf realOps (scalePt a p)).torsion = a⁻¹ * (localOf realOps p).torsion := by
    simp only [localOf, scalePt, Pt.d1, Pt.d2, Pt.d3]
    have q : ∀ x y : ℝ, (a * a * a * x) / (a * a * a * a * y) = a⁻¹ * (x / y) := by
      intro x y
      rw [mul_assoc (a * a * a) a y, mul_div_mul_left _ _ (by positivity), div_mul_eq_div_div, div_right_comm,
        div_eq_inv_mul]
    rw [← q]
    congr 1 <;> ring
  generalize hL : localOf realOps (scalePt a p) = L at *
  cases L
  simp only [scaleLocal] at *
  subst e1 e2 e3 e4 e5 e6 e7 e8
  rfl

/-- The axis in other units of length (`a`) and field strength (`b`). -/
noncomputable def scaleAxis (a b : ℝ) (x : Axis ℝ) : Axis ℝ :=
  { dPhi := x.dPhi
    phi := x.phi
    pt := fun j => scalePt a (x.pt j)
    loc := fun j => scaleLocal a (x.loc j)
    B0overG0 := a⁻¹ * x.B0overG0
    G0overB0 := a * x.G0overB0
    dlDvarphi := a * x.dlDvarphi
    G0 := a * b * x.G0
    minR0 := a * x.minR0
    axisLength := a * x.axisLength
    maxCurvature := a⁻¹ * x.maxCurvature
    rmsCurvature := a⁻¹ * x.rmsCurvature
    meanR := a * x.meanR
    meanZ := a * x.meanZ
    sdR := a * x.sdR
    sdZ := a * x.sdZ
    dDphi := x.dDphi
    dDvarphi := x.dDvarphi
    boozer := x.boozer
    helicity := x.helicity }

theorem angleSum_scale (a : ℝ) (f : Nat → ℝ) (j : Nat) : angleSum (fun j => a * f j) j = a * angleSum f j := by
  induction j with
  | zero => simp [angleSum]
  | succ j ih => simp only [angleSum, ih]; ring

theorem axisData_scale {a : ℝ} (ha : 0 < a) (b : ℝ) (nfp nphi : Nat) (sG : Int) (B0 R00 Z00 : ℝ)
    (ms : List (Mode ℝ)) (D : Nat → Nat → ℝ) (h : Int) :
    axisData realOps nfp nphi sG (b * B0) (a * R00) (a * Z00) (ms.map (scaleMode a)) D h =
      scaleAxis a b (axisData realOps nfp nphi sG B0 R00 Z00 ms D h) := by
  have ha' : a ≠ 0 := ha.ne'
  have hi : 0 < a⁻¹ := inv_pos.2 ha
  simp only [axisData, scaleAxis, point_scale, localOf_scale ha, Axis.mk.injEq]
  generalize hd : dPhi realOps nfp nphi = d
  generalize hp : (fun j => point realOps nfp R00 Z00 ms (phiGrid d j)) = pt
  have hp' : ∀ j, point realOps nfp R00 Z00 ms (phiGrid d j) = pt j := fun j => congrFun hp j
  simp only [hp']
  generalize hl : (fun j => localOf realOps (pt j)) = loc
  have hl' : ∀ j, localOf realOps (pt j) = loc j := fun j => congrFun hl j
  simp only [hl', scaleLocal, scalePt]
  have hS : vsum nphi (fun j => a * (loc j).dl) = a * vsum nphi (fun j => (loc j).dl) := vsum_scale _ _ _
  have hG : (nphi : ℝ) / (a * vsum nphi fun j => (loc j).dl) = a⁻¹ * ((nphi : ℝ) / vsum nphi fun j => (loc j).dl) := by
    rw [div_mul_eq_div_div, div_right_comm, div_eq_inv_mul]
  have hI : ∀ x : ℝ, 1 / (a⁻¹ * x) = a * (1 / x) := fun x => by
    rw [one_div, mul_inv, inv_inv, one_div]
  have hq : ∀ x L : ℝ, a * a * x * d * nfp / (a * L * d * nfp) = a * (x * d * nfp / (L * d * nfp)) := fun x L => by
    rw [show a * a * x * d * nfp = a * (a * (x * d * nfp)) from by ring,
      show a * L * d * nfp = a * (L * d * nfp) from by ring, mul_div_mul_left _ _ ha', mul_div_assoc]
  have hmean : ∀ f : Nat → ℝ, vsum nphi (fun j => a * f j * (a * (loc j).dl)) * d * nfp
        / (a * vsum nphi (fun j => (loc j).dl) * d * nfp)
      = a * (vsum nphi (fun j => f j * (loc j).dl) * d * nfp / (vsum nphi (fun j => (loc j).dl) * d * nfp)) := by
    intro f
    have e : vsum nphi (fun j => a * f j * (a * (loc j).dl)) = a * a * vsum nphi (fun j => f j * (loc j).dl) := by
      rw [← vsum_scale]; congr 1; funext j; ring
    rw [← hq, e]
  have hsd : ∀ (f : Nat → ℝ) (m : ℝ), Real.sqrt (vsum nphi (fun j => (a * f j - a * m) * (a * f j - a * m)
        * (a * (loc j).dl)) * d * nfp / (a * vsum nphi (fun j => (loc j).dl) * d * nfp))
      = a * Real.sqrt (vsum nphi (fun j => (f j - m) * (f j - m) * (loc j).dl) * d * nfp
        / (vsum nphi (fun j => (loc j).dl) * d * nfp)) := by
    intro f m
    rw [← sqrt_scale ha.le]
    congr 1
    rw [show (fun j => (a * f j - a * m) * (a * f j - a * m) * (a * (loc j).dl))
      = fun j => a * (a * (a * ((f j - m) * (f j - m) * (loc j).dl))) from by funext j; ring,
      vsum_scale, vsum_scale, vsum_scale]
    generalize vsum nphi (fun j => (f j - m) * (f j - m) * (loc j).dl) = x
    generalize vsum nphi (fun j => (loc j).dl) = L
    rw [show a * (a * (a * x)) * d * nfp = a * (a * a * (x * d * nfp)) from by ring,
      show a * L * d * nfp = a * (L * d * nfp) from by ring, mul_div_mul_left _ _ ha', mul_div_assoc]
  have hrms : Real.sqrt (vsum nphi (fun j => a⁻¹ * (loc j).curvature * (a⁻¹ * (loc j).curvature)
        * (a * (loc j).dl)) * d * nfp / (a * vsum nphi (fun j => (loc j).dl) * d * nfp))
      = a⁻¹ * Real.sqrt (vsum nphi (fun j => (loc j).curvature * (loc j).curvature * (loc j).dl) * d * nfp
        / (vsum nphi (fun j => (loc j).dl) * d * nfp)) := by
    rw [← sqrt_scale hi.le]
    congr 1
    rw [show (fun j => a⁻¹ * (loc j).curvature * (a⁻¹ * (loc j).curvature) * (a * (loc j).dl))
      = fun j => a⁻¹ * (a⁻¹ * (a * ((loc j).curvature * (loc j).curvature * (loc j).dl))) from by funext j; ring,
      vsum_scale, vsum_scale, vsum_scale]
    generalize vsum nphi (fun j => (loc j).curvature * (loc j).curvature * (loc j).dl) = x
    generalize vsum nphi (fun j => (loc j).dl) = L
    rw [show a⁻¹ * (a⁻¹ * (a * x)) * d * nfp = a * (a⁻¹ * a⁻¹ * (x * d * nfp)) from by ring,
      show a * L * d * nfp = a * (L * d * nfp) from by ring, mul_div_mul_left _ _ ha', mul_div_assoc]
  rw [hS, hG, hI]
  refine ⟨trivial, trivial, trivial, trivial, rfl, rfl, rfl, by ring, vmin_scale _ ha _, by ring,
    vmax_scale _ hi _, ?_, ?_, ?_, ?_, ?_, trivial, ?_, ?_, trivial⟩
  · exact hrms
  · exact hmean fun j => (pt j).R0
  · exact hmean fun j => (pt j).Z0
  · rw [hmean fun j => (pt j).R0]; exact hsd _ _
  · rw [hmean fun j => (pt j).Z0]; exact hsd _ _
  · funext j k
    rw [show a⁻¹ * ((nphi : ℝ) / vsum nphi fun j => (loc j).dl) * (a * (loc j).dl)
      = a⁻¹ * a * ((nphi : ℝ) / (vsum nphi fun j => (loc j).dl) * (loc j).dl) from by ring,
      inv_mul_cancel₀ ha', one_mul]
  · funext j
    rw [angleSum_scale]
    generalize angleSum (fun j => (loc j).dl) j = s
    generalize vsum nphi (fun j => (loc j).dl) = L
    rw [show a * L * d * nfp = a * (L * d * nfp) from by ring, mul_comm a s, mul_assoc, ← mul_div_assoc,
      mul_div_mul_left _ _ ha']

theorem getD_scale (a : ℝ) (l : List ℝ) (n : Nat) : (l.map (a * ·)).getD n 0 = a * l.getD n 0 := by
  rw [List.getD_eq_getElem?_getD, List.getD_eq_getElem?_getD, List.getElem?_map]
  cases l[n]? <;> simp

/-- `init_axis` in other units. -/
theorem initAxis_scale {a : ℝ} (ha : 0 < a) (b : ℝ) {c : Coeffs ℝ} (hc : c.WellSized) (M : Nat) (sG spsi : Int)
    (B0 : ℝ) {x : Axis ℝ} (h : initAxis realOps c (2 * M + 1) sG spsi B0 = .ok x) :
    initAxis realOps ⟨c.nfp, c.R0c.map (a * ·), c.R0s.map (a * ·), c.Z0c.map (a * ·), c.Z0s.map (a * ·)⟩
      (2 * M + 1) sG spsi (b * B0) = .ok (scaleAxis a b x) := by
  have hc' : Coeffs.WellSized ⟨c.nfp, c.R0c.map (a * ·), c.R0s.map (a * ·), c.Z0c.map (a * ·), c.Z0s.map (a * ·)⟩ :=
    ⟨by simpa using hc.pos, by simpa using hc.R0s, by simpa using hc.Z0c, by simpa using hc.Z0s⟩
  obtain ⟨h1, e1, g1⟩ := initAxis_eq c hc M sG spsi B0
  obtain ⟨h2, e2, g2⟩ := initAxis_eq _ hc' M sG spsi (b * B0)
  have hm : ((List.range (c.R0c.map (a * ·)).length).drop 1).map
      (modeAt ⟨c.nfp, c.R0c.map (a * ·), c.R0s.map (a * ·), c.Z0c.map (a * ·), c.Z0s.map (a * ·)⟩)
      = (((List.range c.R0c.length).drop 1).map (modeAt c)).map (scaleMode a) := by
    rw [List.length_map, List.map_map]
    apply List.map_congr_left
    intro n _
    simp only [modeAt, scaleMode, Function.comp, getD_scale]
  rw [e1] at h
  injection h with h
  simp only [hm, getD_scale, point_scale, localOf_scale ha, scaleLocal] at g2
  have hh : h2 = h1 := by
    have := g2.symm.trans g1
    injection this
  rw [e2, ← h]
  simp only [hm, getD_scale, axisData_scale ha, hh]

end Qsc.Scaling
