import Verif.Lemmas.HalfTurn
import Verif.Spec.Mirror

/-!
# Lemmas on mirror images: the axis and first order
-/

namespace Qsc.Mirror
open Qsc.Axis Qsc.Single Qsc.HalfTurn Qsc.Spec.Mirror

/-! ## The helicity -/

/-- The helicity counter changes its sign if `z` does, apart from a difference at the points with `z = 0`. -/
theorem quadrant_step {x z x' z' : ℝ} (h0 : z = 0 → (0 ≤ x ↔ 0 ≤ x')) (h0' : z' = 0 → (0 ≤ x ↔ 0 ≤ x')) :
    Helicity.stepOf (Helicity.quadrantOf (decide (0 ≤ x)) (decide (0 ≤ -z)))
        (Helicity.quadrantOf (decide (0 ≤ x')) (decide (0 ≤ -z'))) =
      -Helicity.stepOf (Helicity.quadrantOf (decide (0 ≤ x)) (decide (0 ≤ z)))
        (Helicity.quadrantOf (decide (0 ≤ x')) (decide (0 ≤ z')))
      + ((if z' = 0 then if 0 ≤ x' then 1 else -1 else 0) - (if z = 0 then if 0 ≤ x then 1 else -1 else 0)) := by
  have split3 : ∀ y : ℝ, (y = 0 ∧ 0 ≤ y ∧ 0 ≤ -y) ∨ (y ≠ 0 ∧ 0 ≤ y ∧ ¬0 ≤ -y) ∨ (y ≠ 0 ∧ ¬0 ≤ y ∧ 0 ≤ -y) := by
    intro y
    rcases lt_trichotomy y 0 with h | h | h
    · exact .inr (.inr ⟨h.ne, by linarith, by linarith⟩)
    · exact .inl ⟨h, by rw [h], by rw [h, neg_zero]⟩
    · exact .inr (.inl ⟨h.ne', h.le, by linarith⟩)
  by_cases hx : 0 ≤ x <;> by_cases hx' : 0 ≤ x' <;>
    rcases split3 z with ⟨a1, a2, a3⟩ | ⟨a1, a2, a3⟩ | ⟨a1, a2, a3⟩ <;>
    rcases split3 z' with ⟨b1, b2, b3⟩ | ⟨b1, b2, b3⟩ | ⟨b1, b2, b3⟩ <;>
    first
      | (simp only [hx, hx', a1, a2, a3, b1, b2, b3, decide_true, decide_false, if_true, if_false, le_refl, neg_zero]; decide)
      | exact absurd (h0 a1) fun h => hx' (h.1 hx)
      | exact absurd (h0 a1) fun h => hx (h.2 hx')
      | exact absurd (h0' b1) fun h => hx' (h.1 hx)
      | exact absurd (h0' b1) fun h => hx (h.2 hx')

theorem quadrant_eq {n : Nat} (hn : 0 < n) (x z : Nat → ℝ) {j : Nat} (hj : j ≤ n) :
    Helicity.quadrant realOps.ge0 n x z j =
      Helicity.quadrantOf (decide (0 ≤ x (j % n))) (decide (0 ≤ z (j % n))) := by
  unfold Helicity.quadrant
  rcases Nat.lt_or_ge j n with h | h
  · rw [if_pos h, Nat.mod_eq_of_lt h]; rfl
  · rw [if_neg (by omega), if_neg (by omega), Nat.le_antisymm hj h, Nat.mod_self]; rfl

theorem counter_mir {n : Nat} (hn : 0 < n) {x z : Nat → ℝ} (h : Steady n x z) :
    Helicity.counter n (Helicity.quadrant realOps.ge0 n x fun j => -z j) =
      -Helicity.counter n (Helicity.quadrant realOps.ge0 n x z) := by
  have key : ∀ m ≤ n, forLoop m (fun j c => c + Helicity.stepOf (Helicity.quadrant realOps.ge0 n x (fun j => -z j) j)
        (Helicity.quadrant realOps.ge0 n x (fun j => -z j) (j + 1))) 0 =
      -forLoop m (fun j c => c + Helicity.stepOf (Helicity.quadrant realOps.ge0 n x z j)
        (Helicity.quadrant realOps.ge0 n x z (j + 1))) 0 +
      ((if z (m % n) = 0 then if 0 ≤ x (m % n) then 1 else -1 else 0) - (if z 0 = 0 then if 0 ≤ x 0 then 1 else -1 else 0)) := by
    intro m
    induction m with
    | zero => intro _; rw [Nat.zero_mod, sub_self, forLoop_zero, forLoop_zero, neg_zero, add_zero]
    | succ m ih =>
      intro hm
      have e := h m (by omega)
      have hm' : m % n = m := Nat.mod_eq_of_lt (by omega)
      rw [forLoop_succ, forLoop_succ, ih (by omega), quadrant_eq hn _ _ (by omega), quadrant_eq hn _ _ (by omega),
        quadrant_eq hn _ _ (by omega), quadrant_eq hn _ _ (by omega), hm',
        quadrant_step (fun a => e (.inl a)) (fun a => e (.inr a))]
      omega
  have := key n le_rfl
  rw [Nat.mod_self, sub_self, add_zero] at this
  exact this

theorem helicity_mir {n : Nat} (hn : 0 < n) {x z : Nat → ℝ} (h : Steady n x z) {spsi sG k k' : Int}
    (h1 : Helicity.calculateHelicity realOps.ge0 n x z spsi sG = .ok k)
    (h2 : Helicity.calculateHelicity realOps.ge0 n x (fun j => -z j) spsi sG = .ok k') : k' = -k := by
  unfold Helicity.calculateHelicity at h1 h2
  rw [counter_mir hn h] at h2
  unfold Helicity.finish at h1 h2
  dsimp only at h1 h2
  rw [neg_mul, Int.neg_tdiv] at h2
  split at h1
  · cases h1
  · split at h2
    · cases h2
    · injection h1 with h1
      injection h2 with h2
      omega

/-! ## The axis -/

def mirPt (p : Pt ℝ) : Pt ℝ := ⟨p.R0, -p.Z0, p.R0p, -p.Z0p, p.R0pp, -p.Z0pp, p.R0ppp, -p.Z0ppp⟩

def mirT (v : V3 ℝ) : V3 ℝ := ⟨v.x, v.y, -v.z⟩
def mirB (v : V3 ℝ) : V3 ℝ := ⟨-v.x, -v.y, v.z⟩

def mirLocal (l : Local ℝ) : Local ℝ :=
  ⟨l.dl, l.d2l, mirT l.tangent, mirT l.dTangent, l.curvature, mirT l.normal, mirB l.binormal, -l.torsion⟩

def mirMode (m : Mode ℝ) : Mode ℝ := ⟨m.n, m.rc, m.rs, -m.zc, -m.zs⟩

theorem point_mir (nfp : Nat) (R00 Z00 : ℝ) (ms : List (Mode ℝ)) (φ : ℝ) :
    point realOps nfp R00 (-Z00) (ms.map mirMode) φ = mirPt (point realOps nfp R00 Z00 ms φ) := by
  have key : ∀ (ms : List (Mode ℝ)) (p : Pt ℝ),
      (ms.map mirMode).foldl (addMode realOps nfp φ) (mirPt p) = mirPt (ms.foldl (addMode realOps nfp φ) p) := by
    intro ms
    induction ms with
    | nil => intro p; rfl
    | cons m ms ih =>
      intro p
      rw [List.map_cons, List.foldl_cons, List.foldl_cons, ← ih]
      congr 1
      simp only [addMode, mirPt, mirMode, Pt.mk.injEq]
      refine ⟨?_, ?_, ?_, ?_, ?_, ?_, ?_, ?_⟩ <;> first | trivial | ring
  have := key ms ⟨R00, Z00, 0, 0, 0, 0, 0, 0⟩
  simpa [point, mirPt] using this

theorem localOf_mir (p : Pt ℝ) : localOf realOps (mirPt p) = mirLocal (localOf realOps p) := by
  have e1 : (localOf realOps (mirPt p)).dl = (localOf realOps p).dl := by
    simp only [localOf, mirPt, realOps]; congr 1; ring
  have e2 : (localOf realOps (mirPt p)).d2l = (localOf realOps p).d2l := by
    change _ / (localOf realOps (mirPt p)).dl = _ / (localOf realOps p).dl
    rw [e1]; congr 1; simp only [mirPt]; ring
  have e3 : (localOf realOps (mirPt p)).tangent = mirT (localOf realOps p).tangent := by
    change (⟨_ / (localOf realOps (mirPt p)).dl, _ / (localOf realOps (mirPt p)).dl, _ / (localOf realOps (mirPt p)).dl⟩ : V3 ℝ) =
      ⟨_ / (localOf realOps p).dl, _ / (localOf realOps p).dl, -(_ / (localOf realOps p).dl)⟩
    rw [e1]; simp only [mirPt, Pt.d1, neg_div]
  have e4 : (localOf realOps (mirPt p)).dTangent = mirT (localOf realOps p).dTangent := by
    change (⟨(-_ * (localOf realOps (mirPt p)).d2l / (localOf realOps (mirPt p)).dl + _) / ((localOf realOps (mirPt p)).dl * (localOf realOps (mirPt p)).dl),
      (-_ * (localOf realOps (mirPt p)).d2l / (localOf realOps (mirPt p)).dl + _) / ((localOf realOps (mirPt p)).dl * (localOf realOps (mirPt p)).dl),
      (-_ * (localOf realOps (mirPt p)).d2l / (localOf realOps (mirPt p)).dl + _) / ((localOf realOps (mirPt p)).dl * (localOf realOps (mirPt p)).dl)⟩ : V3 ℝ) =
      ⟨(-_ * (localOf realOps p).d2l / (localOf realOps p).dl + _) / ((localOf realOps p).dl * (localOf realOps p).dl),
      (-_ * (localOf realOps p).d2l / (localOf realOps p).dl + _) / ((localOf realOps p).dl * (localOf realOps p).dl),
      -((-_ * (localOf realOps p).d2l / (localOf realOps p).dl + _) / ((localOf realOps p).dl * (localOf realOps p).dl))⟩
    rw [e1, e2]
    simp only [mirPt, Pt.d1, Pt.d2, V3.mk.injEq]
    refine ⟨?_, ?_, ?_⟩ <;> first | trivial | ring
  have e5 : (localOf realOps (mirPt p)).curvature = (localOf realOps p).curvature := by
    change Real.sqrt ((localOf realOps (mirPt p)).dTangent.x * (localOf realOps (mirPt p)).dTangent.x +
      (localOf realOps (mirPt p)).dTangent.y * (localOf realOps (mirPt p)).dTangent.y +
      (localOf realOps (mirPt p)).dTangent.z * (localOf realOps (mirPt p)).dTangent.z) =
      Real.sqrt ((localOf realOps p).dTangent.x * (localOf realOps p).dTangent.x +
      (localOf realOps p).dTangent.y * (localOf realOps p).dTangent.y +
      (localOf realOps p).dTangent.z * (localOf realOps p).dTangent.z)
    rw [e4]; congr 1; simp only [mirT]; ring
  have e6 : (localOf realOps (mirPt p)).normal = mirT (localOf realOps p).normal := by
    change (⟨(localOf realOps (mirPt p)).dTangent.x / (localOf realOps (mirPt p)).curvature,
      (localOf realOps (mirPt p)).dTangent.y / (localOf realOps (mirPt p)).curvature,
      (localOf realOps (mirPt p)).dTangent.z / (localOf realOps (mirPt p)).curvature⟩ : V3 ℝ) =
      ⟨(localOf realOps p).dTangent.x / (localOf realOps p).curvature,
      (localOf realOps p).dTangent.y / (localOf realOps p).curvature,
      -((localOf realOps p).dTangent.z / (localOf realOps p).curvature)⟩
    rw [e5, e4]; simp only [mirT, neg_div]
  have e7 : (localOf realOps (mirPt p)).binormal = mirB (localOf realOps p).binormal := by
    have h : ∀ p, (localOf realOps p).binormal =
      ⟨(localOf realOps p).tangent.y * (localOf realOps p).normal.z - (localOf realOps p).tangent.z * (localOf realOps p).normal.y,
       (localOf realOps p).tangent.z * (localOf realOps p).normal.x - (localOf realOps p).tangent.x * (localOf realOps p).normal.z,
       (localOf realOps p).tangent.x * (localOf realOps p).normal.y - (localOf realOps p).tangent.y * (localOf realOps p).normal.x⟩ :=
      fun _ => rfl
    rw [h, h, e3, e6]
    simp only [mirT, mirB, V3.mk.injEq]
    refine ⟨?_, ?_, ?_⟩ <;> first | trivial | ring
  have e8 : (localOf realOps (mirPt p)).torsion = -(localOf realOps p).torsion := by
    simp only [localOf, mirPt, Pt.d1, Pt.d2, Pt.d3]
    rw [← neg_div]
    congr 1 <;> first | rfl | ring
  have eta : ∀ a b : Local ℝ, a.dl = b.dl → a.d2l = b.d2l → a.tangent = b.tangent → a.dTangent = b.dTangent →
      a.curvature = b.curvature → a.normal = b.normal → a.binormal = b.binormal → a.torsion = b.torsion → a = b := by
    rintro ⟨⟩ ⟨⟩ h1 h2 h3 h4 h5 h6 h7 h8
    simp_all
  exact eta _ _ e1 e2 e3 e4 e5 e6 e7 e8

/-- The mirror image of the axis. -/
noncomputable def mirAxis (x : Axis ℝ) : Axis ℝ :=
  { x with
    pt := fun j => mirPt (x.pt j), loc := fun j => mirLocal (x.loc j), meanZ := -x.meanZ, helicity := -x.helicity }

theorem vsum_neg (n : Nat) (f : Nat → ℝ) : vsum n (fun j => -f j) = -vsum n f := by
  have h := Scaling.vsum_scale n (-1) f
  simpa only [neg_mul, one_mul] using h

theorem axisData_mir (nfp nphi : Nat) (sG : Int) (B0 R00 Z00 : ℝ) (ms : List (Mode ℝ)) (D : Nat → Nat → ℝ) (h : Int) :
    axisData realOps nfp nphi sG B0 R00 (-Z00) (ms.map mirMode) D (-h) =
      mirAxis (axisData realOps nfp nphi sG B0 R00 Z00 ms D h) := by
  have e : ∀ x y z : ℝ, (-x - -y) * (-x - -y) * z = (x - y) * (x - y) * z := fun x y z => by ring
  simp only [axisData, mirAxis, point_mir, localOf_mir]
  simp only [mirLocal, mirPt, neg_mul, vsum_neg, neg_div]
  simp only [e]

theorem getD_neg (l : List ℝ) (n : Nat) : (l.map (- ·)).getD n 0 = -l.getD n 0 := by
  rw [List.getD_eq_getElem?_getD, List.getD_eq_getElem?_getD, List.getElem?_map]
  cases l[n]? <;> simp

/-- The coefficients of the mirror image. -/
noncomputable def mirCoeffs (c : Coeffs ℝ) : Coeffs ℝ := ⟨c.nfp, c.R0c, c.R0s, c.Z0c.map (- ·), c.Z0s.map (- ·)⟩

theorem initAxis_mir {c : Coeffs ℝ} (hc : c.WellSized) (M : Nat) (sG spsi : Int) (B0 : ℝ) {x : Axis ℝ}
    (h : initAxis realOps c (2 * M + 1) sG spsi B0 = .ok x)
    (hst : Steady (2 * M + 1) (fun j => (x.loc j).normal.x) fun j => (x.loc j).normal.z) :
    initAxis realOps (mirCoeffs c) (2 * M + 1) sG spsi B0 = .ok (mirAxis x) := by
  have hc' : Coeffs.WellSized (mirCoeffs c) :=
    ⟨hc.pos, hc.R0s, by simpa [mirCoeffs] using hc.Z0c, by simpa [mirCoeffs] using hc.Z0s⟩
  obtain ⟨h1, e1, g1⟩ := initAxis_eq c hc M sG spsi B0
  obtain ⟨h2, e2, g2⟩ := initAxis_eq _ hc' M sG spsi B0
  have hm : ((List.range (mirCoeffs c).R0c.length).drop 1).map (modeAt (mirCoeffs c))
      = (((List.range c.R0c.length).drop 1).map (modeAt c)).map mirMode := by
    rw [List.map_map]
    apply List.map_congr_left
    intro n _
    simp only [modeAt, mirMode, mirCoeffs, Function.comp, getD_neg]
  rw [e1] at h
  injection h with h
  rw [hm] at g2 e2
  simp only [mirCoeffs, getD_neg, point_mir, localOf_mir, mirLocal, mirT] at g2
  subst h
  have hh : h2 = -h1 := helicity_mir (by omega) hst g1 g2
  rw [e2, hh]
  simp only [mirCoeffs, getD_neg, axisData_mir]

/-! ## Newton's method -/

section
open Newton
variable {X R D K : Type}

/-- The calls at the images of the states. -/
def mapEvent (s : X → X) : Event X → Event X
  | .res x => .res (s x)
  | .jac x => .jac (s x)
  | .solve => .solve

/-- Two problems that are images of each other. -/
structure Image (s : X → X) (ρ : R → R) (δ : D → D) (e e' : Env X R D K) : Prop where
  res : ∀ x, e'.res (s x) = ρ (e.res x)
  nrm : ∀ r, e'.nrm (ρ r) = e.nrm r
  lt : e'.lt = e.lt
  tolSq : e'.tolSq = e.tolSq
  dir : ∀ j x r, e'.dir j (s x) (ρ r) = δ (e.dir j x r)
  move : ∀ x d k, e'.move (s x) (δ d) k = s (e.move x d k)

def mapCur (s : X → X) (ρ : R → R) (c : Cur X R K) : Cur X R K := ⟨s c.x, ρ c.r, c.n, c.trace.map (mapEvent s)⟩
def mapOut (s : X → X) (ρ : R → R) (c : Out X R) : Out X R := ⟨c.status, s c.state, ρ c.residual, c.trace.map (mapEvent s)⟩

variable {s : X → X} {ρ : R → R} {δ : D → D} {e e' : Env X R D K}

theorem lineSearch_image (H : Image s ρ δ e e') (x0 : X) (d : D) (last : K) (f k : Nat) (c : Cur X R K) :
    lineSearch e' (s x0) (δ d) last f k (mapCur s ρ c) = mapCur s ρ (lineSearch e x0 d last f k c) := by
  induction f generalizing k c with
  | zero => rfl
  | succ f ih =>
    simp only [lineSearch, H.move, H.res, H.nrm, H.lt]
    have hc : (⟨s (e.move x0 d k), ρ (e.res (e.move x0 d k)), e.nrm (e.res (e.move x0 d k)),
        (mapCur s ρ c).trace ++ [.res (s (e.move x0 d k))]⟩ : Cur X R K) =
        mapCur s ρ ⟨e.move x0 d k, e.res (e.move x0 d k), e.nrm (e.res (e.move x0 d k)),
          c.trace ++ [.res (e.move x0 d k)]⟩ := by simp [mapCur, mapEvent]
    rw [hc, ih]
    split <;> rfl

theorem loop_image (H : Image s ρ δ e e') (L f j : Nat) (c : Cur X R K) :
    loop e' L f j (mapCur s ρ c) = mapOut s ρ (loop e L f j c) := by
  induction f generalizing j c with
  | zero => simp only [loop, H.lt, H.tolSq]; rfl
  | succ f ih =>
    simp only [loop]
    have hc : (⟨(mapCur s ρ c).x, (mapCur s ρ c).r, (mapCur s ρ c).n, (mapCur s ρ c).trace ++ [.jac (mapCur s ρ c).x, .solve]⟩ :
        Cur X R K) = mapCur s ρ ⟨c.x, c.r, c.n, c.trace ++ [.jac c.x, .solve]⟩ := by simp [mapCur, mapEvent]
    rw [hc, show e'.dir j (mapCur s ρ c).x (mapCur s ρ c).r = δ (e.dir j c.x c.r) from H.dir _ _ _,
      show (mapCur s ρ c).x = s c.x from rfl, show (mapCur s ρ c).n = c.n from rfl, lineSearch_image H, ih, H.lt, H.tolSq]
    generalize lineSearch e c.x (e.dir j c.x c.r) c.n L 0 _ = cc
    rw [show (mapCur s ρ cc).n = cc.n from rfl]
    by_cases h1 : e.lt c.n e.tolSq = true
    · rw [if_pos h1, if_pos h1]; rfl
    · rw [if_neg h1, if_neg h1]
      by_cases h2 : e.lt c.n cc.n = true
      · rw [if_pos h2, if_pos h2]; rfl
      · rw [if_neg h2, if_neg h2]

theorem newton_image (H : Image s ρ δ e e') (N M : Int) (x : X) :
    newton e' N M (s x) = mapOut s ρ (newton e N M x) := by
  simp only [newton, H.res, H.nrm]
  exact loop_image H _ _ _ ⟨x, e.res x, e.nrm (e.res x), [.res x]⟩

theorem lastEvaluated_map (s : X → X) (t : List (Event X)) :
    lastEvaluated (t.map (mapEvent s)) = (lastEvaluated t).map s := by
  induction t with
  | nil => rfl
  | cons a t ih =>
    cases a with
    | res x => simp only [List.map_cons, mapEvent, lastEvaluated, ih]; cases lastEvaluated t <;> rfl
    | jac x => exact ih
    | solve => exact ih

end

/-! ## First order -/

theorem signs_neg {gesv : Nat → (Nat → Nat → ℝ) → (Nat → ℝ) → Option (Nat → ℝ)} (h : Signs gesv) (n : Nat)
    (m : Nat → Nat → ℝ) (y : Nat → ℝ) : gesv n m (fun a => -y a) = (gesv n m y).map fun x b => -x b := by
  have := h n m y (fun _ => -1) (fun _ => -1) (fun _ => .inr rfl) (fun _ => .inr rfl)
  simpa only [neg_mul, one_mul, mul_neg, mul_one, neg_neg] using this

/-- The mirror image of the configuration. -/
noncomputable def mirCfg (p : R1.Cfg ℝ) : R1.Cfg ℝ :=
  { p with helicity := -p.helicity, sigma0 := -p.sigma0, I2 := -p.I2, torsion := fun j => -p.torsion j }

noncomputable def mirSt (q : R1.Stored ℝ) : R1.Stored ℝ := ⟨-q.iota, fun j => -q.sigma j⟩

/-- The mirror image of the first order. -/
noncomputable def mirR1 (r : R1.R1 ℝ) : R1.R1 ℝ :=
  { r with iotaN := -r.iotaN, Y1c := fun j => -r.Y1c j, dY1c := fun j => -r.dY1c j }

theorem store_mir (p : R1.Cfg ℝ) (x : Nat → ℝ) : R1.store (mirCfg p) (fun j => -x j) = mirSt (R1.store p x) := by
  simp only [R1.store, mirCfg, mirSt, R1.Stored.mk.injEq, true_and]
  funext j
  split <;> rfl

theorem cast_mir (h : Int) (n : Nat) : ((-h * n : Int) : ℝ) = -((h * n : Int) : ℝ) := by push_cast; ring

theorem residual_mir (p : R1.Cfg ℝ) (x : Nat → ℝ) :
    R1.residual (mirCfg p) (fun j => -x j) = fun j => -R1.residual p x j := by
  funext j
  simp only [R1.residual, store_mir]
  simp only [mirSt, mirCfg, matVec_neg, R1.etaSq, cast_mir]
  ring

theorem jacobian_mir (p : R1.Cfg ℝ) (q : R1.Stored ℝ) : R1.jacobian (mirCfg p) (mirSt q) = R1.jacobian p q := by
  funext j k
  simp only [R1.jacobian, mirSt, mirCfg, R1.etaSq, cast_mir, neg_mul_neg]
  have e : ∀ a b s : ℝ, (-a + -b) * 2 * -s = (a + b) * 2 * s := fun a b s => by ring
  simp only [e]

theorem start_mir (p : R1.Cfg ℝ) : R1.start (mirCfg p) = fun j => -R1.start p j := by
  funext j
  simp only [R1.start, mirCfg]
  split <;> simp

theorem env_mir {L : Lib ℝ} (hg : Signs L.gesv) (p : R1.Cfg ℝ) (n : Nat) (tol : ℝ) :
    Image (fun (x : Nat → ℝ) j => -x j) (fun (x : Nat → ℝ) j => -x j) (fun (x : Nat → ℝ) j => -x j)
      (R1.env realOps p (newtonSolve L n) tol) (R1.env realOps (mirCfg p) (newtonSolve L n) tol) where
  res := residual_mir p
  nrm := fun r => by simp only [R1.env, neg_mul_neg]; rfl
  lt := rfl
  tolSq := rfl
  dir := fun j x r => by
    simp only [R1.env, store_mir, jacobian_mir, newtonSolve]
    rw [signs_neg hg n _ fun j => -r j]
    cases L.gesv n (R1.jacobian p (R1.store p x)) fun j => -r j <;> rfl
  move := fun x d k => by
    funext j
    simp only [R1.env]
    ring

theorem solveSigma_mir {L : Lib ℝ} (hg : Signs L.gesv) (p : R1.Cfg ℝ) (n : Nat) (tol : ℝ) (N M : Int) :
    R1.solveSigma realOps (mirCfg p) (newtonSolve L n) tol N M =
      ((R1.solveSigma realOps p (newtonSolve L n) tol N M).1,
        (R1.solveSigma realOps p (newtonSolve L n) tol N M).2.map mirSt) := by
  simp only [R1.solveSigma]
  rw [start_mir, newton_image (env_mir hg p n tol) N M (R1.start p)]
  simp only [mapOut, lastEvaluated_map, Option.map_map]
  congr 2
  funext x
  exact store_mir p x

theorem jacStates_map {X : Type} (s : X → X) (t : List (Newton.Event X)) :
    jacStates (t.map (mapEvent s)) = (jacStates t).map s := by
  induction t with
  | nil => rfl
  | cons a t ih => cases a <;> simp_all [jacStates, mapEvent]

theorem newtonThrows_mir {L : Lib ℝ} (ho : L.ops = realOps) (hg : Signs L.gesv) (p : R1.Cfg ℝ) (tol : ℝ) (N M : Int) :
    newtonThrows L (mirCfg p) tol N M = newtonThrows L p tol N M := by
  simp only [newtonThrows, ho]
  rw [start_mir, show (mirCfg p).nphi = p.nphi from rfl, newton_image (env_mir hg p p.nphi tol) N M (R1.start p)]
  simp only [mapOut, jacStates_map, List.any_map]
  congr 1
  funext x
  simp only [Function.comp, store_mir, jacobian_mir, residual_mir]
  rw [signs_neg hg p.nphi _ fun j => -R1.residual p x j, Option.isNone_map]

theorem diagnostics_mir (p : R1.Cfg ℝ) (q : R1.Stored ℝ) :
    R1.diagnostics realOps (mirCfg p) (mirSt q) = mirR1 (R1.diagnostics realOps p q) := by
  simp only [R1.diagnostics, mirCfg, mirSt, mirR1, mul_neg, matVec_neg, neg_neg, neg_mul, zero_mul, neg_zero, cast_mir,
    ← neg_add]
  simp only [← neg_mul, cast_mir, ← neg_add]

theorem gradB_mir (p : R1.Cfg ℝ) (r : R1.R1 ℝ) :
    R1.gradB (mirCfg p) (mirR1 r) = fun j i k => bsgn i * bsgn k * R1.gradB p r j i k := by
  funext j i k
  unfold R1.gradB
  split <;> simp only [mirCfg, mirR1, bsgn] <;> norm_num <;> try ring

theorem LgradB_mir (p : R1.Cfg ℝ) (r : R1.R1 ℝ) :
    R1.LgradB realOps (mirCfg p) (mirR1 r) = R1.LgradB realOps p r := by
  funext j
  simp only [R1.LgradB, gradB_mir]
  simp only [bsgn, mirCfg]
  norm_num

theorem LgradBInverse_mir (p : R1.Cfg ℝ) (r : R1.R1 ℝ) :
    R1.LgradBInverse realOps (mirCfg p) (mirR1 r) = R1.LgradBInverse realOps p r := by
  funext j
  simp only [R1.LgradBInverse, LgradB_mir]

theorem minLgradB_mir (p : R1.Cfg ℝ) (r : R1.R1 ℝ) :
    R1.minLgradB realOps (mirCfg p) (mirR1 r) = R1.minLgradB realOps p r := by
  simp only [R1.minLgradB, LgradB_mir]
  rfl

end Qsc.Mirror
