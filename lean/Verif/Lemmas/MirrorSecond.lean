import Verif.Lemmas.Mirror

/-!
# Lemmas on mirror images: second and third order
-/

namespace Qsc.Mirror
open Qsc.Single Qsc.HalfTurn Qsc.Spec.Mirror

/-- The mirror image of the input of second order. -/
noncomputable def mirIn (i : R2.In ℝ) : R2.In ℝ :=
  { i with cfg := mirCfg i.cfg, st := mirSt i.st, r1 := mirR1 i.r1, B2s := -i.B2s }

noncomputable def mirPre (a : R2.Pre ℝ) : R2.Pre ℝ :=
  { a with
    beta1s := -a.beta1s, V2 := fun j => -a.V2 j, Z2s := fun j => -a.Z2s j, dZ2s := fun j => -a.dZ2s j
    qs := fun j => -a.qs j, rc := fun j => -a.rc j, X2s := fun j => -a.X2s j, dX2s := fun j => -a.dX2s j }

theorem pre_mir (i : R2.In ℝ) : R2.pre (mirIn i) = mirPre (R2.pre i) := by
  have hG2 : (R2.pre (mirIn i)).G2 = (R2.pre i).G2 := by
    simp only [R2.pre, mirIn, mirCfg, mirSt, neg_mul_neg]
  have hb : (R2.pre (mirIn i)).beta1s = -(R2.pre i).beta1s := by
    simp only [R2.pre, mirIn, mirCfg, mirR1, neg_mul, div_neg]
  have hV1 : (R2.pre (mirIn i)).V1 = (R2.pre i).V1 := by
    simp only [R2.pre, mirIn, mirR1, neg_mul_neg]
  have hV2 : (R2.pre (mirIn i)).V2 = fun j => -(R2.pre i).V2 j := by
    simp only [R2.pre, mirIn, mirR1, mul_neg]
  have hV3 : (R2.pre (mirIn i)).V3 = (R2.pre i).V3 := by
    simp only [R2.pre, mirIn, mirR1, neg_mul_neg]
  have hZ20 : (R2.pre (mirIn i)).Z20 = (R2.pre i).Z20 := by
    funext j
    change matVec i.cfg.nphi i.cfg.dDvarphi (R2.pre (mirIn i)).V1 j * (-i.B0overG0 / 8) = _
    rw [hV1]; rfl
  have hZ2s : (R2.pre (mirIn i)).Z2s = fun j => -(R2.pre i).Z2s j := by
    funext j
    change (-i.B0overG0 / 8) * (matVec i.cfg.nphi i.cfg.dDvarphi (R2.pre (mirIn i)).V2 j
      - 2 * (-i.r1.iotaN) * (R2.pre (mirIn i)).V3 j) = -((-i.B0overG0 / 8) *
      (matVec i.cfg.nphi i.cfg.dDvarphi (R2.pre i).V2 j - 2 * i.r1.iotaN * (R2.pre i).V3 j))
    rw [hV2, hV3, matVec_neg]; ring
  have hZ2c : (R2.pre (mirIn i)).Z2c = (R2.pre i).Z2c := by
    funext j
    change (-i.B0overG0 / 8) * (matVec i.cfg.nphi i.cfg.dDvarphi (R2.pre (mirIn i)).V3 j
      + 2 * (-i.r1.iotaN) * (R2.pre (mirIn i)).V2 j) = (-i.B0overG0 / 8) *
      (matVec i.cfg.nphi i.cfg.dDvarphi (R2.pre i).V3 j + 2 * i.r1.iotaN * (R2.pre i).V2 j)
    rw [hV2, hV3]; ring
  have hqs : (R2.pre (mirIn i)).qs = fun j => -(R2.pre i).qs j := by
    funext j
    simp only [R2.pre, mirIn, mirR1, mirCfg]; ring
  have hqc : (R2.pre (mirIn i)).qc = (R2.pre i).qc := by
    funext j
    simp only [R2.pre, mirIn, mirR1, mirCfg]; ring
  have hrs : (R2.pre (mirIn i)).rs = (R2.pre i).rs := by
    funext j
    simp only [R2.pre, mirIn, mirR1, mirCfg]; ring
  have hrc : (R2.pre (mirIn i)).rc = fun j => -(R2.pre i).rc j := by
    funext j
    simp only [R2.pre, mirIn, mirR1, mirCfg, matVec_neg]; ring
  have hX2s : (R2.pre (mirIn i)).X2s = fun j => -(R2.pre i).X2s j := by
    funext j
    change i.B0overG0 * (matVec i.cfg.nphi i.cfg.dDvarphi (R2.pre (mirIn i)).Z2s j
      - (2 * (-i.r1.iotaN)) * (R2.pre (mirIn i)).Z2c j + i.B0overG0 * (i.G0overB0 * i.G0overB0 * (-i.B2s) / i.cfg.B0
      + ((R2.pre (mirIn i)).qc j * (R2.pre (mirIn i)).qs j + (R2.pre (mirIn i)).rc j * (R2.pre (mirIn i)).rs j) * (1 / 2)))
      / i.cfg.curvature j = -(i.B0overG0 * (matVec i.cfg.nphi i.cfg.dDvarphi (R2.pre i).Z2s j
      - (2 * i.r1.iotaN) * (R2.pre i).Z2c j + i.B0overG0 * (i.G0overB0 * i.G0overB0 * i.B2s / i.cfg.B0
      + ((R2.pre i).qc j * (R2.pre i).qs j + (R2.pre i).rc j * (R2.pre i).rs j) * (1 / 2))) / i.cfg.curvature j)
    rw [hZ2s, hZ2c, hqc, hqs, hrc, hrs, matVec_neg]; ring
  have hX2c : (R2.pre (mirIn i)).X2c = (R2.pre i).X2c := by
    funext j
    change i.B0overG0 * (matVec i.cfg.nphi i.cfg.dDvarphi (R2.pre (mirIn i)).Z2c j
      + (2 * (-i.r1.iotaN)) * (R2.pre (mirIn i)).Z2s j - i.B0overG0 * (-i.G0overB0 * i.G0overB0 * i.B2c / i.cfg.B0
      + i.G0overB0 * i.G0overB0 * i.cfg.etaBar * i.cfg.etaBar / 2
      - ((R2.pre (mirIn i)).qc j * (R2.pre (mirIn i)).qc j - (R2.pre (mirIn i)).qs j * (R2.pre (mirIn i)).qs j
        + (R2.pre (mirIn i)).rc j * (R2.pre (mirIn i)).rc j - (R2.pre (mirIn i)).rs j * (R2.pre (mirIn i)).rs j) * (1 / 4)))
      / i.cfg.curvature j = i.B0overG0 * (matVec i.cfg.nphi i.cfg.dDvarphi (R2.pre i).Z2c j
      + (2 * i.r1.iotaN) * (R2.pre i).Z2s j - i.B0overG0 * (-i.G0overB0 * i.G0overB0 * i.B2c / i.cfg.B0
      + i.G0overB0 * i.G0overB0 * i.cfg.etaBar * i.cfg.etaBar / 2
      - ((R2.pre i).qc j * (R2.pre i).qc j - (R2.pre i).qs j * (R2.pre i).qs j
        + (R2.pre i).rc j * (R2.pre i).rc j - (R2.pre i).rs j * (R2.pre i).rs j) * (1 / 4)))
      / i.cfg.curvature j
    rw [hZ2s, hZ2c, hqc, hqs, hrc, hrs]; ring
  have hd : ∀ f, matVec (mirIn i).cfg.nphi (mirIn i).cfg.dDvarphi f = matVec i.cfg.nphi i.cfg.dDvarphi f := fun _ => rfl
  rw [show R2.pre (mirIn i) = ⟨(R2.pre (mirIn i)).G2, (R2.pre (mirIn i)).beta1s, (R2.pre (mirIn i)).V1,
    (R2.pre (mirIn i)).V2, (R2.pre (mirIn i)).V3, (R2.pre (mirIn i)).Z20, (R2.pre (mirIn i)).Z2s, (R2.pre (mirIn i)).Z2c,
    matVec (mirIn i).cfg.nphi (mirIn i).cfg.dDvarphi (R2.pre (mirIn i)).Z20,
    matVec (mirIn i).cfg.nphi (mirIn i).cfg.dDvarphi (R2.pre (mirIn i)).Z2s,
    matVec (mirIn i).cfg.nphi (mirIn i).cfg.dDvarphi (R2.pre (mirIn i)).Z2c,
    (R2.pre (mirIn i)).qs, (R2.pre (mirIn i)).qc, (R2.pre (mirIn i)).rs, (R2.pre (mirIn i)).rc,
    (R2.pre (mirIn i)).X2s, (R2.pre (mirIn i)).X2c,
    matVec (mirIn i).cfg.nphi (mirIn i).cfg.dDvarphi (R2.pre (mirIn i)).X2s,
    matVec (mirIn i).cfg.nphi (mirIn i).cfg.dDvarphi (R2.pre (mirIn i)).X2c⟩ from rfl, hG2, hb, hV1, hV2, hV3, hZ20, hZ2s,
    hZ2c, hqs, hqc, hrs, hrc, hX2s, hX2c, hd, hd, hd, hd, hd, matVec_neg, matVec_neg]
  rfl

noncomputable def mirLin (y : R2.Lin ℝ) : R2.Lin ℝ :=
  { y with Y2cX20 := fun j => -y.Y2cX20 j, Y2cInh := fun j => -y.Y2cInh j }

theorem lin_mir (i : R2.In ℝ) : R2.linOf (mirIn i) = mirLin (R2.linOf i) := by
  simp only [R2.linOf, pre_mir]
  simp only [R2.lin, mirIn, mirCfg, mirSt, mirPre, mirLin, R2.Lin.mk.injEq]
  refine ⟨trivial, ?_, ?_, ?_⟩ <;> funext j <;> ring

/-- A term of the code in both `fX0` and `fXc` that does not change its sign as the others do; only the difference of
`fX0` and `fXc` is used. -/
noncomputable def shift (i : R2.In ℝ) (j : Nat) : ℝ :=
  2 * ((i.cfg.spsi * (i.cfg.I2 / i.cfg.B0) * (1 / 2) * i.cfg.sG * i.cfg.spsi * i.G0overB0) * i.cfg.curvature j)

noncomputable def mirFs (s : Nat → ℝ) (f : R2.Fs ℝ) : R2.Fs ℝ :=
  { f with
    fX0Inh := fun j => f.fX0Inh j + s j, fXcInh := fun j => f.fXcInh j + s j
    fX0Y20 := fun j => -f.fX0Y20 j, fXsX20 := fun j => -f.fXsX20 j, fXsInh := fun j => -f.fXsInh j
    fXcY20 := fun j => -f.fXcY20 j, fY0X20 := fun j => -f.fY0X20 j, fY0Inh := fun j => -f.fY0Inh j
    fYsY20 := fun j => -f.fYsY20 j, fYcX20 := fun j => -f.fYcX20 j, fYcInh := fun j => -f.fYcInh j }

theorem fs_mir (i : R2.In ℝ) : R2.fsOf (mirIn i) = mirFs (shift i) (R2.fsOf i) := by
  simp only [R2.fsOf, pre_mir, lin_mir]
  simp only [R2.fs, mirIn, mirCfg, mirR1, mirPre, mirLin, mirFs, shift, matVec_neg, R2.Fs.mk.injEq]
  refine ⟨?_, ?_, ?_, ?_, ?_, ?_, ?_, ?_, ?_, ?_, ?_, ?_, ?_, ?_, ?_, ?_, ?_, ?_⟩ <;>
    first | trivial | (funext j; ring)

/-! ## The linear system -/

/-- The signs of the equations. -/
noncomputable def rowSgn (n a : Nat) : ℝ := if a < n then -1 else 1
/-- The signs of the unknowns. -/
noncomputable def colSgn (n b : Nat) : ℝ := if b < n then 1 else -1

theorem rowSgn_or (n a : Nat) : rowSgn n a = 1 ∨ rowSgn n a = -1 := by
  unfold rowSgn; split <;> simp

theorem colSgn_or (n a : Nat) : colSgn n a = 1 ∨ colSgn n a = -1 := by
  unfold colSgn; split <;> simp

noncomputable def mirM (n : Nat) (m : Nat → Nat → ℝ) : Nat → Nat → ℝ := fun a b => rowSgn n a * m a b * colSgn n b

theorem forLoop_mir {N : Nat} {f f' : Nat → (Nat → Nat → ℝ) → Nat → Nat → ℝ} (n : Nat)
    (h : ∀ j, j < n → ∀ m, f' j (mirM N m) = mirM N (f j m)) (m : Nat → Nat → ℝ) :
    forLoop n f' (mirM N m) = mirM N (forLoop n f m) := by
  induction n with
  | zero => rfl
  | succ n ih => rw [forLoop_succ, forLoop_succ, ih fun j hj => h j (by omega), h n (by omega)]

theorem setE_mir (N : Nat) (m : Nat → Nat → ℝ) (a b : Nat) {v v' : ℝ} (h : v' = rowSgn N a * v * colSgn N b) :
    R2.setE (mirM N m) a b v' = mirM N (R2.setE m a b v) := by
  funext x y
  simp only [R2.setE, mirM, h]
  split
  · rename_i e; rw [e.1, e.2]
  · rfl

theorem matrix_mir (i : R2.In ℝ) :
    R2.matrix (mirIn i) (fun _ _ => 0) = fun a b => rowSgn i.cfg.nphi a * R2.matrix i (fun _ _ => 0) a b * colSgn i.cfg.nphi b := by
  have h0 : (fun _ _ => 0 : Nat → Nat → ℝ) = mirM i.cfg.nphi fun _ _ => 0 := by
    funext a b
    simp only [mirM, mul_zero, zero_mul]
  change _ = mirM i.cfg.nphi (R2.matrix i fun _ _ => 0)
  conv_lhs => rw [h0]
  unfold R2.matrix
  simp only [fs_mir, lin_mir]
  refine forLoop_mir _ (fun j hj m => ?_) _
  simp only [mirIn, mirCfg, mirR1, mirFs, mirLin]
  have hr1 : ∀ k, k < i.cfg.nphi → rowSgn i.cfg.nphi k = -1 := fun k h => if_pos h
  have hr2 : ∀ k, rowSgn i.cfg.nphi (k + i.cfg.nphi) = 1 := fun k => if_neg (by omega)
  have hc1 : ∀ k, k < i.cfg.nphi → colSgn i.cfg.nphi k = 1 := fun k h => if_pos h
  have hc2 : ∀ k, colSgn i.cfg.nphi (k + i.cfg.nphi) = -1 := fun k => if_neg (by omega)
  rw [forLoop_mir (f := fun k m => R2.setE (R2.setE (R2.setE (R2.setE m j k
      (i.r1.Y1c j * i.cfg.dDvarphi j k * (R2.linOf i).Y2sX20 k - i.r1.Y1s j * i.cfg.dDvarphi j k * (R2.linOf i).Y2cX20 k))
      j (k + i.cfg.nphi) (-2 * i.r1.Y1s j * i.cfg.dDvarphi j k))
      (j + i.cfg.nphi) k (-i.r1.X1c j * i.cfg.dDvarphi j k + i.r1.Y1s j * i.cfg.dDvarphi j k * (R2.linOf i).Y2sX20 k
        + i.r1.Y1c j * i.cfg.dDvarphi j k * (R2.linOf i).Y2cX20 k)) (j + i.cfg.nphi) (k + i.cfg.nphi) 0) _
    (fun k hk m => by
      rw [setE_mir _ _ _ _ (v := i.r1.Y1c j * i.cfg.dDvarphi j k * (R2.linOf i).Y2sX20 k
          - i.r1.Y1s j * i.cfg.dDvarphi j k * (R2.linOf i).Y2cX20 k) (by rw [hr1 j hj, hc1 k hk]; ring),
        setE_mir _ _ _ _ (v := -2 * i.r1.Y1s j * i.cfg.dDvarphi j k) (by rw [hr1 j hj, hc2]; ring),
        setE_mir _ _ _ _ (v := -i.r1.X1c j * i.cfg.dDvarphi j k + i.r1.Y1s j * i.cfg.dDvarphi j k * (R2.linOf i).Y2sX20 k
          + i.r1.Y1c j * i.cfg.dDvarphi j k * (R2.linOf i).Y2cX20 k) (by rw [hr2, hc1 k hk]; ring),
        setE_mir _ _ _ _ (v := 0) (by ring)])]
  generalize forLoop i.cfg.nphi _ m = M
  have key : ∀ (M : Nat → Nat → ℝ) (a b : Nat) (v v' : ℝ), v' = rowSgn i.cfg.nphi a * v * colSgn i.cfg.nphi b →
      R2.setE (mirM i.cfg.nphi M) a b (mirM i.cfg.nphi M a b + v') = mirM i.cfg.nphi (R2.setE M a b (M a b + v)) :=
    fun M a b v v' h => setE_mir _ _ _ _ (by simp only [mirM, h]; ring)
  have e : ∀ x a b c d : ℝ, x + a - b + c - d = x + (a - b + c - d) := fun x a b c d => by ring
  have e' : ∀ x a b c d g : ℝ, x - a + b - c + d + g = x + (-a + b - c + d + g) := fun x a b c d g => by ring
  simp only [e, e']
  generalize hfs : R2.fsOf i = f
  have z1 : f.fY0Y20 j = 0 := by rw [← hfs]; rfl
  have z2 : f.fYcY20 j = 0 := by rw [← hfs]; rfl
  rw [key M _ _ (i.r1.X1c j * f.fXsX20 j - i.r1.Y1s j * f.fY0X20 j + i.r1.Y1c j * f.fYsX20 j - i.r1.Y1s j * f.fYcX20 j) _
      (by rw [hr1 j hj, hc1 j hj]; ring),
    key _ _ _ (i.r1.X1c j * f.fXsY20 j - i.r1.Y1s j * f.fY0Y20 j + i.r1.Y1c j * f.fYsY20 j - i.r1.Y1s j * f.fYcY20 j) _
      (by rw [hr1 j hj, hc2]; ring),
    key _ _ _ (-(i.r1.X1c j * f.fX0X20 j) + i.r1.X1c j * f.fXcX20 j - i.r1.Y1c j * f.fY0X20 j + i.r1.Y1s j * f.fYsX20 j
      + i.r1.Y1c j * f.fYcX20 j) _ (by rw [hr2, hc1 j hj]; ring),
    key _ _ _ (-(i.r1.X1c j * f.fX0Y20 j) + i.r1.X1c j * f.fXcY20 j - i.r1.Y1c j * f.fY0Y20 j + i.r1.Y1s j * f.fYsY20 j
      + i.r1.Y1c j * f.fYcY20 j) _ (by rw [hr2, hc2, z1, z2]; ring)]

theorem rhs_mir (i : R2.In ℝ) : R2.rhs (mirIn i) = fun a => rowSgn i.cfg.nphi a * R2.rhs i a := by
  funext a
  simp only [R2.rhs, fs_mir, rowSgn]
  by_cases h : a < i.cfg.nphi
  · have h' : a < (mirIn i).cfg.nphi := h
    simp only [if_pos h, if_pos h']
    simp only [mirIn, mirR1, mirFs]
    ring
  · have h' : ¬a < (mirIn i).cfg.nphi := h
    simp only [if_neg h, if_neg h']
    simp only [mirIn, mirR1, mirFs, mirCfg]
    ring

/-! ## Values on the grid -/

/-- Two profiles agree on the grid. -/
def On (n : Nat) (f g : Nat → ℝ) : Prop := ∀ j, j < n → f j = g j

theorem forLoop_on {σ : Type} (n : Nat) {f g : Nat → σ → σ} (h : ∀ j, j < n → f j = g j) (s : σ) :
    forLoop n f s = forLoop n g s := by
  induction n with
  | zero => rfl
  | succ n ih => rw [forLoop_succ, forLoop_succ, ih fun j hj => h j (by omega), h n (by omega)]

theorem vsum_on {n : Nat} {f g : Nat → ℝ} (h : On n f g) : vsum n f = vsum n g :=
  forLoop_on n (fun j hj => by rw [h j hj]) 0

theorem matVec_on {n : Nat} (D : Nat → Nat → ℝ) {f g : Nat → ℝ} (h : On n f g) : matVec n D f = matVec n D g := by
  funext j
  exact vsum_on fun k hk => by rw [h k hk]

theorem vmax_on {n : Nat} (hn : 0 < n) {f g : Nat → ℝ} (h : On n f g) : vmax realOps n f = vmax realOps n g := by
  unfold vmax
  rw [h 0 hn]
  exact forLoop_on _ (fun j hj => by rw [h (j + 1) (by omega)]) _

theorem vmin_on {n : Nat} (hn : 0 < n) {f g : Nat → ℝ} (h : On n f g) : vmin realOps n f = vmin realOps n g := by
  unfold vmin
  rw [h 0 hn]
  exact forLoop_on _ (fun j hj => by rw [h (j + 1) (by omega)]) _

/-- Two profiles agree on the grid up to the sign. -/
def AbsOn (n : Nat) (f g : Nat → ℝ) : Prop := On n (fun j => |f j|) fun j => |g j|

theorem absMax_on {n : Nat} (hn : 0 < n) {f g : Nat → ℝ} (h : AbsOn n f g) {fs gs : List (Nat → ℝ)}
    (hs : List.Forall₂ (AbsOn n) fs gs) : R2.absMax realOps n f fs = R2.absMax realOps n g gs := by
  have e : ∀ {f g : Nat → ℝ}, AbsOn n f g → (vmax realOps n fun j => realOps.abs (f j)) = vmax realOps n fun j => realOps.abs (g j) :=
    fun h => vmax_on hn h
  unfold R2.absMax
  rw [e h]
  generalize (vmax realOps n fun j => realOps.abs (g j)) = m
  induction hs generalizing m with
  | nil => rfl
  | cons h1 _ ih => rw [List.foldl_cons, List.foldl_cons, e h1, ih]

theorem AbsOn.of_on {n : Nat} {f g : Nat → ℝ} (h : On n f g) : AbsOn n f g := fun j hj => by dsimp only; rw [h j hj]
theorem AbsOn.of_neg {n : Nat} {f g : Nat → ℝ} (h : On n f fun j => -g j) : AbsOn n f g := fun j hj => by
  dsimp only; rw [h j hj, abs_neg]
theorem On.rfl {n : Nat} {f : Nat → ℝ} : On n f f := fun _ _ => Eq.refl _
theorem on_of_eq {n : Nat} {f g : Nat → ℝ} (h : f = g) : On n f g := fun _ _ => by rw [h]

/-- The second order of the mirror image. -/
structure R2Rel (n : Nat) (r r' : R2.R2 ℝ) : Prop where
  X20 : On n r'.X20 r.X20
  Y20 : On n r'.Y20 fun j => -r.Y20 j
  Y2s : On n r'.Y2s r.Y2s
  Y2c : On n r'.Y2c fun j => -r.Y2c j
  B20 : On n r'.B20 r.B20
  variation : r'.variation = r.variation
  mean : r'.mean = r.mean
  anomaly : On n r'.anomaly r.anomaly
  residual : r'.residual = r.residual
  maxXY2 : r'.maxXY2 = r.maxXY2
  maxZ2 : r'.maxZ2 = r.maxZ2
  maxDXY2 : r'.maxDXY2 = r.maxDXY2
  maxD2XY2 : r'.maxD2XY2 = r.maxD2XY2
  maxDZ2 : r'.maxDZ2 = r.maxDZ2

theorem finish_mir (i : R2.In ℝ) (hn : 0 < i.cfg.nphi) (x : Nat → ℝ) :
    R2Rel i.cfg.nphi (R2.finish realOps i x) (R2.finish realOps (mirIn i) fun b => colSgn i.cfg.nphi b * x b) := by
  have hX : On i.cfg.nphi (R2.finish realOps (mirIn i) fun b => colSgn i.cfg.nphi b * x b).X20 (R2.finish realOps i x).X20 := by
    intro j hj
    change colSgn i.cfg.nphi j * x j = x j
    rw [colSgn, if_pos hj, one_mul]
  have hY0 : (R2.finish realOps (mirIn i) fun b => colSgn i.cfg.nphi b * x b).Y20 =
      fun j => -(R2.finish realOps i x).Y20 j := by
    funext j
    change colSgn i.cfg.nphi (j + i.cfg.nphi) * x (j + i.cfg.nphi) = -x (j + i.cfg.nphi)
    rw [colSgn, if_neg (by omega), neg_mul, one_mul]
  have hYs : On i.cfg.nphi (R2.finish realOps (mirIn i) fun b => colSgn i.cfg.nphi b * x b).Y2s (R2.finish realOps i x).Y2s := by
    intro j hj
    change (R2.linOf (mirIn i)).Y2sInh j + (R2.linOf (mirIn i)).Y2sX20 j *
      (R2.finish realOps (mirIn i) fun b => colSgn i.cfg.nphi b * x b).X20 j = _
    rw [hX j hj, lin_mir]
    rfl
  have hYc : On i.cfg.nphi (R2.finish realOps (mirIn i) fun b => colSgn i.cfg.nphi b * x b).Y2c
      fun j => -(R2.finish realOps i x).Y2c j := by
    intro j hj
    change (R2.linOf (mirIn i)).Y2cInh j + (R2.linOf (mirIn i)).Y2cX20 j *
      (R2.finish realOps (mirIn i) fun b => colSgn i.cfg.nphi b * x b).X20 j
      + (R2.finish realOps (mirIn i) fun b => colSgn i.cfg.nphi b * x b).Y20 j = -((R2.linOf i).Y2cInh j
      + (R2.linOf i).Y2cX20 j * (R2.finish realOps i x).X20 j + (R2.finish realOps i x).Y20 j)
    rw [hX j hj, hY0, lin_mir]
    simp only [mirLin]
    ring
  have hB : On i.cfg.nphi (R2.finish realOps (mirIn i) fun b => colSgn i.cfg.nphi b * x b).B20 (R2.finish realOps i x).B20 := by
    intro j hj
    change i.cfg.B0 * (i.cfg.curvature j * (R2.finish realOps (mirIn i) fun b => colSgn i.cfg.nphi b * x b).X20 j
      - i.B0overG0 * (R2.pre (mirIn i)).dZ20 j + 1 / 2 * i.cfg.etaBar * i.cfg.etaBar - i.mu0 * i.p2 / (i.cfg.B0 * i.cfg.B0)
      - 1 / 4 * i.B0overG0 * i.B0overG0 * ((R2.pre (mirIn i)).qc j * (R2.pre (mirIn i)).qc j
        + (R2.pre (mirIn i)).qs j * (R2.pre (mirIn i)).qs j + (R2.pre (mirIn i)).rc j * (R2.pre (mirIn i)).rc j
        + (R2.pre (mirIn i)).rs j * (R2.pre (mirIn i)).rs j)) = _
    rw [hX j hj, pre_mir]
    simp only [mirPre, neg_mul_neg]
    rfl
  have hm : (R2.finish realOps (mirIn i) fun b => colSgn i.cfg.nphi b * x b).mean = (R2.finish realOps i x).mean := by
    change vsum i.cfg.nphi (fun j => (R2.finish realOps (mirIn i) fun b => colSgn i.cfg.nphi b * x b).B20 j * i.cfg.dl j)
      * (1 / vsum i.cfg.nphi i.cfg.dl) = vsum i.cfg.nphi (fun j => (R2.finish realOps i x).B20 j * i.cfg.dl j)
      * (1 / vsum i.cfg.nphi i.cfg.dl)
    rw [vsum_on fun j hj => by rw [hB j hj]]
  have hA : On i.cfg.nphi (R2.finish realOps (mirIn i) fun b => colSgn i.cfg.nphi b * x b).anomaly
      (R2.finish realOps i x).anomaly := by
    intro j hj
    change (R2.finish realOps (mirIn i) fun b => colSgn i.cfg.nphi b * x b).B20 j
      - (R2.finish realOps (mirIn i) fun b => colSgn i.cfg.nphi b * x b).mean = _
    rw [hB j hj, hm]
    rfl
  have hp := pre_mir i
  have d1 := matVec_on i.cfg.dDvarphi hX
  have d3 := matVec_on i.cfg.dDvarphi hYs
  have d4 := (matVec_on i.cfg.dDvarphi hYc).trans (matVec_neg _ _ _)
  have d2 := (congrArg (matVec i.cfg.nphi i.cfg.dDvarphi) hY0).trans (matVec_neg _ _ _)
  refine ⟨hX, on_of_eq hY0, hYs, hYc, hB, ?_, hm, hA, ?_, ?_, ?_, ?_, ?_, ?_⟩
  · exact congrArg₂ (· - ·) (vmax_on hn hB) (vmin_on hn hB)
  · change realOps.sqrt (vsum i.cfg.nphi (fun j => (R2.finish realOps (mirIn i) fun b => colSgn i.cfg.nphi b * x b).anomaly j
      * (R2.finish realOps (mirIn i) fun b => colSgn i.cfg.nphi b * x b).anomaly j * i.cfg.dl j)
      * (1 / vsum i.cfg.nphi i.cfg.dl)) / i.cfg.B0 = realOps.sqrt (vsum i.cfg.nphi (fun j =>
      (R2.finish realOps i x).anomaly j * (R2.finish realOps i x).anomaly j * i.cfg.dl j)
      * (1 / vsum i.cfg.nphi i.cfg.dl)) / i.cfg.B0
    rw [vsum_on fun j hj => by rw [hA j hj]]
  · refine absMax_on hn (.of_on hX) (.cons (.of_neg ?_) (.cons (.of_on ?_) (.cons (.of_neg (on_of_eq hY0))
      (.cons (.of_on hYs) (.cons (.of_neg hYc) .nil)))))
    · exact on_of_eq (congrArg R2.Pre.X2s hp)
    · exact on_of_eq (congrArg R2.Pre.X2c hp :)
  · refine absMax_on hn (.of_on ?_) (.cons (.of_neg ?_) (.cons (.of_on ?_) .nil))
    · exact on_of_eq (congrArg R2.Pre.Z20 hp :)
    · exact on_of_eq (congrArg R2.Pre.Z2s hp)
    · exact on_of_eq (congrArg R2.Pre.Z2c hp :)
  · refine absMax_on hn (.of_on (on_of_eq d1)) (.cons (.of_neg ?_) (.cons (.of_on ?_) (.cons (.of_neg (on_of_eq d2))
      (.cons (.of_on (on_of_eq d3)) (.cons (.of_neg (on_of_eq d4)) .nil)))))
    · exact on_of_eq (congrArg R2.Pre.dX2s hp)
    · exact on_of_eq (congrArg R2.Pre.dX2c hp :)
  · refine absMax_on hn (.of_on (on_of_eq (congrArg (matVec i.cfg.nphi i.cfg.dDvarphi) d1))) (.cons (.of_neg ?_)
      (.cons (.of_on ?_) (.cons (.of_neg (on_of_eq ((congrArg (matVec i.cfg.nphi i.cfg.dDvarphi) d2).trans (matVec_neg _ _ _))))
      (.cons (.of_on (on_of_eq (congrArg (matVec i.cfg.nphi i.cfg.dDvarphi) d3)))
      (.cons (.of_neg (on_of_eq ((congrArg (matVec i.cfg.nphi i.cfg.dDvarphi) d4).trans (matVec_neg _ _ _)))) .nil)))))
    · exact on_of_eq ((congrArg (matVec i.cfg.nphi i.cfg.dDvarphi) (congrArg R2.Pre.dX2s hp)).trans (matVec_neg _ _ _))
    · exact on_of_eq (congrArg (matVec i.cfg.nphi i.cfg.dDvarphi) (congrArg R2.Pre.dX2c hp :) :)
  · refine absMax_on hn (.of_on ?_) (.cons (.of_neg ?_) (.cons (.of_on ?_) .nil))
    · exact on_of_eq (congrArg R2.Pre.dZ20 hp :)
    · exact on_of_eq (congrArg R2.Pre.dZ2s hp)
    · exact on_of_eq (congrArg R2.Pre.dZ2c hp :)

/-- The third order of the mirror image. -/
structure R3Rel (n : Nat) (t t' : R2.R2p1 ℝ) : Prop where
  lambda : On n t'.lambda t.lambda
  X3c1 : On n t'.X3c1 t.X3c1
  Y3c1 : On n t'.Y3c1 fun j => -t.Y3c1 j
  Y3s1 : On n t'.Y3s1 t.Y3s1
  maxXY3 : t'.maxXY3 = t.maxXY3
  maxDXY3 : t'.maxDXY3 = t.maxDXY3
  maxD2XY3 : t'.maxD2XY3 = t.maxD2XY3

theorem r2p1_mir (i : R2.In ℝ) (hn : 0 < i.cfg.nphi) {r r' : R2.R2 ℝ} (h : R2Rel i.cfg.nphi r r') :
    R3Rel i.cfg.nphi (R2.r2p1 realOps i r) (R2.r2p1 realOps (mirIn i) r') := by
  have hl : On i.cfg.nphi (R2.r2p1 realOps (mirIn i) r').lambda (R2.r2p1 realOps i r).lambda := by
    intro j hj
    simp only [R2.r2p1, pre_mir, h.X20 j hj, h.Y2s j hj, h.Y2c j hj]
    simp only [mirIn, mirCfg, mirR1, mirPre]
    ring
  have hX : On i.cfg.nphi (R2.r2p1 realOps (mirIn i) r').X3c1 (R2.r2p1 realOps i r).X3c1 := by
    intro j hj
    change i.r1.X1c j * (R2.r2p1 realOps (mirIn i) r').lambda j = _
    rw [hl j hj]; rfl
  have hY : On i.cfg.nphi (R2.r2p1 realOps (mirIn i) r').Y3c1 fun j => -(R2.r2p1 realOps i r).Y3c1 j := by
    intro j hj
    change -i.r1.Y1c j * (R2.r2p1 realOps (mirIn i) r').lambda j = -(i.r1.Y1c j * (R2.r2p1 realOps i r).lambda j)
    rw [hl j hj, neg_mul]
  have hS : On i.cfg.nphi (R2.r2p1 realOps (mirIn i) r').Y3s1 (R2.r2p1 realOps i r).Y3s1 := by
    intro j hj
    change i.r1.Y1s j * (R2.r2p1 realOps (mirIn i) r').lambda j = _
    rw [hl j hj]; rfl
  have d1 := matVec_on i.cfg.dDvarphi hX
  have d2 := (matVec_on i.cfg.dDvarphi hY).trans (matVec_neg _ _ _)
  have d3 := matVec_on i.cfg.dDvarphi hS
  exact ⟨hl, hX, hY, hS,
    absMax_on hn (.of_on hX) (.cons (.of_neg hY) (.cons (.of_on hS) .nil)),
    absMax_on hn (.of_on (on_of_eq d1)) (.cons (.of_neg (on_of_eq d2)) (.cons (.of_on (on_of_eq d3)) .nil)),
    absMax_on hn (.of_on (on_of_eq (congrArg (matVec i.cfg.nphi i.cfg.dDvarphi) d1)))
      (.cons (.of_neg (on_of_eq ((congrArg (matVec i.cfg.nphi i.cfg.dDvarphi) d2).trans (matVec_neg _ _ _))))
      (.cons (.of_on (on_of_eq (congrArg (matVec i.cfg.nphi i.cfg.dDvarphi) d3))) .nil))⟩

theorem mercier_mir (i : R2.In ℝ) (mean dPhi len : ℝ) :
    R2.mercier realOps (mirIn i) mean dPhi len = R2.mercier realOps i mean dPhi len := by
  simp only [R2.mercier, pre_mir]
  simp only [mirIn, mirCfg, mirR1, mirSt, mirPre, neg_mul_neg, mul_neg2]

/-! ## The gradient of the gradient -/

section
open Qsc.GradGradB

noncomputable def mirAt (v : At ℝ) : At ℝ :=
  { v with
    I2 := -v.I2, iota := -v.iota, iotaN := -v.iotaN, tor := -v.tor, dtor := -v.dtor
    Y1c := -v.Y1c, dY1c := -v.dY1c, d2Y1c := -v.d2Y1c
    X2s := -v.X2s, dX2s := -v.dX2s, Y20 := -v.Y20, Y2c := -v.Y2c, dY20 := -v.dY20, dY2c := -v.dY2c
    Z2s := -v.Z2s, dZ2s := -v.dZ2s, B2s := -v.B2s }

theorem at_mir (i : R2.In ℝ) {r r' : R2.R2 ℝ} (h : R2Rel i.cfg.nphi r r') {j : Nat} (hj : j < i.cfg.nphi) :
    At.of (mirIn i) r' j = mirAt (At.of i r j) := by
  have d1 := matVec_on i.cfg.dDvarphi h.X20
  have d2 := (matVec_on i.cfg.dDvarphi h.Y20).trans (matVec_neg _ _ _)
  have d3 := matVec_on i.cfg.dDvarphi h.Y2s
  have d4 := (matVec_on i.cfg.dDvarphi h.Y2c).trans (matVec_neg _ _ _)
  simp only [At.of, pre_mir]
  simp only [mirIn, mirCfg, mirR1, mirSt, mirPre, mirAt, matVec_neg, d1, d2, d3, d4, h.X20 j hj, h.Y20 j hj, h.Y2s j hj,
    h.Y2c j hj, h.B20 j hj]

theorem main000_mir (v : At ℝ) : main000 (mirAt v) = main000 v := by
  simp only [main000, mirAt]; ring

theorem main001_mir (v : At ℝ) : main001 (mirAt v) = -main001 v := by
  simp only [main001, mirAt]; ring

theorem main002_mir (v : At ℝ) : main002 (mirAt v) = main002 v := by
  simp only [main002, mirAt]; ring

theorem main010_mir (v : At ℝ) : main010 (mirAt v) = -main010 v := by
  simp only [main010, mirAt]; ring

theorem main011_mir (v : At ℝ) : main011 (mirAt v) = main011 v := by
  simp only [main011, mirAt]; ring

theorem main012_mir (v : At ℝ) : main012 (mirAt v) = -main012 v := by
  simp only [main012, mirAt]; ring

theorem main020_mir (v : At ℝ) : main020 (mirAt v) = main020 v := by
  simp only [main020, mirAt]; ring

theorem main021_mir (v : At ℝ) : main021 (mirAt v) = -main021 v := by
  simp only [main021, mirAt]; ring

theorem main022_mir (v : At ℝ) : main022 (mirAt v) = main022 v := by
  simp only [main022, mirAt]; ring

theorem main100_mir (v : At ℝ) : main100 (mirAt v) = -main100 v := by
  simp only [main100, mirAt]; ring

theorem main101_mir (v : At ℝ) : main101 (mirAt v) = main101 v := by
  simp only [main101, mirAt]; ring

theorem main102_mir (v : At ℝ) : main102 (mirAt v) = -main102 v := by
  simp only [main102, mirAt]; ring

theorem main110_mir (v : At ℝ) : main110 (mirAt v) = main110 v := by
  simp only [main110, mirAt]; ring

theorem main111_mir (v : At ℝ) : main111 (mirAt v) = -main111 v := by
  simp only [main111, mirAt]; ring

theorem main112_mir (v : At ℝ) : main112 (mirAt v) = main112 v := by
  simp only [main112, mirAt]; ring

theorem main120_mir (v : At ℝ) : main120 (mirAt v) = -main120 v := by
  simp only [main120, mirAt]; ring

theorem main121_mir (v : At ℝ) : main121 (mirAt v) = main121 v := by
  simp only [main121, mirAt]; ring

theorem main122_mir (v : At ℝ) : main122 (mirAt v) = -main122 v := by
  simp only [main122, mirAt]; ring

theorem main200_mir (v : At ℝ) : main200 (mirAt v) = main200 v := by
  simp only [main200, mirAt]; ring

theorem main201_mir (v : At ℝ) : main201 (mirAt v) = -main201 v := by
  simp only [main201, mirAt]; ring

theorem main202_mir (v : At ℝ) : main202 (mirAt v) = main202 v := by
  simp only [main202, mirAt]; ring

theorem main210_mir (v : At ℝ) : main210 (mirAt v) = -main210 v := by
  simp only [main210, mirAt]; ring

theorem main211_mir (v : At ℝ) : main211 (mirAt v) = main211 v := by
  simp only [main211, mirAt]; ring

theorem main212_mir (v : At ℝ) : main212 (mirAt v) = -main212 v := by
  simp only [main212, mirAt]; ring

theorem main220_mir (v : At ℝ) : main220 (mirAt v) = main220 v := by
  simp only [main220, mirAt]; ring

theorem main221_mir (v : At ℝ) : main221 (mirAt v) = -main221 v := by
  simp only [main221, mirAt]; ring

theorem main222_mir (v : At ℝ) : main222 (mirAt v) = main222 v := by
  simp only [main222, mirAt]

theorem main_mir (v : At ℝ) : main (mirAt v) = fun x y z => bsgn x * bsgn y * bsgn z * main v x y z := by
  have e0 : bsgn 0 = 1 := if_neg (by decide)
  have e1 : bsgn 1 = -1 := if_pos rfl
  have e2 : bsgn 2 = 1 := if_neg (by decide)
  funext x y z
  unfold main
  split
  · simp only [main000_mir, e0, e1, e2, mul_one, one_mul, mul_neg, neg_mul, neg_neg]
  · simp only [main001_mir, e0, e1, e2, mul_one, one_mul, mul_neg, neg_mul, neg_neg]
  · simp only [main002_mir, e0, e1, e2, mul_one, one_mul, mul_neg, neg_mul, neg_neg]
  · simp only [main010_mir, e0, e1, e2, mul_one, one_mul, mul_neg, neg_mul, neg_neg]
  · simp only [main011_mir, e0, e1, e2, mul_one, one_mul, mul_neg, neg_mul, neg_neg]
  · simp only [main012_mir, e0, e1, e2, mul_one, one_mul, mul_neg, neg_mul, neg_neg]
  · simp only [main020_mir, e0, e1, e2, mul_one, one_mul, mul_neg, neg_mul, neg_neg]
  · simp only [main021_mir, e0, e1, e2, mul_one, one_mul, mul_neg, neg_mul, neg_neg]
  · simp only [main022_mir, e0, e1, e2, mul_one, one_mul, mul_neg, neg_mul, neg_neg]
  · simp only [main100_mir, e0, e1, e2, mul_one, one_mul, mul_neg, neg_mul, neg_neg]
  · simp only [main101_mir, e0, e1, e2, mul_one, one_mul, mul_neg, neg_mul, neg_neg]
  · simp only [main102_mir, e0, e1, e2, mul_one, one_mul, mul_neg, neg_mul, neg_neg]
  · simp only [main110_mir, e0, e1, e2, mul_one, one_mul, mul_neg, neg_mul, neg_neg]
  · simp only [main111_mir, e0, e1, e2, mul_one, one_mul, mul_neg, neg_mul, neg_neg]
  · simp only [main112_mir, e0, e1, e2, mul_one, one_mul, mul_neg, neg_mul, neg_neg]
  · simp only [main120_mir, e0, e1, e2, mul_one, one_mul, mul_neg, neg_mul, neg_neg]
  · simp only [main121_mir, e0, e1, e2, mul_one, one_mul, mul_neg, neg_mul, neg_neg]
  · simp only [main122_mir, e0, e1, e2, mul_one, one_mul, mul_neg, neg_mul, neg_neg]
  · simp only [main200_mir, e0, e1, e2, mul_one, one_mul, mul_neg, neg_mul, neg_neg]
  · simp only [main201_mir, e0, e1, e2, mul_one, one_mul, mul_neg, neg_mul, neg_neg]
  · simp only [main202_mir, e0, e1, e2, mul_one, one_mul, mul_neg, neg_mul, neg_neg]
  · simp only [main210_mir, e0, e1, e2, mul_one, one_mul, mul_neg, neg_mul, neg_neg]
  · simp only [main211_mir, e0, e1, e2, mul_one, one_mul, mul_neg, neg_mul, neg_neg]
  · simp only [main212_mir, e0, e1, e2, mul_one, one_mul, mul_neg, neg_mul, neg_neg]
  · simp only [main220_mir, e0, e1, e2, mul_one, one_mul, mul_neg, neg_mul, neg_neg]
  · simp only [main221_mir, e0, e1, e2, mul_one, one_mul, mul_neg, neg_mul, neg_neg]
  · simp only [main222_mir, e0, e1, e2, mul_one, one_mul, mul_neg, neg_mul, neg_neg]
  · rw [mul_zero]

theorem LgradGradB_mir (v : At ℝ) : LgradGradB realOps (mirAt v) = LgradGradB realOps v := by
  simp only [LgradGradB, main_mir]
  have e0 : bsgn 0 = 1 := if_neg (by decide)
  have e1 : bsgn 1 = -1 := if_pos rfl
  have e2 : bsgn 2 = 1 := if_neg (by decide)
  simp only [e0, e1, e2, mul_one, one_mul, mul_neg, neg_mul, neg_neg]
  rfl

theorem LgradGradBInverse_mir (v : At ℝ) : LgradGradBInverse realOps (mirAt v) = LgradGradBInverse realOps v := by
  simp only [LgradGradBInverse, LgradGradB_mir]

theorem minLgradGradB_mir (i : R2.In ℝ) (hn : 0 < i.cfg.nphi) {r r' : R2.R2 ℝ} (h : R2Rel i.cfg.nphi r r') :
    minLgradGradB realOps (mirIn i) r' = minLgradGradB realOps i r :=
  vmin_on hn fun j hj => by rw [at_mir i h hj, LgradGradB_mir]

end

end Qsc.Mirror
