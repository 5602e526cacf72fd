import Verif.Lemmas.SymmetryFirst
import Verif.Lemmas.R2
import Verif.Props.SingleSecond

/-!
# Lemmas on stellarator symmetry: the solution of second order
-/

namespace Qsc.Symmetry
open Qsc.Spec.Symmetry Qsc.R2

/-- What the second-order calculation reads in a symmetric configuration. -/
structure SymIn (n : Nat) (i : In ℝ) : Prop where
  cfg : SymCfg n i.cfg
  sigma : Odd n i.st.sigma
  first : SymFirst n i.cfg i.r1
  B2s : i.B2s = 0

variable {n : Nat} {i : In ℝ}

/-- Multiplication with `d_d_varphi`. -/
noncomputable abbrev der (i : In ℝ) (f : Nat → ℝ) : Nat → ℝ := matVec i.cfg.nphi i.cfg.dDvarphi f

theorem SymIn.even (h : SymIn n i) {f : Nat → ℝ} (hf : Even n f) : Odd n (der i f) := by
  have := h.cfg.D.even hf
  rwa [← h.cfg.nphi] at this ⊢

theorem SymIn.odd (h : SymIn n i) {f : Nat → ℝ} (hf : Odd n f) : Even n (der i f) := by
  have := h.cfg.D.odd hf
  rwa [← h.cfg.nphi] at this ⊢

/-- The parities of the first quantities. -/
structure SymPre (n : Nat) (a : Pre ℝ) : Prop where
  V1 : Even n a.V1
  V2 : Odd n a.V2
  V3 : Even n a.V3
  Z20 : Odd n a.Z20
  Z2s : Even n a.Z2s
  Z2c : Odd n a.Z2c
  dZ20 : Even n a.dZ20
  dZ2s : Odd n a.dZ2s
  dZ2c : Even n a.dZ2c
  qs : Even n a.qs
  qc : Odd n a.qc
  rs : Odd n a.rs
  rc : Even n a.rc
  X2s : Odd n a.X2s
  X2c : Even n a.X2c
  dX2s : Even n a.dX2s
  dX2c : Odd n a.dX2c

theorem symPre (h : SymIn n i) : SymPre n (pre i) := by
  have hX := h.first.X1c
  have hYs := h.first.Y1s
  have hYc := h.first.Y1c
  have hk := h.cfg.curvature
  have ht := h.cfg.torsion
  have V1 : Even n (pre i).V1 := fun j hj => by
    simp only [pre]; rw [hX j hj, hYs j hj, hYc j hj]; ring
  have V2 : Odd n (pre i).V2 := fun j hj => by
    simp only [pre]; rw [hYs j hj, hYc j hj]; ring
  have V3 : Even n (pre i).V3 := fun j hj => by
    simp only [pre]; rw [hX j hj, hYs j hj, hYc j hj]; ring
  have Z20 : Odd n (pre i).Z20 := fun j hj => by
    have e : ∀ j, (pre i).Z20 j = der i (pre i).V1 j * (-i.B0overG0 / 8) := fun _ => rfl
    rw [e, e, h.even V1 j hj]; ring
  have Z2s : Even n (pre i).Z2s := fun j hj => by
    have e : ∀ j, (pre i).Z2s j = -i.B0overG0 / 8 * (der i (pre i).V2 j - 2 * i.r1.iotaN * (pre i).V3 j) := fun _ => rfl
    rw [e, e, h.odd V2 j hj, V3 j hj]
  have Z2c : Odd n (pre i).Z2c := fun j hj => by
    have e : ∀ j, (pre i).Z2c j = -i.B0overG0 / 8 * (der i (pre i).V3 j + 2 * i.r1.iotaN * (pre i).V2 j) := fun _ => rfl
    rw [e, e, h.even V3 j hj, V2 j hj]; ring
  have qs : Even n (pre i).qs := fun j hj => by
    simp only [pre]; rw [hX j hj, hYs j hj, ht j hj]
  have qc : Odd n (pre i).qc := fun j hj => by
    have e : ∀ j, (pre i).qc j = der i i.r1.X1c j - i.G0overB0 * i.r1.Y1c j * i.cfg.torsion j := fun _ => rfl
    rw [e, e, h.even hX j hj, hYc j hj, ht j hj]; ring
  have rs : Odd n (pre i).rs := fun j hj => by
    have e : ∀ j, (pre i).rs j = der i i.r1.Y1s j - i.r1.iotaN * i.r1.Y1c j := fun _ => rfl
    rw [e, e, h.even hYs j hj, hYc j hj]; ring
  have rc : Even n (pre i).rc := fun j hj => by
    have e : ∀ j, (pre i).rc j = der i i.r1.Y1c j + (i.r1.iotaN * i.r1.Y1s j + i.r1.X1c j * i.cfg.torsion j * i.G0overB0) :=
      fun _ => rfl
    rw [e, e, h.odd hYc j hj, hX j hj, hYs j hj, ht j hj]
  have X2s : Odd n (pre i).X2s := fun j hj => by
    have e : ∀ j, (pre i).X2s j = i.B0overG0 * (der i (pre i).Z2s j - (2 * i.r1.iotaN) * (pre i).Z2c j
        + i.B0overG0 * (i.G0overB0 * i.G0overB0 * i.B2s / i.cfg.B0 +
          ((pre i).qc j * (pre i).qs j + (pre i).rc j * (pre i).rs j) * (1 / 2))) / i.cfg.curvature j := fun _ => rfl
    rw [e, e, h.even Z2s j hj, Z2c j hj, qc j hj, qs j hj, rc j hj, rs j hj, hk j hj, h.B2s]; ring
  have X2c : Even n (pre i).X2c := fun j hj => by
    have e : ∀ j, (pre i).X2c j = i.B0overG0 * (der i (pre i).Z2c j + (2 * i.r1.iotaN) * (pre i).Z2s j
        - i.B0overG0 * (-i.G0overB0 * i.G0overB0 * i.B2c / i.cfg.B0 + i.G0overB0 * i.G0overB0 * i.cfg.etaBar * i.cfg.etaBar / 2
          - ((pre i).qc j * (pre i).qc j - (pre i).qs j * (pre i).qs j + (pre i).rc j * (pre i).rc j
            - (pre i).rs j * (pre i).rs j) * (1 / 4))) / i.cfg.curvature j := fun _ => rfl
    rw [e, e, h.odd Z2c j hj, Z2s j hj, qc j hj, qs j hj, rc j hj, rs j hj, hk j hj]; ring
  exact ⟨V1, V2, V3, Z20, Z2s, Z2c, h.odd Z20, h.even Z2s, h.odd Z2c, qs, qc, rs, rc, X2s, X2c, h.odd X2s, h.even X2c⟩

structure SymLin (n : Nat) (y : Lin ℝ) : Prop where
  Y2sX20 : Even n y.Y2sX20
  Y2sInh : Even n y.Y2sInh
  Y2cX20 : Odd n y.Y2cX20
  Y2cInh : Odd n y.Y2cInh

theorem symLin (h : SymIn n i) : SymLin n (linOf i) := by
  have ha := symPre h
  refine ⟨fun j hj => ?_, fun j hj => ?_, fun j hj => ?_, fun j hj => ?_⟩
  all_goals simp only [linOf, lin]
  · rw [h.cfg.curvature j hj]
  · rw [h.cfg.curvature j hj, ha.X2c j hj, ha.X2s j hj, h.sigma j hj]; ring
  · rw [h.cfg.curvature j hj, h.sigma j hj]; ring
  · rw [h.cfg.curvature j hj, ha.X2c j hj, ha.X2s j hj, h.sigma j hj]; ring

structure SymFs (n : Nat) (f : Fs ℝ) : Prop where
  fX0X20 : Odd n f.fX0X20
  fX0Y20 : Even n f.fX0Y20
  fXsX20 : Even n f.fXsX20
  fXsY20 : Odd n f.fXsY20
  fXsInh : Even n f.fXsInh
  fXcX20 : Odd n f.fXcX20
  fXcY20 : Even n f.fXcY20
  diff : Odd n fun j => f.fXcInh j - f.fX0Inh j
  fY0X20 : Even n f.fY0X20
  fY0Y20 : ∀ j, f.fY0Y20 j = 0
  fY0Inh : Even n f.fY0Inh
  fYsX20 : Odd n f.fYsX20
  fYsY20 : Even n f.fYsY20
  fYsInh : Odd n f.fYsInh
  fYcX20 : Even n f.fYcX20
  fYcY20 : ∀ j, f.fYcY20 j = 0
  fYcInh : Even n f.fYcInh

theorem symFs (h : SymIn n i) : SymFs n (fsOf i) := by
  have ha := symPre h
  have hy := symLin h
  have e1 := h.even hy.Y2sInh
  have e2 := h.odd hy.Y2cInh
  simp only [der] at e1 e2
  have hX := h.first.X1c
  have hYs := h.first.Y1s
  have hYc := h.first.Y1c
  have hk := h.cfg.curvature
  have ht := h.cfg.torsion
  refine ⟨fun j hj => ?_, fun j hj => ?_, fun j hj => ?_, fun j hj => ?_, fun j hj => ?_, fun j hj => ?_, fun j hj => ?_,
    fun j hj => ?_, fun j hj => ?_, fun j => rfl, fun j hj => ?_, fun j hj => ?_, fun j hj => ?_, fun j hj => ?_,
    fun j hj => ?_, fun j => rfl, fun j hj => ?_⟩
  all_goals
    simp only [fsOf, fs, ha.Z20 j hj, ha.Z2s j hj, ha.Z2c j hj, ha.X2s j hj, ha.X2c j hj, ha.dX2s j hj, ha.dX2c j hj,
      hy.Y2sX20 j hj, hy.Y2sInh j hj, hy.Y2cX20 j hj, hy.Y2cInh j hj, hX j hj, hYs j hj, hYc j hj, hk j hj, ht j hj,
      e1 j hj, e2 j hj]
  all_goals ring

theorem symRhs (h : SymIn n i) : (∀ j < n, rhs i (mirror n j) = rhs i j) ∧
    ∀ j < n, rhs i (mirror n j + n) = -rhs i (j + n) := by
  have hf := symFs h
  have hX := h.first.X1c
  have hYs := h.first.Y1s
  have hYc := h.first.Y1c
  constructor
  · intro j hj
    simp only [rhs, h.cfg.nphi]
    rw [if_pos hj, if_pos (mirror_lt hj), hX j hj, hYs j hj, hYc j hj, hf.fXsInh j hj, hf.fY0Inh j hj, hf.fYsInh j hj,
      hf.fYcInh j hj]
    ring
  · intro j hj
    have hd := hf.diff j hj
    dsimp only at hd
    simp only [rhs, h.cfg.nphi]
    rw [if_neg (by omega), if_neg (by omega), Nat.add_sub_cancel, Nat.add_sub_cancel, hX j hj, hYs j hj, hYc j hj,
      hf.fY0Inh j hj, hf.fYsInh j hj, hf.fYcInh j hj]
    linear_combination -(i.r1.X1c j) * hd

theorem mirror_inj {j k : Nat} (hj : j < n) (hk : k < n) : mirror n k = mirror n j ↔ k = j :=
  ⟨fun h => by rw [← mirror_mirror hk, h, mirror_mirror hj], fun h => by rw [h]⟩

theorem symBlocks (h : SymIn n i) {j k : Nat} (hj : j < n) (hk : k < n) :
    blk11 i (mirror n j) (mirror n k) = blk11 i j k ∧ blk12 i (mirror n j) (mirror n k) = -blk12 i j k ∧
    blk21 i (mirror n j) (mirror n k) = -blk21 i j k ∧ blk22 i (mirror n j) (mirror n k) = blk22 i j k := by
  have hf := symFs h
  have hy := symLin h
  have hX := h.first.X1c
  have hYs := h.first.Y1s
  have hYc := h.first.Y1c
  unfold blk11 blk12 blk21 blk22
  simp only [mirror_inj hj hk, hX j hj, hYs j hj, hYc j hj, h.cfg.D j hj k hk, hy.Y2sX20 k hk, hy.Y2cX20 k hk,
    hf.fX0X20 j hj, hf.fX0Y20 j hj, hf.fXsX20 j hj, hf.fXsY20 j hj, hf.fXcX20 j hj, hf.fXcY20 j hj, hf.fY0X20 j hj,
    hf.fY0Y20, hf.fYsX20 j hj, hf.fYsY20 j hj, hf.fYcX20 j hj, hf.fYcY20]
  by_cases e : k = j
  · simp only [e, if_true]
    refine ⟨?_, ?_, ?_, ?_⟩ <;> ring
  · simp only [e, if_false]
    refine ⟨?_, ?_, ?_, trivial⟩ <;> ring

/-- The only solution of the linear system is symmetric. -/
theorem symSolution {gesv : Nat → (Nat → Nat → ℝ) → (Nat → ℝ) → Option (Nat → ℝ)} (hE : Exact gesv) (h : SymIn n i)
    {old : Nat → Nat → ℝ} {x : Nat → ℝ} (hx : gesv (2 * i.cfg.nphi) (matrix i old) (rhs i) = some x) :
    Even n x ∧ Odd n fun j => x (j + n) := by
  obtain ⟨h1, h2⟩ := hE _ _ _ _ hx
  have hn := h.cfg.nphi
  have hr := symRhs h
  have := h2 (fun b => if b < n then x (mirror n b) else -x (mirror n (b - n) + n)) fun a ha => by
    rw [hn] at ha
    by_cases hlt : a < n
    · have hm : mirror n a < i.cfg.nphi := by rw [hn]; exact mirror_lt hlt
      have e := h1 (mirror n a) (by omega)
      rw [(row_sums i old x hm).1, hr.1 a hlt] at e
      rw [(row_sums i old _ (hn ▸ hlt)).1, ← e, hn]
      congr 1
      · rw [← sum_mirror n fun k => blk11 i (mirror n a) k * x k]
        refine Finset.sum_congr rfl fun k hk => ?_
        have hk := Finset.mem_range.1 hk
        rw [(symBlocks h hlt hk).1, if_pos hk]
      · rw [← sum_mirror n fun k => blk12 i (mirror n a) k * x (k + n)]
        refine Finset.sum_congr rfl fun k hk => ?_
        have hk := Finset.mem_range.1 hk
        rw [(symBlocks h hlt hk).2.1, if_neg (by omega), Nat.add_sub_cancel]
        ring
    · obtain ⟨j, rfl⟩ : ∃ j, a = j + n := ⟨a - n, by omega⟩
      have hlt : j < n := by omega
      have hm : mirror n j < i.cfg.nphi := by rw [hn]; exact mirror_lt hlt
      have e := h1 (mirror n j + n) (by omega)
      have e' := (row_sums i old x hm).2
      rw [hn] at e'
      rw [hn, e', hr.2 j hlt] at e
      have e'' := (row_sums i old (fun b => if b < n then x (mirror n b) else -x (mirror n (b - n) + n))
        (hn ▸ hlt : j < i.cfg.nphi)).2
      rw [hn] at e''
      rw [hn, e'', ← neg_eq_iff_eq_neg.2 e, neg_add]
      congr 1
      · rw [← sum_mirror n fun k => blk21 i (mirror n j) k * x k, ← Finset.sum_neg_distrib]
        refine Finset.sum_congr rfl fun k hk => ?_
        have hk := Finset.mem_range.1 hk
        rw [(symBlocks h hlt hk).2.2.1, if_pos hk]
        ring
      · rw [← sum_mirror n fun k => blk22 i (mirror n j) k * x (k + n), ← Finset.sum_neg_distrib]
        refine Finset.sum_congr rfl fun k hk => ?_
        have hk := Finset.mem_range.1 hk
        rw [(symBlocks h hlt hk).2.2.2, if_neg (by omega), Nat.add_sub_cancel]
        ring
  rw [hn] at this
  constructor
  · intro j hj
    have := this j (by omega)
    rw [if_pos hj] at this
    exact this
  · intro j hj
    have := this (j + n) (by omega)
    rw [if_neg (by omega), Nat.add_sub_cancel] at this
    dsimp only
    linarith

/-- The parities of the solution of second order. -/
structure SymSecond (n : Nat) (r : R2.R2 ℝ) : Prop where
  X20 : Even n r.X20
  Y20 : Odd n r.Y20
  Y2s : Even n r.Y2s
  Y2c : Odd n r.Y2c
  B20 : Even n r.B20
  anomaly : Even n r.anomaly

theorem symSecond (h : SymIn n i) {x : Nat → ℝ} (h1 : Even n x) (h2 : Odd n fun j => x (j + n)) :
    SymSecond n (finish realOps i x) := by
  have ha := symPre h
  have hy := symLin h
  have h2' : Odd n (finish realOps i x).Y20 := by
    have : (finish realOps i x).Y20 = fun j => x (j + n) := by rw [← h.cfg.nphi]; rfl
    rw [this]; exact h2
  have hB : Even n (finish realOps i x).B20 := fun j hj => by
    simp only [finish]
    rw [h.cfg.curvature j hj, h1 j hj, ha.dZ20 j hj, ha.qc j hj, ha.qs j hj, ha.rc j hj, ha.rs j hj]; ring
  refine ⟨h1, h2', fun j hj => ?_, fun j hj => ?_, hB, fun j hj => ?_⟩
  · simp only [finish]
    rw [hy.Y2sInh j hj, hy.Y2sX20 j hj, h1 j hj]
  · have e : ∀ j, (finish realOps i x).Y2c j = (linOf i).Y2cInh j + (linOf i).Y2cX20 j * x j + (finish realOps i x).Y20 j :=
      fun _ => rfl
    rw [e, e, hy.Y2cInh j hj, hy.Y2cX20 j hj, h1 j hj, h2' j hj]; ring
  · have e : ∀ j, (finish realOps i x).anomaly j = (finish realOps i x).B20 j - (finish realOps i x).mean := fun _ => rfl
    rw [e, e, hB j hj]

/-- The parities of the quantities of `calculate_r2p1`. -/
structure SymThird (n : Nat) (t : R2p1 ℝ) : Prop where
  lambda : Even n t.lambda
  X3c1 : Even n t.X3c1
  Y3c1 : Odd n t.Y3c1
  Y3s1 : Even n t.Y3s1

theorem symThird (h : SymIn n i) {r : R2.R2 ℝ} (hr : SymSecond n r) : SymThird n (r2p1 realOps i r) := by
  have ha := symPre h
  have hX := h.first.X1c
  have hYs := h.first.Y1s
  have hYc := h.first.Y1c
  have hl : Even n (r2p1 realOps i r).lambda := fun j hj => by
    simp only [r2p1]
    rw [ha.X2c j hj, ha.X2s j hj, hr.Y2s j hj, hr.Y2c j hj, hr.X20 j hj, h.cfg.curvature j hj, ha.dZ20 j hj,
      h.cfg.torsion j hj, hX j hj, hYs j hj, hYc j hj, h.first.dX1c j hj, h.first.dY1c j hj]
    ring
  refine ⟨hl, fun j hj => ?_, fun j hj => ?_, fun j hj => ?_⟩
  · have e : ∀ j, (r2p1 realOps i r).X3c1 j = i.r1.X1c j * (r2p1 realOps i r).lambda j := fun _ => rfl
    rw [e, e, hX j hj, hl j hj]
  · have e : ∀ j, (r2p1 realOps i r).Y3c1 j = i.r1.Y1c j * (r2p1 realOps i r).lambda j := fun _ => rfl
    rw [e, e, hYc j hj, hl j hj]; ring
  · have e : ∀ j, (r2p1 realOps i r).Y3s1 j = i.r1.Y1s j * (r2p1 realOps i r).lambda j := fun _ => rfl
    rw [e, e, hYs j hj, hl j hj]

end Qsc.Symmetry
