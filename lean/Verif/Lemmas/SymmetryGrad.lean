import Verif.Lemmas.SymmetrySecond
import Verif.Model.GradGradB

/-!
# Lemmas on stellarator symmetry: the second derivatives of the field
-/

namespace Qsc.Symmetry
open Qsc.Spec.Symmetry Qsc.GradGradB

/-- The values at the mirrored grid point. -/
def flipAt (a : At ℝ) : At ℝ :=
  { a with
    dkap := -a.dkap, dtor := -a.dtor, Y1c := -a.Y1c, dX1c := -a.dX1c, dY1s := -a.dY1s, d2Y1c := -a.d2Y1c, X2s := -a.X2s, Y20 := -a.Y20, Y2c := -a.Y2c, Z2c := -a.Z2c, dX20 := -a.dX20
    dX2c := -a.dX2c, dY2s := -a.dY2s, dZ2s := -a.dZ2s, B2s := -a.B2s }

theorem main000_flip (a : At ℝ) : main000 (flipAt a) = -main000 a := by
  simp only [main000, flipAt]; ring

theorem main001_flip (a : At ℝ) : main001 (flipAt a) = main001 a := by
  simp only [main001, flipAt]; ring

theorem main002_flip (a : At ℝ) : main002 (flipAt a) = main002 a := by
  simp only [main002, flipAt]; ring

theorem main010_flip (a : At ℝ) : main010 (flipAt a) = main010 a := by
  simp only [main010, flipAt]; ring

theorem main011_flip (a : At ℝ) : main011 (flipAt a) = -main011 a := by
  simp only [main011, flipAt]; ring

theorem main012_flip (a : At ℝ) : main012 (flipAt a) = -main012 a := by
  simp only [main012, flipAt]; ring

theorem main020_flip (a : At ℝ) : main020 (flipAt a) = main020 a := by
  simp only [main020, flipAt]; ring

theorem main021_flip (a : At ℝ) : main021 (flipAt a) = -main021 a := by
  simp only [main021, flipAt]; ring

theorem main022_flip (a : At ℝ) : main022 (flipAt a) = -main022 a := by
  simp only [main022, flipAt]; ring

theorem main100_flip (a : At ℝ) : main100 (flipAt a) = main100 a := by
  simp only [main100, flipAt]; ring

theorem main101_flip (a : At ℝ) : main101 (flipAt a) = -main101 a := by
  simp only [main101, flipAt]; ring

theorem main102_flip (a : At ℝ) : main102 (flipAt a) = -main102 a := by
  simp only [main102, flipAt]; ring

theorem main110_flip (a : At ℝ) : main110 (flipAt a) = -main110 a := by
  simp only [main110, flipAt]; ring

theorem main111_flip (a : At ℝ) : main111 (flipAt a) = main111 a := by
  simp only [main111, flipAt]; ring

theorem main112_flip (a : At ℝ) : main112 (flipAt a) = main112 a := by
  simp only [main112, flipAt]

theorem main120_flip (a : At ℝ) : main120 (flipAt a) = -main120 a := by
  simp only [main120, flipAt]; ring

theorem main121_flip (a : At ℝ) : main121 (flipAt a) = main121 a := by
  simp only [main121, flipAt]; ring

theorem main122_flip (a : At ℝ) : main122 (flipAt a) = main122 a := by
  simp only [main122, flipAt]

theorem main200_flip (a : At ℝ) : main200 (flipAt a) = main200 a := by
  simp only [main200, flipAt]; ring

theorem main201_flip (a : At ℝ) : main201 (flipAt a) = -main201 a := by
  simp only [main201, flipAt]; ring

theorem main202_flip (a : At ℝ) : main202 (flipAt a) = -main202 a := by
  simp only [main202, flipAt]; ring

theorem main210_flip (a : At ℝ) : main210 (flipAt a) = -main210 a := by
  simp only [main210, flipAt]; ring

theorem main211_flip (a : At ℝ) : main211 (flipAt a) = main211 a := by
  simp only [main211, flipAt]; ring

theorem main212_flip (a : At ℝ) : main212 (flipAt a) = main212 a := by
  simp only [main212, flipAt]

theorem main220_flip (a : At ℝ) : main220 (flipAt a) = -main220 a := by
  simp only [main220, flipAt]; ring

theorem main221_flip (a : At ℝ) : main221 (flipAt a) = main221 a := by
  simp only [main221, flipAt]; ring

theorem main222_flip (a : At ℝ) : main222 (flipAt a) = main222 a := by
  simp only [main222, flipAt]

theorem at_flip {n : Nat} {i : R2.In ℝ} (h : SymIn n i) {r : R2.R2 ℝ} (hr : SymSecond n r) {j : Nat} (hj : j < n) :
    At.of i r (mirror n j) = flipAt (At.of i r j) := by
  have ha := symPre h
  have hf := h.first
  simp only [At.of, flipAt, At.mk.injEq]
  exact ⟨trivial, trivial, trivial, trivial, trivial, trivial, trivial, trivial, trivial, h.cfg.curvature j hj, h.cfg.torsion j hj, h.even h.cfg.curvature j hj,
    h.even h.cfg.torsion j hj, hf.X1c j hj, hf.Y1s j hj, hf.Y1c j hj, hf.dX1c j hj, hf.dY1s j hj, hf.dY1c j hj,
    h.odd hf.dX1c j hj, h.odd hf.dY1s j hj, h.even hf.dY1c j hj, hr.X20 j hj, ha.X2s j hj, ha.X2c j hj, h.even hr.X20 j hj,
    ha.dX2s j hj, ha.dX2c j hj, hr.Y20 j hj, hr.Y2s j hj, hr.Y2c j hj, h.odd hr.Y20 j hj, h.even hr.Y2s j hj,
    h.odd hr.Y2c j hj, ha.Z2s j hj, ha.Z2c j hj, ha.dZ20 j hj, ha.dZ2s j hj, ha.dZ2c j hj, hr.B20 j hj,
    by rw [h.B2s, neg_zero], trivial⟩

theorem LgradGradB_flip (a : At ℝ) : LgradGradB realOps (flipAt a) = LgradGradB realOps a := by
  simp only [LgradGradB, main, main000_flip, main001_flip, main002_flip, main010_flip, main011_flip, main012_flip, main020_flip, main021_flip, main022_flip, main100_flip, main101_flip, main102_flip, main110_flip, main111_flip, main112_flip, main120_flip, main121_flip, main122_flip, main200_flip, main201_flip, main202_flip, main210_flip, main211_flip, main212_flip, main220_flip, main221_flip, main222_flip, mul_neg, neg_mul, neg_neg]
  rfl

/-- The parity of an element: every index that is not the normal changes it. -/
theorem gradGradB_parity {n : Nat} {i : R2.In ℝ} (h : SymIn n i) {r : R2.R2 ℝ} (hr : SymSecond n r) (b c d : Nat) :
    (((b = 0 ↔ c = 0) ↔ d = 0) → Odd n fun j => main (.of i r j) b c d) ∧
    (¬ ((b = 0 ↔ c = 0) ↔ d = 0) → Even n fun j => main (.of i r j) b c d) := by
  constructor
  · intro hp j hj
    dsimp only
    rw [at_flip h hr hj]
    match b, c, d with
    | 0, 0, 0 => exact main000_flip _
    | 0, 1, 1 => exact main011_flip _
    | 0, 1, 2 => exact main012_flip _
    | 0, 2, 1 => exact main021_flip _
    | 0, 2, 2 => exact main022_flip _
    | 1, 0, 1 => exact main101_flip _
    | 1, 0, 2 => exact main102_flip _
    | 1, 1, 0 => exact main110_flip _
    | 1, 2, 0 => exact main120_flip _
    | 2, 0, 1 => exact main201_flip _
    | 2, 0, 2 => exact main202_flip _
    | 2, 1, 0 => exact main210_flip _
    | 2, 2, 0 => exact main220_flip _
    | 0, 0, 1 => simp at hp
    | 0, 0, 2 => simp at hp
    | 0, 1, 0 => simp at hp
    | 0, 2, 0 => simp at hp
    | 1, 0, 0 => simp at hp
    | 1, 1, 1 => simp at hp
    | 1, 1, 2 => simp at hp
    | 1, 2, 1 => simp at hp
    | 1, 2, 2 => simp at hp
    | 2, 0, 0 => simp at hp
    | 2, 1, 1 => simp at hp
    | 2, 1, 2 => simp at hp
    | 2, 2, 1 => simp at hp
    | 2, 2, 2 => simp at hp
    | 0, 0, _ + 3 => simp [main]
    | 0, 1, _ + 3 => simp [main]
    | 0, 2, _ + 3 => simp [main]
    | 1, 0, _ + 3 => simp [main]
    | 1, 1, _ + 3 => simp [main]
    | 1, 2, _ + 3 => simp [main]
    | 2, 0, _ + 3 => simp [main]
    | 2, 1, _ + 3 => simp [main]
    | 2, 2, _ + 3 => simp [main]
    | 0, _ + 3, _ => simp [main]
    | 1, _ + 3, _ => simp [main]
    | 2, _ + 3, _ => simp [main]
    | _ + 3, _, _ => simp [main]
  · intro hp j hj
    dsimp only
    rw [at_flip h hr hj]
    match b, c, d with
    | 0, 0, 1 => exact main001_flip _
    | 0, 0, 2 => exact main002_flip _
    | 0, 1, 0 => exact main010_flip _
    | 0, 2, 0 => exact main020_flip _
    | 1, 0, 0 => exact main100_flip _
    | 1, 1, 1 => exact main111_flip _
    | 1, 1, 2 => exact main112_flip _
    | 1, 2, 1 => exact main121_flip _
    | 1, 2, 2 => exact main122_flip _
    | 2, 0, 0 => exact main200_flip _
    | 2, 1, 1 => exact main211_flip _
    | 2, 1, 2 => exact main212_flip _
    | 2, 2, 1 => exact main221_flip _
    | 2, 2, 2 => exact main222_flip _
    | 0, 0, 0 => simp at hp
    | 0, 1, 1 => simp at hp
    | 0, 1, 2 => simp at hp
    | 0, 2, 1 => simp at hp
    | 0, 2, 2 => simp at hp
    | 1, 0, 1 => simp at hp
    | 1, 0, 2 => simp at hp
    | 1, 1, 0 => simp at hp
    | 1, 2, 0 => simp at hp
    | 2, 0, 1 => simp at hp
    | 2, 0, 2 => simp at hp
    | 2, 1, 0 => simp at hp
    | 2, 2, 0 => simp at hp
    | 0, 0, _ + 3 => simp [main]
    | 0, 1, _ + 3 => simp [main]
    | 0, 2, _ + 3 => simp [main]
    | 1, 0, _ + 3 => simp [main]
    | 1, 1, _ + 3 => simp [main]
    | 1, 2, _ + 3 => simp [main]
    | 2, 0, _ + 3 => simp [main]
    | 2, 1, _ + 3 => simp [main]
    | 2, 2, _ + 3 => simp [main]
    | 0, _ + 3, _ => simp [main]
    | 1, _ + 3, _ => simp [main]
    | 2, _ + 3, _ => simp [main]
    | _ + 3, _, _ => simp [main]

end Qsc.Symmetry
