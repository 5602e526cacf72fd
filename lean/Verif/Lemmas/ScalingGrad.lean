import Verif.Lemmas.ScalingSecond
import Verif.Model.GradGradB
import Verif.Model.RSing

/-!
# Lemmas on changes of units: the second derivatives of the field, the results of a run
-/

namespace Qsc.Scaling
open Qsc.GradGradB

/-- The values at a grid point in other units of length (`a`) and field strength (`b`). -/
noncomputable def scaleAt (a b : ℝ) (v : At ℝ) : At ℝ :=
  { sG := v.sG, spsi := v.spsi, B0 := b * v.B0, G0 := a * b * v.G0, G2 := b * a⁻¹ * v.G2, I2 := b * a⁻¹ * v.I2
    iota := v.iota, iotaN := v.iotaN, lp := a * v.lp
    kap := a⁻¹ * v.kap, tor := a⁻¹ * v.tor, dkap := a⁻¹ * v.dkap, dtor := a⁻¹ * v.dtor
    X1c := v.X1c, Y1s := v.Y1s, Y1c := v.Y1c, dX1c := v.dX1c, dY1s := v.dY1s, dY1c := v.dY1c
    d2X1c := v.d2X1c, d2Y1s := v.d2Y1s, d2Y1c := v.d2Y1c
    X20 := a⁻¹ * v.X20, X2s := a⁻¹ * v.X2s, X2c := a⁻¹ * v.X2c
    dX20 := a⁻¹ * v.dX20, dX2s := a⁻¹ * v.dX2s, dX2c := a⁻¹ * v.dX2c
    Y20 := a⁻¹ * v.Y20, Y2s := a⁻¹ * v.Y2s, Y2c := a⁻¹ * v.Y2c
    dY20 := a⁻¹ * v.dY20, dY2s := a⁻¹ * v.dY2s, dY2c := a⁻¹ * v.dY2c
    Z2s := a⁻¹ * v.Z2s, Z2c := a⁻¹ * v.Z2c
    dZ20 := a⁻¹ * v.dZ20, dZ2s := a⁻¹ * v.dZ2s, dZ2c := a⁻¹ * v.dZ2c
    B20 := b * (a⁻¹ * a⁻¹) * v.B20, B2s := b * (a⁻¹ * a⁻¹) * v.B2s, B2c := b * (a⁻¹ * a⁻¹) * v.B2c }

theorem at_scale {a b : ℝ} (ha : 0 < a) (hb : 0 < b) (i : R2.In ℝ) (r : R2.R2 ℝ) (j : Nat) :
    At.of (scaleIn a b i) (scaleR2 a b r) j = scaleAt a b (At.of i r j) := by
  simp only [At.of, pre_scale ha hb]
  simp only [scaleIn, scaleCfg, scalePre, scaleR2, scaleAt, matVec_scale]

theorem main000_scale {a b : ℝ} (ha : 0 < a) (hb : 0 < b) (v : At ℝ) :
    main000 (scaleAt a b v) = b * (a⁻¹ * a⁻¹) * main000 v := by
  simp only [main000, scaleAt]; field_simp

theorem main001_scale {a b : ℝ} (ha : 0 < a) (hb : 0 < b) (v : At ℝ) :
    main001 (scaleAt a b v) = b * (a⁻¹ * a⁻¹) * main001 v := by
  simp only [main001, scaleAt]; field_simp

theorem main002_scale {a b : ℝ} (ha : 0 < a) (hb : 0 < b) (v : At ℝ) :
    main002 (scaleAt a b v) = b * (a⁻¹ * a⁻¹) * main002 v := by
  simp only [main002, scaleAt]; field_simp

theorem main010_scale {a b : ℝ} (ha : 0 < a) (hb : 0 < b) (v : At ℝ) :
    main010 (scaleAt a b v) = b * (a⁻¹ * a⁻¹) * main010 v := by
  simp only [main010, scaleAt]; field_simp

theorem main011_scale {a b : ℝ} (ha : 0 < a) (hb : 0 < b) (v : At ℝ) :
    main011 (scaleAt a b v) = b * (a⁻¹ * a⁻¹) * main011 v := by
  simp only [main011, scaleAt]; field_simp

theorem main012_scale {a b : ℝ} (ha : 0 < a) (hb : 0 < b) (v : At ℝ) :
    main012 (scaleAt a b v) = b * (a⁻¹ * a⁻¹) * main012 v := by
  simp only [main012, scaleAt]; field_simp

theorem main020_scale {a b : ℝ} (ha : 0 < a) (hb : 0 < b) (v : At ℝ) :
    main020 (scaleAt a b v) = b * (a⁻¹ * a⁻¹) * main020 v := by
  simp only [main020, scaleAt]; field_simp

theorem main021_scale {a b : ℝ} (ha : 0 < a) (hb : 0 < b) (v : At ℝ) :
    main021 (scaleAt a b v) = b * (a⁻¹ * a⁻¹) * main021 v := by
  simp only [main021, scaleAt]; field_simp

theorem main022_scale {a b : ℝ} (ha : 0 < a) (hb : 0 < b) (v : At ℝ) :
    main022 (scaleAt a b v) = b * (a⁻¹ * a⁻¹) * main022 v := by
  simp only [main022, scaleAt]; field_simp

theorem main100_scale {a b : ℝ} (ha : 0 < a) (hb : 0 < b) (v : At ℝ) :
    main100 (scaleAt a b v) = b * (a⁻¹ * a⁻¹) * main100 v := by
  simp only [main100, scaleAt]; field_simp

theorem main101_scale {a b : ℝ} (ha : 0 < a) (hb : 0 < b) (v : At ℝ) :
    main101 (scaleAt a b v) = b * (a⁻¹ * a⁻¹) * main101 v := by
  simp only [main101, scaleAt]; field_simp

theorem main102_scale {a b : ℝ} (ha : 0 < a) (hb : 0 < b) (v : At ℝ) :
    main102 (scaleAt a b v) = b * (a⁻¹ * a⁻¹) * main102 v := by
  simp only [main102, scaleAt]; field_simp

theorem main110_scale {a b : ℝ} (ha : 0 < a) (hb : 0 < b) (v : At ℝ) :
    main110 (scaleAt a b v) = b * (a⁻¹ * a⁻¹) * main110 v := by
  simp only [main110, scaleAt]; field_simp

theorem main111_scale {a b : ℝ} (ha : 0 < a) (hb : 0 < b) (v : At ℝ) :
    main111 (scaleAt a b v) = b * (a⁻¹ * a⁻¹) * main111 v := by
  simp only [main111, scaleAt]; field_simp

theorem main112_scale {a b : ℝ} (ha : 0 < a) (hb : 0 < b) (v : At ℝ) :
    main112 (scaleAt a b v) = b * (a⁻¹ * a⁻¹) * main112 v := by
  simp only [main112, scaleAt]; field_simp

theorem main120_scale {a b : ℝ} (ha : 0 < a) (hb : 0 < b) (v : At ℝ) :
    main120 (scaleAt a b v) = b * (a⁻¹ * a⁻¹) * main120 v := by
  simp only [main120, scaleAt]; field_simp

theorem main121_scale {a b : ℝ} (ha : 0 < a) (hb : 0 < b) (v : At ℝ) :
    main121 (scaleAt a b v) = b * (a⁻¹ * a⁻¹) * main121 v := by
  simp only [main121, scaleAt]; field_simp

theorem main122_scale {a b : ℝ} (ha : 0 < a) (hb : 0 < b) (v : At ℝ) :
    main122 (scaleAt a b v) = b * (a⁻¹ * a⁻¹) * main122 v := by
  simp only [main122, scaleAt]; field_simp

theorem main200_scale {a b : ℝ} (ha : 0 < a) (hb : 0 < b) (v : At ℝ) :
    main200 (scaleAt a b v) = b * (a⁻¹ * a⁻¹) * main200 v := by
  simp only [main200, scaleAt]; field_simp

theorem main201_scale {a b : ℝ} (ha : 0 < a) (hb : 0 < b) (v : At ℝ) :
    main201 (scaleAt a b v) = b * (a⁻¹ * a⁻¹) * main201 v := by
  simp only [main201, scaleAt]; field_simp

theorem main202_scale {a b : ℝ} (ha : 0 < a) (hb : 0 < b) (v : At ℝ) :
    main202 (scaleAt a b v) = b * (a⁻¹ * a⁻¹) * main202 v := by
  simp only [main202, scaleAt]; field_simp

theorem main210_scale {a b : ℝ} (ha : 0 < a) (hb : 0 < b) (v : At ℝ) :
    main210 (scaleAt a b v) = b * (a⁻¹ * a⁻¹) * main210 v := by
  simp only [main210, scaleAt]; field_simp

theorem main211_scale {a b : ℝ} (ha : 0 < a) (hb : 0 < b) (v : At ℝ) :
    main211 (scaleAt a b v) = b * (a⁻¹ * a⁻¹) * main211 v := by
  simp only [main211, scaleAt]; field_simp

theorem main212_scale {a b : ℝ} (ha : 0 < a) (hb : 0 < b) (v : At ℝ) :
    main212 (scaleAt a b v) = b * (a⁻¹ * a⁻¹) * main212 v := by
  simp only [main212, scaleAt]; field_simp

theorem main220_scale {a b : ℝ} (ha : 0 < a) (hb : 0 < b) (v : At ℝ) :
    main220 (scaleAt a b v) = b * (a⁻¹ * a⁻¹) * main220 v := by
  simp only [main220, scaleAt]; field_simp

theorem main221_scale {a b : ℝ} (ha : 0 < a) (hb : 0 < b) (v : At ℝ) :
    main221 (scaleAt a b v) = b * (a⁻¹ * a⁻¹) * main221 v := by
  simp only [main221, scaleAt]; field_simp

theorem main222_scale {a b : ℝ} (ha : 0 < a) (hb : 0 < b) (v : At ℝ) :
    main222 (scaleAt a b v) = b * (a⁻¹ * a⁻¹) * main222 v := by
  simp only [main222, scaleAt]; field_simp

theorem main_scale {a b : ℝ} (ha : 0 < a) (hb : 0 < b) (v : At ℝ) (x y z : Nat) :
    main (scaleAt a b v) x y z = b * (a⁻¹ * a⁻¹) * main v x y z := by
  unfold main
  split
  · exact main000_scale ha hb v
  · exact main001_scale ha hb v
  · exact main002_scale ha hb v
  · exact main010_scale ha hb v
  · exact main011_scale ha hb v
  · exact main012_scale ha hb v
  · exact main020_scale ha hb v
  · exact main021_scale ha hb v
  · exact main022_scale ha hb v
  · exact main100_scale ha hb v
  · exact main101_scale ha hb v
  · exact main102_scale ha hb v
  · exact main110_scale ha hb v
  · exact main111_scale ha hb v
  · exact main112_scale ha hb v
  · exact main120_scale ha hb v
  · exact main121_scale ha hb v
  · exact main122_scale ha hb v
  · exact main200_scale ha hb v
  · exact main201_scale ha hb v
  · exact main202_scale ha hb v
  · exact main210_scale ha hb v
  · exact main211_scale ha hb v
  · exact main212_scale ha hb v
  · exact main220_scale ha hb v
  · exact main221_scale ha hb v
  · exact main222_scale ha hb v
  · rw [mul_zero]

theorem LgradGradB_scale {a b : ℝ} (ha : 0 < a) (hb : 0 < b) (v : At ℝ) :
    LgradGradB realOps (scaleAt a b v) = a * LgradGradB realOps v := by
  simp only [LgradGradB, main_scale ha hb]
  generalize main v = t
  have hc : 0 < b * (a⁻¹ * a⁻¹) := by positivity
  have e : ∀ x : ℝ, b * (a⁻¹ * a⁻¹) * x * (b * (a⁻¹ * a⁻¹) * x) = b * (a⁻¹ * a⁻¹) * (b * (a⁻¹ * a⁻¹)) * (x * x) :=
    fun x => by ring
  simp only [e, ← mul_add]
  change Real.sqrt (4 * (b * v.B0) / Real.sqrt _) = a * Real.sqrt (4 * v.B0 / Real.sqrt _)
  rw [sqrt_scale hc.le, ← sqrt_scale ha.le]
  congr 1
  field_simp

theorem LgradGradBInverse_scale {a b : ℝ} (ha : 0 < a) (hb : 0 < b) (v : At ℝ) :
    LgradGradBInverse realOps (scaleAt a b v) = a⁻¹ * LgradGradBInverse realOps v := by
  simp only [LgradGradBInverse, LgradGradB_scale ha hb]
  field_simp

theorem minLgradGradB_scale {a b : ℝ} (ha : 0 < a) (hb : 0 < b) (i : R2.In ℝ) (r : R2.R2 ℝ) :
    minLgradGradB realOps (scaleIn a b i) (scaleR2 a b r) = a * minLgradGradB realOps i r := by
  simp only [minLgradGradB, at_scale ha hb, LgradGradB_scale ha hb]
  exact vmin_scale _ ha _

/-- The search for singularities does not see the unit of the field strength. -/
theorem sing_scale {b : ℝ} (hb : 0 < b) (t : RSing.Tol ℝ) (geev : Quartic.Geev ℝ) (i : R2.In ℝ) (r : R2.R2 ℝ) :
    RSing.calculate realOps t geev (scaleIn 1 b i) (scaleR2 1 b r) = RSing.calculate realOps t geev i r := by
  have hj : RSing.jac (scaleIn 1 b i) (scaleR2 1 b r) = RSing.jac i r := by
    funext j
    simp only [RSing.jac, pre_scale one_pos hb]
    simp only [scaleIn, scaleCfg, scalePre, scaleR2, inv_one, one_mul]
  have hq : ∀ m : ℝ, -i.mu0 * (b * b * (1⁻¹ * 1⁻¹) * i.p2) * m * m / (b * i.cfg.B0 * (b * i.cfg.B0))
      = -i.mu0 * i.p2 * m * m / (i.cfg.B0 * i.cfg.B0) := fun m => by field_simp
  simp only [RSing.calculate, hj]
  simp only [scaleIn, scaleCfg, hq]

end Qsc.Scaling
