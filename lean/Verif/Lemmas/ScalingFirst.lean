import Verif.Lemmas.Scaling
import Verif.Model.Single

/-!
# Lemmas on changes of units: first order
-/

namespace Qsc.Scaling
open Qsc.R1

/-- The configuration in other units of length (`a`) and field strength (`b`). -/
noncomputable def scaleCfg (a b : ℝ) (p : Cfg ℝ) : Cfg ℝ :=
  { nphi := p.nphi
    nfp := p.nfp
    helicity := p.helicity
    sG := p.sG
    spsi := p.spsi
    etaBar := a⁻¹ * p.etaBar
    sigma0 := p.sigma0
    I2 := b * a⁻¹ * p.I2
    B0 := b * p.B0
    G0 := a * b * p.G0
    dlDvarphi := a * p.dlDvarphi
    curvature := fun j => a⁻¹ * p.curvature j
    torsion := fun j => a⁻¹ * p.torsion j
    dl := fun j => a * p.dl j
    dDvarphi := p.dDvarphi }

theorem etaSq_scale {a b : ℝ} (ha : 0 < a) (p : Cfg ℝ) : etaSq (scaleCfg a b p) = etaSq p := by
  funext j
  simp only [etaSq, scaleCfg]
  field_simp

theorem store_scale (a b : ℝ) (p : Cfg ℝ) : store (scaleCfg a b p) = store p := rfl

theorem residual_scale {a b : ℝ} (ha : 0 < a) (hb : 0 < b) (p : Cfg ℝ) :
    R1.residual (scaleCfg a b p) = R1.residual p := by
  funext x j
  simp only [R1.residual, etaSq_scale ha, store_scale]
  simp only [scaleCfg]
  congr 2
  field_simp

theorem jacobian_scale {a b : ℝ} (ha : 0 < a) (p : Cfg ℝ) : jacobian (scaleCfg a b p) = jacobian p := by
  funext q j k
  simp only [jacobian, etaSq_scale ha]
  rfl

theorem env_scale {a b : ℝ} (ha : 0 < a) (hb : 0 < b) (p : Cfg ℝ)
    (solve : Nat → (Nat → Nat → ℝ) → (Nat → ℝ) → Nat → ℝ) (tol : ℝ) :
    env realOps (scaleCfg a b p) solve tol = env realOps p solve tol := by
  simp only [env, residual_scale ha hb, jacobian_scale ha, store_scale]
  rfl

theorem solveSigma_scale {a b : ℝ} (ha : 0 < a) (hb : 0 < b) (p : Cfg ℝ)
    (solve : Nat → (Nat → Nat → ℝ) → (Nat → ℝ) → Nat → ℝ) (tol : ℝ) (N M : Int) :
    solveSigma realOps (scaleCfg a b p) solve tol N M = solveSigma realOps p solve tol N M := by
  simp only [solveSigma, env_scale ha hb]
  rfl

theorem newtonThrows_scale {a b : ℝ} (ha : 0 < a) (hb : 0 < b) {L : Single.Lib ℝ} (ho : L.ops = realOps) (p : Cfg ℝ)
    (tol : ℝ) (N M : Int) : Single.newtonThrows L (scaleCfg a b p) tol N M = Single.newtonThrows L p tol N M := by
  simp only [Single.newtonThrows, ho, env_scale ha hb, residual_scale ha hb, jacobian_scale ha, store_scale]
  rfl

theorem diagnostics_scale {a b : ℝ} (ha : 0 < a) (p : Cfg ℝ) (q : Stored ℝ) :
    diagnostics realOps (scaleCfg a b p) q = diagnostics realOps p q := by
  have ha' : a ≠ 0 := ha.ne'
  have hX : ∀ j, a⁻¹ * p.etaBar / (a⁻¹ * p.curvature j) = p.etaBar / p.curvature j := fun j =>
    mul_div_mul_left _ _ (inv_ne_zero ha')
  have hY : ∀ j, ((p.sG * p.spsi : Int) : ℝ) / (a⁻¹ * p.etaBar) * (a⁻¹ * p.curvature j)
      = ((p.sG * p.spsi : Int) : ℝ) / p.etaBar * p.curvature j := fun j => by field_simp
  have hm : ∀ f : Nat → ℝ, vsum p.nphi (fun j => f j * (a * p.dl j)) / vsum p.nphi (fun j => a * p.dl j)
      = vsum p.nphi (fun j => f j * p.dl j) / vsum p.nphi p.dl := fun f => by
    rw [vsum_scale, show (fun j => f j * (a * p.dl j)) = fun j => a * (f j * p.dl j) from by funext j; ring,
      vsum_scale, mul_div_mul_left _ _ ha']
  simp only [diagnostics, scaleCfg, hX, hY, hm]

theorem gradB_scale {a : ℝ} (ha : 0 < a) (b : ℝ) (p : Cfg ℝ) (r : R1 ℝ) (j i k : Nat) :
    gradB (scaleCfg a b p) r j i k = b * a⁻¹ * gradB p r j i k := by
  unfold gradB
  split <;> simp only [scaleCfg, mul_zero] <;> field_simp

theorem LgradB_scale {a b : ℝ} (ha : 0 < a) (hb : 0 < b) (p : Cfg ℝ) (r : R1 ℝ) (j : Nat) :
    LgradB realOps (scaleCfg a b p) r j = a * LgradB realOps p r j := by
  simp only [LgradB, gradB_scale ha]
  have h : 0 ≤ b⁻¹ * a := by positivity
  have e : (scaleCfg a b p).B0 = b * p.B0 := rfl
  rw [e]
  generalize gradB p r j = t
  change b * p.B0 * Real.sqrt _ = a * (p.B0 * Real.sqrt _)
  have e2 : ∀ s : ℝ, Real.sqrt (2 / (b * a⁻¹ * (b * a⁻¹) * s)) = b⁻¹ * a * Real.sqrt (2 / s) := fun s => by
    rw [← sqrt_scale h]; congr 1; field_simp
  rw [show b * a⁻¹ * t 2 0 * (b * a⁻¹ * t 2 0) + b * a⁻¹ * t 0 2 * (b * a⁻¹ * t 0 2)
      + b * a⁻¹ * t 1 1 * (b * a⁻¹ * t 1 1) + b * a⁻¹ * t 0 0 * (b * a⁻¹ * t 0 0)
      + b * a⁻¹ * t 1 0 * (b * a⁻¹ * t 1 0) + b * a⁻¹ * t 0 1 * (b * a⁻¹ * t 0 1)
      = b * a⁻¹ * (b * a⁻¹) * (t 2 0 * t 2 0 + t 0 2 * t 0 2 + t 1 1 * t 1 1 + t 0 0 * t 0 0
        + t 1 0 * t 1 0 + t 0 1 * t 0 1) from by ring, e2]
  field_simp

theorem LgradBInverse_scale {a b : ℝ} (ha : 0 < a) (hb : 0 < b) (p : Cfg ℝ) (r : R1 ℝ) (j : Nat) :
    LgradBInverse realOps (scaleCfg a b p) r j = a⁻¹ * LgradBInverse realOps p r j := by
  simp only [LgradBInverse, LgradB_scale ha hb]
  field_simp

theorem minLgradB_scale {a b : ℝ} (ha : 0 < a) (hb : 0 < b) (p : Cfg ℝ) (r : R1 ℝ) :
    minLgradB realOps (scaleCfg a b p) r = a * minLgradB realOps p r := by
  simp only [minLgradB]
  rw [show LgradB realOps (scaleCfg a b p) r = fun j => a * LgradB realOps p r j from
    funext fun j => LgradB_scale ha hb p r j, show (scaleCfg a b p).nphi = p.nphi from rfl, vmin_scale _ ha]

end Qsc.Scaling
