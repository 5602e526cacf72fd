import Verif.Lemmas.ScalingFirst

/-!
# Lemmas on changes of units: second order
-/

namespace Qsc.Scaling
open Qsc.R2

/-- The quantities read by the second order in other units of length (`a`) and field strength (`b`). -/
noncomputable def scaleIn (a b : ℝ) (i : In ℝ) : In ℝ :=
  { cfg := scaleCfg a b i.cfg
    st := i.st
    r1 := i.r1
    B0overG0 := a⁻¹ * i.B0overG0
    G0overB0 := a * i.G0overB0
    mu0 := i.mu0
    p2 := b * b * (a⁻¹ * a⁻¹) * i.p2
    B2s := b * (a⁻¹ * a⁻¹) * i.B2s
    B2c := b * (a⁻¹ * a⁻¹) * i.B2c }

noncomputable def scalePre (a b : ℝ) (f : Pre ℝ) : Pre ℝ :=
  { G2 := b * a⁻¹ * f.G2
    beta1s := a⁻¹ * a⁻¹ * f.beta1s
    V1 := f.V1
    V2 := f.V2
    V3 := f.V3
    Z20 := fun j => a⁻¹ * f.Z20 j
    Z2s := fun j => a⁻¹ * f.Z2s j
    Z2c := fun j => a⁻¹ * f.Z2c j
    dZ20 := fun j => a⁻¹ * f.dZ20 j
    dZ2s := fun j => a⁻¹ * f.dZ2s j
    dZ2c := fun j => a⁻¹ * f.dZ2c j
    qs := f.qs
    qc := f.qc
    rs := f.rs
    rc := f.rc
    X2s := fun j => a⁻¹ * f.X2s j
    X2c := fun j => a⁻¹ * f.X2c j
    dX2s := fun j => a⁻¹ * f.dX2s j
    dX2c := fun j => a⁻¹ * f.dX2c j }

theorem pre_scale {a b : ℝ} (ha : 0 < a) (hb : 0 < b) (i : In ℝ) : pre (scaleIn a b i) = scalePre a b (pre i) := by
  have ha' : a ≠ 0 := ha.ne'
  have hb' : b ≠ 0 := hb.ne'
  have hG2 : (pre (scaleIn a b i)).G2 = b * a⁻¹ * (pre i).G2 := by
    simp only [pre, scaleIn, scaleCfg]; field_simp
  have hbeta : (pre (scaleIn a b i)).beta1s = a⁻¹ * a⁻¹ * (pre i).beta1s := by
    simp only [pre, scaleIn, scaleCfg]; field_simp
  have hZ20 : (pre (scaleIn a b i)).Z20 = fun j => a⁻¹ * (pre i).Z20 j := by
    funext j; simp only [pre, scaleIn, scaleCfg]; ring
  have hZ2s : (pre (scaleIn a b i)).Z2s = fun j => a⁻¹ * (pre i).Z2s j := by
    funext j; simp only [pre, scaleIn, scaleCfg]; ring
  have hZ2c : (pre (scaleIn a b i)).Z2c = fun j => a⁻¹ * (pre i).Z2c j := by
    funext j; simp only [pre, scaleIn, scaleCfg]; ring
  have hdZ20 : (pre (scaleIn a b i)).dZ20 = fun j => a⁻¹ * (pre i).dZ20 j := by
    change matVec i.cfg.nphi i.cfg.dDvarphi (pre (scaleIn a b i)).Z20 = _
    rw [hZ20, matVec_scale]; rfl
  have hdZ2s : (pre (scaleIn a b i)).dZ2s = fun j => a⁻¹ * (pre i).dZ2s j := by
    change matVec i.cfg.nphi i.cfg.dDvarphi (pre (scaleIn a b i)).Z2s = _
    rw [hZ2s, matVec_scale]; rfl
  have hdZ2c : (pre (scaleIn a b i)).dZ2c = fun j => a⁻¹ * (pre i).dZ2c j := by
    change matVec i.cfg.nphi i.cfg.dDvarphi (pre (scaleIn a b i)).Z2c = _
    rw [hZ2c, matVec_scale]; rfl
  have hl : ∀ x y : ℝ, a * x * y * (a⁻¹ * i.cfg.torsion 0) = x * y * i.cfg.torsion 0 := fun x y => by field_simp
  have hqs : (pre (scaleIn a b i)).qs = (pre i).qs := by
    funext j; simp only [pre, scaleIn, scaleCfg]; field_simp
  have hqc : (pre (scaleIn a b i)).qc = (pre i).qc := by
    funext j; simp only [pre, scaleIn, scaleCfg]; field_simp
  have hrs : (pre (scaleIn a b i)).rs = (pre i).rs := rfl
  have hrc : (pre (scaleIn a b i)).rc = (pre i).rc := by
    funext j; simp only [pre, scaleIn, scaleCfg]; field_simp
  have hX2s : (pre (scaleIn a b i)).X2s = fun j => a⁻¹ * (pre i).X2s j := by
    funext j
    change a⁻¹ * i.B0overG0 * ((pre (scaleIn a b i)).dZ2s j - (2 * i.r1.iotaN) * (pre (scaleIn a b i)).Z2c j
      + a⁻¹ * i.B0overG0 * (a * i.G0overB0 * (a * i.G0overB0) * (b * (a⁻¹ * a⁻¹) * i.B2s) / (b * i.cfg.B0)
        + ((pre (scaleIn a b i)).qc j * (pre (scaleIn a b i)).qs j
          + (pre (scaleIn a b i)).rc j * (pre (scaleIn a b i)).rs j) * (1 / 2))) / (a⁻¹ * i.cfg.curvature j)
      = a⁻¹ * (i.B0overG0 * ((pre i).dZ2s j - (2 * i.r1.iotaN) * (pre i).Z2c j
      + i.B0overG0 * (i.G0overB0 * i.G0overB0 * i.B2s / i.cfg.B0
        + ((pre i).qc j * (pre i).qs j + (pre i).rc j * (pre i).rs j) * (1 / 2))) / i.cfg.curvature j)
    rw [hdZ2s, hZ2c, hqc, hqs, hrc, hrs]
    field_simp
  have hX2c : (pre (scaleIn a b i)).X2c = fun j => a⁻¹ * (pre i).X2c j := by
    funext j
    change a⁻¹ * i.B0overG0 * ((pre (scaleIn a b i)).dZ2c j + (2 * i.r1.iotaN) * (pre (scaleIn a b i)).Z2s j
      - a⁻¹ * i.B0overG0 * (-(a * i.G0overB0) * (a * i.G0overB0) * (b * (a⁻¹ * a⁻¹) * i.B2c) / (b * i.cfg.B0)
        + a * i.G0overB0 * (a * i.G0overB0) * (a⁻¹ * i.cfg.etaBar) * (a⁻¹ * i.cfg.etaBar) / 2
        - ((pre (scaleIn a b i)).qc j * (pre (scaleIn a b i)).qc j - (pre (scaleIn a b i)).qs j * (pre (scaleIn a b i)).qs j
          + (pre (scaleIn a b i)).rc j * (pre (scaleIn a b i)).rc j
          - (pre (scaleIn a b i)).rs j * (pre (scaleIn a b i)).rs j) * (1 / 4))) / (a⁻¹ * i.cfg.curvature j)
      = a⁻¹ * (i.B0overG0 * ((pre i).dZ2c j + (2 * i.r1.iotaN) * (pre i).Z2s j
      - i.B0overG0 * (-i.G0overB0 * i.G0overB0 * i.B2c / i.cfg.B0
        + i.G0overB0 * i.G0overB0 * i.cfg.etaBar * i.cfg.etaBar / 2
        - ((pre i).qc j * (pre i).qc j - (pre i).qs j * (pre i).qs j
          + (pre i).rc j * (pre i).rc j - (pre i).rs j * (pre i).rs j) * (1 / 4))) / i.cfg.curvature j)
    rw [hdZ2c, hZ2s, hqc, hqs, hrc, hrs]
    field_simp
  have hdX2s : (pre (scaleIn a b i)).dX2s = fun j => a⁻¹ * (pre i).dX2s j := by
    change matVec i.cfg.nphi i.cfg.dDvarphi (pre (scaleIn a b i)).X2s = _
    rw [hX2s, matVec_scale]; rfl
  have hdX2c : (pre (scaleIn a b i)).dX2c = fun j => a⁻¹ * (pre i).dX2c j := by
    change matVec i.cfg.nphi i.cfg.dDvarphi (pre (scaleIn a b i)).X2c = _
    rw [hX2c, matVec_scale]; rfl
  have hV1 : (pre (scaleIn a b i)).V1 = (pre i).V1 := rfl
  have hV2 : (pre (scaleIn a b i)).V2 = (pre i).V2 := rfl
  have hV3 : (pre (scaleIn a b i)).V3 = (pre i).V3 := rfl
  generalize pre (scaleIn a b i) = f at *
  cases f
  simp only at *
  subst hG2 hbeta hZ20 hZ2s hZ2c hdZ20 hdZ2s hdZ2c hqs hqc hrs hrc hX2s hX2c hdX2s hdX2c hV1 hV2 hV3
  rfl

noncomputable def scaleLin (a : ℝ) (y : Lin ℝ) : Lin ℝ :=
  ⟨y.Y2sX20, fun j => a⁻¹ * y.Y2sInh j, y.Y2cX20, fun j => a⁻¹ * y.Y2cInh j⟩

theorem lin_scale {a b : ℝ} (ha : 0 < a) (i : In ℝ) (f : Pre ℝ) :
    lin (scaleIn a b i) (scalePre a b f) = scaleLin a (lin i f) := by
  simp only [lin, scaleIn, scaleCfg, scalePre, scaleLin, Lin.mk.injEq]
  refine ⟨?_, ?_, ?_, ?_⟩ <;> funext j <;> field_simp

noncomputable def scaleFs (a : ℝ) (f : Fs ℝ) : Fs ℝ :=
  { f with
    fX0Inh := fun j => a⁻¹ * f.fX0Inh j
    fXsInh := fun j => a⁻¹ * f.fXsInh j
    fXcInh := fun j => a⁻¹ * f.fXcInh j
    fY0Inh := fun j => a⁻¹ * f.fY0Inh j
    fYsInh := fun j => a⁻¹ * f.fYsInh j
    fYcInh := fun j => a⁻¹ * f.fYcInh j }

set_option maxHeartbeats 1000000 in
theorem fs_scale {a b : ℝ} (ha : 0 < a) (hb : 0 < b) (i : In ℝ) (f : Pre ℝ) (y : Lin ℝ) :
    fs (scaleIn a b i) (scalePre a b f) (scaleLin a y) = scaleFs a (fs i f y) := by
  simp only [fs, scaleIn, scaleCfg, scalePre, scaleLin, scaleFs, matVec_scale, Fs.mk.injEq]
  refine ⟨?_, ?_, ?_, ?_, ?_, ?_, ?_, ?_, ?_, ?_, ?_, ?_, ?_, ?_, ?_, ?_, ?_, ?_⟩ <;> first | trivial | rfl | (funext j; field_simp)

theorem linOf_scale {a b : ℝ} (ha : 0 < a) (hb : 0 < b) (i : In ℝ) : linOf (scaleIn a b i) = scaleLin a (linOf i) := by
  rw [linOf, linOf, pre_scale ha hb, lin_scale ha]

theorem fsOf_scale {a b : ℝ} (ha : 0 < a) (hb : 0 < b) (i : In ℝ) : fsOf (scaleIn a b i) = scaleFs a (fsOf i) := by
  rw [fsOf, fsOf, linOf_scale ha hb, pre_scale ha hb, fs_scale ha hb]

/-- The matrix of the linear system does not depend on the units. -/
theorem matrix_scale {a b : ℝ} (ha : 0 < a) (hb : 0 < b) (i : In ℝ) (old : Nat → Nat → ℝ) :
    matrix (scaleIn a b i) old = matrix i old := by
  simp only [matrix, linOf_scale ha hb, fsOf_scale ha hb]
  rfl

theorem rhs_scale {a b : ℝ} (ha : 0 < a) (hb : 0 < b) (i : In ℝ) :
    rhs (scaleIn a b i) = fun j => a⁻¹ * rhs i j := by
  funext j
  by_cases h : j < i.cfg.nphi
  · have h' : j < (scaleIn a b i).cfg.nphi := h
    simp only [rhs, fsOf_scale ha hb, if_pos h, if_pos h']
    simp only [scaleIn, scaleFs]; ring
  · have h' : ¬ j < (scaleIn a b i).cfg.nphi := h
    simp only [rhs, fsOf_scale ha hb, if_neg h, if_neg h']
    simp only [scaleIn, scaleCfg, scaleFs]; ring

theorem abs_scale {c : ℝ} (hc : 0 < c) (x : ℝ) : realOps.abs (c * x) = c * realOps.abs x := by
  change |c * x| = c * |x|
  rw [abs_mul, abs_of_pos hc]

theorem max2_scale {c : ℝ} (hc : 0 < c) (x y : ℝ) : max2 realOps (c * x) (c * y) = c * max2 realOps x y := by
  simp only [max2, realOps, decide_eq_true_eq]
  by_cases h : x < y
  · rw [if_pos h, if_pos (mul_lt_mul_of_pos_left h hc)]
  · rw [if_neg h, if_neg fun h' => h (lt_of_mul_lt_mul_left h' hc.le)]

theorem absMax_scale {c : ℝ} (hc : 0 < c) (n : Nat) (f : Nat → ℝ) (fs : List (Nat → ℝ)) :
    absMax realOps n (fun j => c * f j) (fs.map fun g j => c * g j) = c * absMax realOps n f fs := by
  unfold absMax
  rw [show vmax realOps n (fun j => realOps.abs (c * f j)) = c * vmax realOps n (fun j => realOps.abs (f j)) from by
    simp only [abs_scale hc]; exact vmax_scale n hc _]
  generalize vmax realOps n (fun j => realOps.abs (f j)) = m
  induction fs generalizing m with
  | nil => rfl
  | cons g fs ih =>
    rw [List.map_cons, List.foldl_cons, List.foldl_cons, ← ih]
    congr 1
    rw [← max2_scale hc]
    congr 1
    simp only [abs_scale hc]
    exact vmax_scale n hc _

noncomputable def scaleR2 (a b : ℝ) (r : R2 ℝ) : R2 ℝ :=
  { X20 := fun j => a⁻¹ * r.X20 j
    Y20 := fun j => a⁻¹ * r.Y20 j
    Y2s := fun j => a⁻¹ * r.Y2s j
    Y2c := fun j => a⁻¹ * r.Y2c j
    B20 := fun j => b * (a⁻¹ * a⁻¹) * r.B20 j
    variation := b * (a⁻¹ * a⁻¹) * r.variation
    mean := b * (a⁻¹ * a⁻¹) * r.mean
    anomaly := fun j => b * (a⁻¹ * a⁻¹) * r.anomaly j
    residual := a⁻¹ * a⁻¹ * r.residual
    maxXY2 := a⁻¹ * r.maxXY2
    maxZ2 := a⁻¹ * r.maxZ2
    maxDXY2 := a⁻¹ * r.maxDXY2
    maxD2XY2 := a⁻¹ * r.maxD2XY2
    maxDZ2 := a⁻¹ * r.maxDZ2 }

theorem finish_scale {a b : ℝ} (ha : 0 < a) (hb : 0 < b) (i : In ℝ) (x : Nat → ℝ) :
    finish realOps (scaleIn a b i) (fun j => a⁻¹ * x j) = scaleR2 a b (finish realOps i x) := by
  have hi : 0 < a⁻¹ := inv_pos.2 ha
  have hc : 0 < b * (a⁻¹ * a⁻¹) := by positivity
  have hX20 : (finish realOps (scaleIn a b i) (fun j => a⁻¹ * x j)).X20 = fun j => a⁻¹ * (finish realOps i x).X20 j := rfl
  have hY20 : (finish realOps (scaleIn a b i) (fun j => a⁻¹ * x j)).Y20 = fun j => a⁻¹ * (finish realOps i x).Y20 j := rfl
  have hY2s : (finish realOps (scaleIn a b i) (fun j => a⁻¹ * x j)).Y2s = fun j => a⁻¹ * (finish realOps i x).Y2s j := by
    funext j; simp only [finish, linOf_scale ha hb, scaleLin]; ring
  have hY2c : (finish realOps (scaleIn a b i) (fun j => a⁻¹ * x j)).Y2c = fun j => a⁻¹ * (finish realOps i x).Y2c j := by
    funext j; simp only [finish, linOf_scale ha hb, scaleLin]; simp only [scaleIn, scaleCfg]; ring
  have hB20 : (finish realOps (scaleIn a b i) (fun j => a⁻¹ * x j)).B20
      = fun j => b * (a⁻¹ * a⁻¹) * (finish realOps i x).B20 j := by
    funext j; simp only [finish, pre_scale ha hb, scalePre]; simp only [scaleIn, scaleCfg]; field_simp
  have hnorm : ∀ f : Nat → ℝ, vsum i.cfg.nphi (fun j => f j * (a * i.cfg.dl j)) * (1 / vsum i.cfg.nphi (fun j => a * i.cfg.dl j))
      = vsum i.cfg.nphi (fun j => f j * i.cfg.dl j) * (1 / vsum i.cfg.nphi i.cfg.dl) := fun f => by
    rw [vsum_scale, show (fun j => f j * (a * i.cfg.dl j)) = fun j => a * (f j * i.cfg.dl j) from by funext j; ring,
      vsum_scale]
    field_simp
  have hmean : (finish realOps (scaleIn a b i) (fun j => a⁻¹ * x j)).mean = b * (a⁻¹ * a⁻¹) * (finish realOps i x).mean := by
    change vsum i.cfg.nphi (fun j => (finish realOps (scaleIn a b i) (fun j => a⁻¹ * x j)).B20 j * (a * i.cfg.dl j))
      * (1 / vsum i.cfg.nphi (fun j => a * i.cfg.dl j))
      = b * (a⁻¹ * a⁻¹) * (vsum i.cfg.nphi (fun j => (finish realOps i x).B20 j * i.cfg.dl j) * (1 / vsum i.cfg.nphi i.cfg.dl))
    rw [hnorm, hB20, show (fun j => (fun j => b * (a⁻¹ * a⁻¹) * (finish realOps i x).B20 j) j * i.cfg.dl j)
      = fun j => b * (a⁻¹ * a⁻¹) * ((finish realOps i x).B20 j * i.cfg.dl j) from by funext j; ring, vsum_scale, mul_assoc]
  have hanom : (finish realOps (scaleIn a b i) (fun j => a⁻¹ * x j)).anomaly
      = fun j => b * (a⁻¹ * a⁻¹) * (finish realOps i x).anomaly j := by
    funext j
    change (finish realOps (scaleIn a b i) (fun j => a⁻¹ * x j)).B20 j - (finish realOps (scaleIn a b i) (fun j => a⁻¹ * x j)).mean
      = b * (a⁻¹ * a⁻¹) * ((finish realOps i x).B20 j - (finish realOps i x).mean)
    rw [hB20, hmean]; ring
  have hvar : (finish realOps (scaleIn a b i) (fun j => a⁻¹ * x j)).variation = b * (a⁻¹ * a⁻¹) * (finish realOps i x).variation := by
    change vmax realOps i.cfg.nphi (finish realOps (scaleIn a b i) (fun j => a⁻¹ * x j)).B20
      - vmin realOps i.cfg.nphi (finish realOps (scaleIn a b i) (fun j => a⁻¹ * x j)).B20
      = b * (a⁻¹ * a⁻¹) * (vmax realOps i.cfg.nphi (finish realOps i x).B20 - vmin realOps i.cfg.nphi (finish realOps i x).B20)
    rw [hB20, vmax_scale _ hc, vmin_scale _ hc]; ring
  have hres : (finish realOps (scaleIn a b i) (fun j => a⁻¹ * x j)).residual = a⁻¹ * a⁻¹ * (finish realOps i x).residual := by
    change Real.sqrt (vsum i.cfg.nphi (fun j => (finish realOps (scaleIn a b i) (fun j => a⁻¹ * x j)).anomaly j
      * (finish realOps (scaleIn a b i) (fun j => a⁻¹ * x j)).anomaly j * (a * i.cfg.dl j))
      * (1 / vsum i.cfg.nphi (fun j => a * i.cfg.dl j))) / (b * i.cfg.B0)
      = a⁻¹ * a⁻¹ * (Real.sqrt (vsum i.cfg.nphi (fun j => (finish realOps i x).anomaly j
      * (finish realOps i x).anomaly j * i.cfg.dl j) * (1 / vsum i.cfg.nphi i.cfg.dl)) / i.cfg.B0)
    rw [hnorm, hanom, show (fun j => b * (a⁻¹ * a⁻¹) * (finish realOps i x).anomaly j
        * (b * (a⁻¹ * a⁻¹) * (finish realOps i x).anomaly j) * i.cfg.dl j)
      = fun j => b * (a⁻¹ * a⁻¹) * (b * (a⁻¹ * a⁻¹)) * ((finish realOps i x).anomaly j * (finish realOps i x).anomaly j * i.cfg.dl j)
      from by funext j; ring, vsum_scale, mul_assoc, sqrt_scale hc.le]
    field_simp
  have hD : ∀ f : Nat → ℝ, matVec (scaleIn a b i).cfg.nphi (scaleIn a b i).cfg.dDvarphi (fun j => a⁻¹ * f j)
      = fun j => a⁻¹ * matVec i.cfg.nphi i.cfg.dDvarphi f j := fun f => matVec_scale _ _ _ _
  have hm1 : (finish realOps (scaleIn a b i) (fun j => a⁻¹ * x j)).maxXY2 = a⁻¹ * (finish realOps i x).maxXY2 := by
    change absMax realOps i.cfg.nphi (finish realOps (scaleIn a b i) (fun j => a⁻¹ * x j)).X20
      [(pre (scaleIn a b i)).X2s, (pre (scaleIn a b i)).X2c, (finish realOps (scaleIn a b i) (fun j => a⁻¹ * x j)).Y20,
        (finish realOps (scaleIn a b i) (fun j => a⁻¹ * x j)).Y2s, (finish realOps (scaleIn a b i) (fun j => a⁻¹ * x j)).Y2c] = _
    rw [hX20, hY20, hY2s, hY2c, pre_scale ha hb]
    exact absMax_scale hi _ _ [_, _, _, _, _]
  have hm2 : (finish realOps (scaleIn a b i) (fun j => a⁻¹ * x j)).maxZ2 = a⁻¹ * (finish realOps i x).maxZ2 := by
    change absMax realOps i.cfg.nphi (pre (scaleIn a b i)).Z20 [(pre (scaleIn a b i)).Z2s, (pre (scaleIn a b i)).Z2c] = _
    rw [pre_scale ha hb]
    exact absMax_scale hi _ _ [_, _]
  have hm3 : (finish realOps (scaleIn a b i) (fun j => a⁻¹ * x j)).maxDXY2 = a⁻¹ * (finish realOps i x).maxDXY2 := by
    change absMax realOps i.cfg.nphi (matVec (scaleIn a b i).cfg.nphi (scaleIn a b i).cfg.dDvarphi
        (finish realOps (scaleIn a b i) (fun j => a⁻¹ * x j)).X20)
      [(pre (scaleIn a b i)).dX2s, (pre (scaleIn a b i)).dX2c,
        matVec (scaleIn a b i).cfg.nphi (scaleIn a b i).cfg.dDvarphi (finish realOps (scaleIn a b i) (fun j => a⁻¹ * x j)).Y20,
        matVec (scaleIn a b i).cfg.nphi (scaleIn a b i).cfg.dDvarphi (finish realOps (scaleIn a b i) (fun j => a⁻¹ * x j)).Y2s,
        matVec (scaleIn a b i).cfg.nphi (scaleIn a b i).cfg.dDvarphi (finish realOps (scaleIn a b i) (fun j => a⁻¹ * x j)).Y2c] = _
    rw [hX20, hY20, hY2s, hY2c, pre_scale ha hb]
    simp only [hD]
    exact absMax_scale hi _ _ [_, _, _, _, _]
  have hm4 : (finish realOps (scaleIn a b i) (fun j => a⁻¹ * x j)).maxD2XY2 = a⁻¹ * (finish realOps i x).maxD2XY2 := by
    change absMax realOps i.cfg.nphi (matVec (scaleIn a b i).cfg.nphi (scaleIn a b i).cfg.dDvarphi
        (matVec (scaleIn a b i).cfg.nphi (scaleIn a b i).cfg.dDvarphi
        (finish realOps (scaleIn a b i) (fun j => a⁻¹ * x j)).X20))
      [matVec (scaleIn a b i).cfg.nphi (scaleIn a b i).cfg.dDvarphi (pre (scaleIn a b i)).dX2s,
        matVec (scaleIn a b i).cfg.nphi (scaleIn a b i).cfg.dDvarphi (pre (scaleIn a b i)).dX2c,
        matVec (scaleIn a b i).cfg.nphi (scaleIn a b i).cfg.dDvarphi (matVec (scaleIn a b i).cfg.nphi
          (scaleIn a b i).cfg.dDvarphi (finish realOps (scaleIn a b i) (fun j => a⁻¹ * x j)).Y20),
        matVec (scaleIn a b i).cfg.nphi (scaleIn a b i).cfg.dDvarphi (matVec (scaleIn a b i).cfg.nphi
          (scaleIn a b i).cfg.dDvarphi (finish realOps (scaleIn a b i) (fun j => a⁻¹ * x j)).Y2s),
        matVec (scaleIn a b i).cfg.nphi (scaleIn a b i).cfg.dDvarphi (matVec (scaleIn a b i).cfg.nphi
          (scaleIn a b i).cfg.dDvarphi (finish realOps (scaleIn a b i) (fun j => a⁻¹ * x j)).Y2c)] = _
    rw [hX20, hY20, hY2s, hY2c, pre_scale ha hb]
    simp only [scalePre, hD]
    exact absMax_scale hi _ _ [_, _, _, _, _]
  have hm5 : (finish realOps (scaleIn a b i) (fun j => a⁻¹ * x j)).maxDZ2 = a⁻¹ * (finish realOps i x).maxDZ2 := by
    change absMax realOps i.cfg.nphi (pre (scaleIn a b i)).dZ20 [(pre (scaleIn a b i)).dZ2s, (pre (scaleIn a b i)).dZ2c] = _
    rw [pre_scale ha hb]
    exact absMax_scale hi _ _ [_, _]
  generalize finish realOps (scaleIn a b i) (fun j => a⁻¹ * x j) = f at *
  cases f
  simp only at *
  subst hX20 hY20 hY2s hY2c hB20 hmean hanom hvar hres hm1 hm2 hm3 hm4 hm5
  rfl

noncomputable def scaleR2p1 (a : ℝ) (t : R2p1 ℝ) : R2p1 ℝ :=
  { lambda := fun j => a⁻¹ * a⁻¹ * t.lambda j
    X3c1 := fun j => a⁻¹ * a⁻¹ * t.X3c1 j
    Y3c1 := fun j => a⁻¹ * a⁻¹ * t.Y3c1 j
    Y3s1 := fun j => a⁻¹ * a⁻¹ * t.Y3s1 j
    maxXY3 := a⁻¹ * a⁻¹ * t.maxXY3
    maxDXY3 := a⁻¹ * a⁻¹ * t.maxDXY3
    maxD2XY3 := a⁻¹ * a⁻¹ * t.maxD2XY3 }

theorem r2p1_scale {a b : ℝ} (ha : 0 < a) (hb : 0 < b) (i : In ℝ) (r : R2 ℝ) :
    r2p1 realOps (scaleIn a b i) (scaleR2 a b r) = scaleR2p1 a (r2p1 realOps i r) := by
  have hc : 0 < a⁻¹ * a⁻¹ := by positivity
  have hl : (r2p1 realOps (scaleIn a b i) (scaleR2 a b r)).lambda = fun j => a⁻¹ * a⁻¹ * (r2p1 realOps i r).lambda j := by
    funext j
    simp only [r2p1, pre_scale ha hb, scalePre, scaleR2]
    simp only [scaleIn, scaleCfg]
    field_simp
  have hX : (r2p1 realOps (scaleIn a b i) (scaleR2 a b r)).X3c1 = fun j => a⁻¹ * a⁻¹ * (r2p1 realOps i r).X3c1 j := by
    funext j
    change i.r1.X1c j * (r2p1 realOps (scaleIn a b i) (scaleR2 a b r)).lambda j = a⁻¹ * a⁻¹ * (i.r1.X1c j * (r2p1 realOps i r).lambda j)
    rw [hl]; ring
  have hYc : (r2p1 realOps (scaleIn a b i) (scaleR2 a b r)).Y3c1 = fun j => a⁻¹ * a⁻¹ * (r2p1 realOps i r).Y3c1 j := by
    funext j
    change i.r1.Y1c j * (r2p1 realOps (scaleIn a b i) (scaleR2 a b r)).lambda j = a⁻¹ * a⁻¹ * (i.r1.Y1c j * (r2p1 realOps i r).lambda j)
    rw [hl]; ring
  have hYs : (r2p1 realOps (scaleIn a b i) (scaleR2 a b r)).Y3s1 = fun j => a⁻¹ * a⁻¹ * (r2p1 realOps i r).Y3s1 j := by
    funext j
    change i.r1.Y1s j * (r2p1 realOps (scaleIn a b i) (scaleR2 a b r)).lambda j = a⁻¹ * a⁻¹ * (i.r1.Y1s j * (r2p1 realOps i r).lambda j)
    rw [hl]; ring
  have hm1 : (r2p1 realOps (scaleIn a b i) (scaleR2 a b r)).maxXY3 = a⁻¹ * a⁻¹ * (r2p1 realOps i r).maxXY3 := by
    change absMax realOps i.cfg.nphi (r2p1 realOps (scaleIn a b i) (scaleR2 a b r)).X3c1
      [(r2p1 realOps (scaleIn a b i) (scaleR2 a b r)).Y3c1, (r2p1 realOps (scaleIn a b i) (scaleR2 a b r)).Y3s1] = _
    rw [hX, hYc, hYs]
    exact absMax_scale hc _ _ [_, _]
  have hm2 : (r2p1 realOps (scaleIn a b i) (scaleR2 a b r)).maxDXY3 = a⁻¹ * a⁻¹ * (r2p1 realOps i r).maxDXY3 := by
    change absMax realOps i.cfg.nphi (matVec i.cfg.nphi i.cfg.dDvarphi (r2p1 realOps (scaleIn a b i) (scaleR2 a b r)).X3c1)
      [matVec i.cfg.nphi i.cfg.dDvarphi (r2p1 realOps (scaleIn a b i) (scaleR2 a b r)).Y3c1,
        matVec i.cfg.nphi i.cfg.dDvarphi (r2p1 realOps (scaleIn a b i) (scaleR2 a b r)).Y3s1] = _
    rw [hX, hYc, hYs]
    simp only [matVec_scale]
    exact absMax_scale hc _ _ [_, _]
  have hm3 : (r2p1 realOps (scaleIn a b i) (scaleR2 a b r)).maxD2XY3 = a⁻¹ * a⁻¹ * (r2p1 realOps i r).maxD2XY3 := by
    change absMax realOps i.cfg.nphi (matVec i.cfg.nphi i.cfg.dDvarphi (matVec i.cfg.nphi i.cfg.dDvarphi (r2p1 realOps (scaleIn a b i) (scaleR2 a b r)).X3c1))
      [matVec i.cfg.nphi i.cfg.dDvarphi (matVec i.cfg.nphi i.cfg.dDvarphi (r2p1 realOps (scaleIn a b i) (scaleR2 a b r)).Y3c1),
        matVec i.cfg.nphi i.cfg.dDvarphi (matVec i.cfg.nphi i.cfg.dDvarphi (r2p1 realOps (scaleIn a b i) (scaleR2 a b r)).Y3s1)] = _
    rw [hX, hYc, hYs]
    simp only [matVec_scale]
    exact absMax_scale hc _ _ [_, _]
  generalize r2p1 realOps (scaleIn a b i) (scaleR2 a b r) = f at *
  cases f
  simp only at *
  subst hl hX hYc hYs hm1 hm2 hm3
  rfl

noncomputable def scaleMerc (a b : ℝ) (m : Mercier ℝ) : Mercier ℝ :=
  ⟨m.integral, a⁻¹ * a⁻¹ * (b⁻¹ * b⁻¹) * m.DGeod, a⁻¹ * (b⁻¹ * b⁻¹) * m.d2V,
    a⁻¹ * a⁻¹ * (b⁻¹ * b⁻¹) * m.DWell, a⁻¹ * a⁻¹ * (b⁻¹ * b⁻¹) * m.DMerc⟩

theorem mercier_scale {a b : ℝ} (ha : 0 < a) (hb : 0 < b) (i : In ℝ) (mean dPhi len : ℝ) :
    mercier realOps (scaleIn a b i) (b * (a⁻¹ * a⁻¹) * mean) dPhi (a * len) = scaleMerc a b (mercier realOps i mean dPhi len) := by
  have ha' : a ≠ 0 := ha.ne'
  have hI : (mercier realOps (scaleIn a b i) (b * (a⁻¹ * a⁻¹) * mean) dPhi (a * len)).integral
      = (mercier realOps i mean dPhi len).integral := by
    simp only [mercier]
    rw [show (scaleIn a b i).cfg.nphi = i.cfg.nphi from rfl, show (scaleIn a b i).cfg.nfp = i.cfg.nfp from rfl]
    rw [show (fun j => (scaleIn a b i).cfg.dl j * ((scaleIn a b i).cfg.etaBar * (scaleIn a b i).cfg.etaBar * (scaleIn a b i).cfg.etaBar * (scaleIn a b i).cfg.etaBar
        + (scaleIn a b i).cfg.curvature j * (scaleIn a b i).cfg.curvature j * (scaleIn a b i).cfg.curvature j * (scaleIn a b i).cfg.curvature j
          * (scaleIn a b i).st.sigma j * (scaleIn a b i).st.sigma j
        + (scaleIn a b i).cfg.etaBar * (scaleIn a b i).cfg.etaBar * (scaleIn a b i).cfg.curvature j * (scaleIn a b i).cfg.curvature j)
        / ((scaleIn a b i).cfg.etaBar * (scaleIn a b i).cfg.etaBar * (scaleIn a b i).cfg.etaBar * (scaleIn a b i).cfg.etaBar
        + (scaleIn a b i).cfg.curvature j * (scaleIn a b i).cfg.curvature j * (scaleIn a b i).cfg.curvature j * (scaleIn a b i).cfg.curvature j
          * (1 + (scaleIn a b i).st.sigma j * (scaleIn a b i).st.sigma j)
        + 2 * (scaleIn a b i).cfg.etaBar * (scaleIn a b i).cfg.etaBar * (scaleIn a b i).cfg.curvature j * (scaleIn a b i).cfg.curvature j))
      = fun j => a * (i.cfg.dl j * (i.cfg.etaBar * i.cfg.etaBar * i.cfg.etaBar * i.cfg.etaBar
        + i.cfg.curvature j * i.cfg.curvature j * i.cfg.curvature j * i.cfg.curvature j * i.st.sigma j * i.st.sigma j
        + i.cfg.etaBar * i.cfg.etaBar * i.cfg.curvature j * i.cfg.curvature j)
        / (i.cfg.etaBar * i.cfg.etaBar * i.cfg.etaBar * i.cfg.etaBar
        + i.cfg.curvature j * i.cfg.curvature j * i.cfg.curvature j * i.cfg.curvature j * (1 + i.st.sigma j * i.st.sigma j)
        + 2 * i.cfg.etaBar * i.cfg.etaBar * i.cfg.curvature j * i.cfg.curvature j)) from by
      funext j; simp only [scaleIn, scaleCfg]; field_simp, vsum_scale]
    rw [show ∀ s : ℝ, a * s * dPhi * i.cfg.nfp * 2 * realOps.pi = a * (s * dPhi * i.cfg.nfp * 2 * realOps.pi) from
      fun s => by ring, mul_div_mul_left _ _ ha']
  have habs : realOps.abs (a * b * i.cfg.G0) = a * b * realOps.abs i.cfg.G0 := abs_scale (mul_pos ha hb) _
  have hG : (mercier realOps (scaleIn a b i) (b * (a⁻¹ * a⁻¹) * mean) dPhi (a * len)).DGeod
      = a⁻¹ * a⁻¹ * (b⁻¹ * b⁻¹) * (mercier realOps i mean dPhi len).DGeod := by
    change -((_ : ℝ) / _) * (mercier realOps (scaleIn a b i) (b * (a⁻¹ * a⁻¹) * mean) dPhi (a * len)).integral
      = a⁻¹ * a⁻¹ * (b⁻¹ * b⁻¹) * (-((_ : ℝ) / _) * (mercier realOps i mean dPhi len).integral)
    rw [hI]; simp only [scaleIn, scaleCfg]; field_simp
  have hV : (mercier realOps (scaleIn a b i) (b * (a⁻¹ * a⁻¹) * mean) dPhi (a * len)).d2V
      = a⁻¹ * (b⁻¹ * b⁻¹) * (mercier realOps i mean dPhi len).d2V := by
    simp only [mercier, pre_scale ha hb, scalePre]; simp only [scaleIn, scaleCfg, habs]; field_simp
  have hW : (mercier realOps (scaleIn a b i) (b * (a⁻¹ * a⁻¹) * mean) dPhi (a * len)).DWell
      = a⁻¹ * a⁻¹ * (b⁻¹ * b⁻¹) * (mercier realOps i mean dPhi len).DWell := by
    change (_ : ℝ) * ((mercier realOps (scaleIn a b i) (b * (a⁻¹ * a⁻¹) * mean) dPhi (a * len)).d2V - _)
      = a⁻¹ * a⁻¹ * (b⁻¹ * b⁻¹) * ((_ : ℝ) * ((mercier realOps i mean dPhi len).d2V - _))
    rw [hV]; simp only [scaleIn, scaleCfg, habs]; field_simp
  have hM : (mercier realOps (scaleIn a b i) (b * (a⁻¹ * a⁻¹) * mean) dPhi (a * len)).DMerc
      = a⁻¹ * a⁻¹ * (b⁻¹ * b⁻¹) * (mercier realOps i mean dPhi len).DMerc := by
    change (mercier realOps (scaleIn a b i) (b * (a⁻¹ * a⁻¹) * mean) dPhi (a * len)).DWell
      + (mercier realOps (scaleIn a b i) (b * (a⁻¹ * a⁻¹) * mean) dPhi (a * len)).DGeod
      = a⁻¹ * a⁻¹ * (b⁻¹ * b⁻¹) * ((mercier realOps i mean dPhi len).DWell + (mercier realOps i mean dPhi len).DGeod)
    rw [hW, hG]; ring
  generalize mercier realOps (scaleIn a b i) (b * (a⁻¹ * a⁻¹) * mean) dPhi (a * len) = f at *
  cases f
  simp only at *
  subst hI hG hV hW hM
  rfl

end Qsc.Scaling
