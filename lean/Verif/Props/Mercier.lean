import Verif.Props.R2Field
import Verif.Lemmas.Mercier
import Verif.Lemmas.Volume

/-!
# Second-order diagnostics (C44) and the Mercier criterion (C45)

Exact real arithmetic.
-/

namespace Qsc.R2

open Qsc.Spec.NearAxis Real

/-! ## Statistics of `B20` -/

section
variable {i : In ℝ} (x : Nat → ℝ)

/-- **C44.** `B20_mean` is the average along the axis, it lies between the extreme values, and the anomaly
averages to zero. -/
theorem b20_mean (hw : ∀ j < i.cfg.nphi, 0 < i.cfg.dl j) (hn : 0 < i.cfg.nphi) :
    let r := finish realOps i x
    r.mean * ∑ j ∈ Finset.range i.cfg.nphi, i.cfg.dl j =
      ∑ j ∈ Finset.range i.cfg.nphi, r.B20 j * i.cfg.dl j ∧
    (∀ j, r.anomaly j = r.B20 j - r.mean) ∧
    ∑ j ∈ Finset.range i.cfg.nphi, r.anomaly j * i.cfg.dl j = 0 ∧
    (∃ j < i.cfg.nphi, r.B20 j ≤ r.mean) ∧ ∃ j < i.cfg.nphi, r.mean ≤ r.B20 j := by
  intro r
  have hs : 0 < ∑ j ∈ Finset.range i.cfg.nphi, i.cfg.dl j :=
    Finset.sum_pos (fun j hj => hw j (Finset.mem_range.1 hj)) ⟨0, Finset.mem_range.2 hn⟩
  have hm : r.mean = (∑ j ∈ Finset.range i.cfg.nphi, r.B20 j * i.cfg.dl j) /
      ∑ j ∈ Finset.range i.cfg.nphi, i.cfg.dl j := by
    rw [div_eq_mul_one_div, ← vsum_eq, ← vsum_eq]; rfl
  have h1 : r.mean * ∑ j ∈ Finset.range i.cfg.nphi, i.cfg.dl j =
      ∑ j ∈ Finset.range i.cfg.nphi, r.B20 j * i.cfg.dl j := by
    rw [hm, div_mul_cancel₀ _ hs.ne']
  have h2 : ∀ j, r.anomaly j = r.B20 j - r.mean := fun _ => rfl
  obtain ⟨a1, j1, hj1, e1⟩ := vmin_spec i.cfg.nphi hn r.B20
  obtain ⟨a2, j2, hj2, e2⟩ := vmax_spec i.cfg.nphi hn r.B20
  obtain ⟨m1, m2⟩ := mean_between hw hn a1 a2
  rw [← hm, e1] at m1
  rw [← hm, e2] at m2
  refine ⟨h1, h2, ?_, ⟨j1, hj1, m1⟩, j2, hj2, m2⟩
  simp only [h2, sub_mul, Finset.sum_sub_distrib, ← Finset.mul_sum]
  rw [h1, sub_self]

/-- **C44.** `B20_grid_variation` is the largest difference of two values of `B20`; `B20_residual` is the
root mean square of the anomaly over `B0`; both vanish exactly when `B20` is constant. -/
theorem b20_variation (hw : ∀ j < i.cfg.nphi, 0 < i.cfg.dl j) (hn : 0 < i.cfg.nphi) (hB : i.cfg.B0 ≠ 0) :
    let r := finish realOps i x
    let const := ∀ j < i.cfg.nphi, ∀ k < i.cfg.nphi, r.B20 j = r.B20 k
    (∀ j < i.cfg.nphi, ∀ k < i.cfg.nphi, r.B20 j - r.B20 k ≤ r.variation) ∧
    (∃ j < i.cfg.nphi, ∃ k < i.cfg.nphi, r.variation = r.B20 j - r.B20 k) ∧
    (r.variation = 0 ↔ const) ∧
    0 ≤ r.residual * i.cfg.B0 ∧
    (r.residual * i.cfg.B0) ^ 2 * ∑ j ∈ Finset.range i.cfg.nphi, i.cfg.dl j =
      ∑ j ∈ Finset.range i.cfg.nphi, (r.B20 j - r.mean) ^ 2 * i.cfg.dl j ∧
    (r.residual = 0 ↔ const) := by
  intro r const
  have hs : 0 < ∑ j ∈ Finset.range i.cfg.nphi, i.cfg.dl j :=
    Finset.sum_pos (fun j hj => hw j (Finset.mem_range.1 hj)) ⟨0, Finset.mem_range.2 hn⟩
  obtain ⟨a1, j1, hj1, e1⟩ := vmin_spec i.cfg.nphi hn r.B20
  obtain ⟨a2, j2, hj2, e2⟩ := vmax_spec i.cfg.nphi hn r.B20
  have hv : r.variation = vmax realOps i.cfg.nphi r.B20 - vmin realOps i.cfg.nphi r.B20 := rfl
  obtain ⟨-, -, -, ⟨k1, hk1, l1⟩, k2, hk2, l2⟩ := b20_mean x hw hn
  have hr : r.residual * i.cfg.B0 = √((∑ j ∈ Finset.range i.cfg.nphi, (r.B20 j - r.mean) *
      (r.B20 j - r.mean) * i.cfg.dl j) / ∑ j ∈ Finset.range i.cfg.nphi, i.cfg.dl j) := by
    have : r.residual = √((vsum i.cfg.nphi fun j => (r.B20 j - r.mean) * (r.B20 j - r.mean) * i.cfg.dl j) *
      (1 / vsum i.cfg.nphi i.cfg.dl)) / i.cfg.B0 := rfl
    rw [this, div_mul_cancel₀ _ hB, vsum_eq, vsum_eq, mul_one_div]
  have hnn : 0 ≤ ∑ j ∈ Finset.range i.cfg.nphi, (r.B20 j - r.mean) * (r.B20 j - r.mean) * i.cfg.dl j :=
    Finset.sum_nonneg fun j hj => mul_nonneg (mul_self_nonneg _) (hw j (Finset.mem_range.1 hj)).le
  have hvar : ∀ j < i.cfg.nphi, ∀ k < i.cfg.nphi, r.B20 j - r.B20 k ≤ r.variation := fun j hj k hk => by
    rw [hv]; exact sub_le_sub (a2 j hj) (a1 k hk)
  refine ⟨hvar, ⟨j2, hj2, j1, hj1, by rw [hv, e1, e2]⟩, ⟨fun h j hj k hk => ?_, fun h => ?_⟩,
    by rw [hr]; exact Real.sqrt_nonneg _, ?_, ⟨fun h j hj k hk => ?_, fun h => ?_⟩⟩
  · have p := hvar j hj k hk
    have q := hvar k hk j hj
    rw [h] at p q
    linarith
  · rw [hv, e1, e2, h j2 hj2 j1 hj1, sub_self]
  · rw [hr, Real.sq_sqrt (div_nonneg hnn hs.le), div_mul_cancel₀ _ hs.ne']
    exact Finset.sum_congr rfl fun j _ => by ring
  · have h0 : √((∑ j ∈ Finset.range i.cfg.nphi, (r.B20 j - r.mean) * (r.B20 j - r.mean) * i.cfg.dl j) /
        ∑ j ∈ Finset.range i.cfg.nphi, i.cfg.dl j) = 0 := by rw [← hr, h, zero_mul]
    rw [Real.sqrt_eq_zero (div_nonneg hnn hs.le), div_eq_zero_iff] at h0
    have h1 := (wsum_sq_eq_zero hw (f := fun j => r.B20 j - r.mean)).1 (h0.resolve_right hs.ne')
    have p := h1 j hj
    have q := h1 k hk
    linarith
  · have hz : ∀ j < i.cfg.nphi, r.B20 j - r.mean = 0 := fun j hj => by
      have p := h j hj k1 hk1
      have q := h j hj k2 hk2
      have l1' : r.B20 k1 ≤ r.mean := l1
      have l2' : r.mean ≤ r.B20 k2 := l2
      linarith
    have : r.residual * i.cfg.B0 = 0 := by
      rw [hr, (wsum_sq_eq_zero hw (f := fun j => r.B20 j - r.mean)).2 hz, zero_div, Real.sqrt_zero]
    exact (mul_eq_zero.1 this).resolve_right hB

end

/-- `m` is the largest absolute value of the profiles on the grid. -/
def IsAbsMax (n : Nat) (m : ℝ) (fs : List (Nat → ℝ)) : Prop :=
  (∀ f ∈ fs, ∀ j < n, |f j| ≤ m) ∧ ∃ f ∈ fs, ∃ j < n, m = |f j|

theorem absMax_spec (n : Nat) (hn : 0 < n) (f : Nat → ℝ) (fs : List (Nat → ℝ)) :
    IsAbsMax n (absMax realOps n f fs) (f :: fs) := by
  unfold absMax
  have key : ∀ (fs done : List (Nat → ℝ)) (m : ℝ), IsAbsMax n m done →
      IsAbsMax n (fs.foldl (fun m g => max2 realOps m (vmax realOps n fun j => realOps.abs (g j))) m)
        (done ++ fs) := by
    intro fs
    induction fs with
    | nil => intro done m h; rw [List.append_nil]; exact h
    | cons g fs ih =>
      intro done m h
      have e : done ++ g :: fs = (done ++ [g]) ++ fs := by simp
      rw [e, List.foldl_cons]
      refine ih _ _ ?_
      obtain ⟨a, k, hk, ek⟩ := vmax_spec n hn fun j => realOps.abs (g j)
      obtain ⟨b, g', hg', k', hk', ek'⟩ := h
      have hlt : ∀ u v : ℝ, max2 realOps u v = if u < v then v else u := by
        intro u v; unfold max2; simp [realOps]
      rw [hlt]
      have habs : ∀ u, realOps.abs u = |u| := fun _ => rfl
      simp only [habs] at a ek ⊢
      generalize vmax realOps n _ = v at a ek ⊢
      by_cases hc : m < v
      · rw [if_pos hc]
        refine ⟨fun q hq j hj => ?_, g, by simp, k, hk, ek⟩
        rcases List.mem_append.1 hq with hq | hq
        · exact (b q hq j hj).trans hc.le
        · rw [List.mem_singleton.1 hq]; exact a j hj
      · rw [if_neg hc]
        refine ⟨fun q hq j hj => ?_, g', by simp [hg'], k', hk', ek'⟩
        rcases List.mem_append.1 hq with hq | hq
        · exact b q hq j hj
        · rw [List.mem_singleton.1 hq]; exact (a j hj).trans (not_lt.1 hc)
  refine key fs [f] _ ?_
  obtain ⟨a, k, hk, ek⟩ := vmax_spec n hn fun j => realOps.abs (f j)
  refine ⟨fun q hq j hj => ?_, f, by simp, k, hk, ek⟩
  rw [List.mem_singleton.1 hq]; exact a j hj

theorem IsAbsMax.congr {n : Nat} {m : ℝ} {fs gs : List (Nat → ℝ)} (h : IsAbsMax n m fs) (e : fs = gs) :
    IsAbsMax n m gs := e ▸ h

/-- **C44.** The reported grid maxima are the largest absolute values of the second-order coefficients, of
their derivatives and of their second derivatives along the axis. -/
theorem grid_maxima (i : In ℝ) (x : Nat → ℝ) (hn : 0 < i.cfg.nphi) :
    let r := finish realOps i x
    let q := pre i
    let D := der i
    let xy := [r.X20, q.X2s, q.X2c, r.Y20, r.Y2s, r.Y2c]
    let z := [q.Z20, q.Z2s, q.Z2c]
    IsAbsMax i.cfg.nphi r.maxXY2 xy ∧ IsAbsMax i.cfg.nphi r.maxZ2 z ∧
    IsAbsMax i.cfg.nphi r.maxDXY2 (xy.map D) ∧ IsAbsMax i.cfg.nphi r.maxD2XY2 (xy.map fun f => D (D f)) ∧
    IsAbsMax i.cfg.nphi r.maxDZ2 (z.map D) := by
  intro r q D xy z
  have hD : ∀ f, (matVec i.cfg.nphi i.cfg.dDvarphi f : Nat → ℝ) = D f := fun f => funext fun j => der_eq i f j
  have d1 : q.dX2s = D q.X2s := hD _
  have d2 : q.dX2c = D q.X2c := hD _
  have d3 : q.dZ20 = D q.Z20 := hD _
  have d4 : q.dZ2s = D q.Z2s := hD _
  have d5 : q.dZ2c = D q.Z2c := hD _
  refine ⟨absMax_spec _ hn _ _, absMax_spec _ hn _ _, (absMax_spec _ hn _ _).congr ?_,
    (absMax_spec _ hn _ _).congr ?_, (absMax_spec _ hn _ _).congr ?_⟩
  · change [matVec i.cfg.nphi i.cfg.dDvarphi r.X20, q.dX2s, q.dX2c, matVec i.cfg.nphi i.cfg.dDvarphi r.Y20,
      matVec i.cfg.nphi i.cfg.dDvarphi r.Y2s, matVec i.cfg.nphi i.cfg.dDvarphi r.Y2c] = _
    rw [d1, d2, hD, hD, hD, hD]; rfl
  · change [matVec i.cfg.nphi i.cfg.dDvarphi (matVec i.cfg.nphi i.cfg.dDvarphi r.X20),
      matVec i.cfg.nphi i.cfg.dDvarphi q.dX2s, matVec i.cfg.nphi i.cfg.dDvarphi q.dX2c,
      matVec i.cfg.nphi i.cfg.dDvarphi (matVec i.cfg.nphi i.cfg.dDvarphi r.Y20),
      matVec i.cfg.nphi i.cfg.dDvarphi (matVec i.cfg.nphi i.cfg.dDvarphi r.Y2s),
      matVec i.cfg.nphi i.cfg.dDvarphi (matVec i.cfg.nphi i.cfg.dDvarphi r.Y2c)] = _
    rw [d1, d2]
    simp only [hD]
    rfl
  · change [q.dZ20, q.dZ2s, q.dZ2c] = _
    rw [d3, d4, d5]; rfl

/-- **C44.** The same for the third order. -/
theorem grid_maxima_third (i : In ℝ) (r : R2 ℝ) (hn : 0 < i.cfg.nphi) :
    let q := r2p1 realOps i r
    let xy := [q.X3c1, q.Y3c1, q.Y3s1]
    IsAbsMax i.cfg.nphi q.maxXY3 xy ∧ IsAbsMax i.cfg.nphi q.maxDXY3 (xy.map (der i)) ∧
    IsAbsMax i.cfg.nphi q.maxD2XY3 (xy.map fun f => der i (der i f)) := by
  intro q xy
  have hD : ∀ f, (matVec i.cfg.nphi i.cfg.dDvarphi f : Nat → ℝ) = der i f :=
    fun f => funext fun j => der_eq i f j
  refine ⟨absMax_spec _ hn _ _, (absMax_spec _ hn _ _).congr ?_, (absMax_spec _ hn _ _).congr ?_⟩
  · change [matVec i.cfg.nphi i.cfg.dDvarphi q.X3c1, matVec i.cfg.nphi i.cfg.dDvarphi q.Y3c1,
      matVec i.cfg.nphi i.cfg.dDvarphi q.Y3s1] = _
    simp only [hD]; rfl
  · change [matVec i.cfg.nphi i.cfg.dDvarphi (matVec i.cfg.nphi i.cfg.dDvarphi q.X3c1),
      matVec i.cfg.nphi i.cfg.dDvarphi (matVec i.cfg.nphi i.cfg.dDvarphi q.Y3c1),
      matVec i.cfg.nphi i.cfg.dDvarphi (matVec i.cfg.nphi i.cfg.dDvarphi q.Y3s1)] = _
    simp only [hD]; rfl

/-! ## Mercier -/

open Qsc.Spec.Mercier

/-- `|grad psi|^2` at first order. -/
noncomputable def gradPsi2 (i : In ℝ) (r : ℝ) (j : Nat) (θ : ℝ) : ℝ :=
  (i.cfg.B0 * r) ^ 2 * gradR2 (i.r1.X1c j) (i.r1.Y1s j) (i.r1.Y1c j) θ

/-- `mu0 J . B`: `mu0 J . B / B^2` is a constant (the net current) minus the derivative of `beta`, whose
coefficient follows from force balance (`force_balance`). -/
noncomputable def JB (i : In ℝ) (c0 r : ℝ) (_ : Nat) (θ : ℝ) : ℝ :=
  i.cfg.B0 ^ 2 * (c0 - r * (pre i).beta1s * cos θ)

theorem surf_const {n : Nat} {w : Nat → ℝ} {f : Nat → ℝ → ℝ} {a : ℝ}
    (hw : (∑ j ∈ Finset.range n, w j) ≠ 0) (h : ∀ j < n, ∫ θ in 0..2 * π, f j θ = a) :
    surf n w f = 2 * π * a := by
  unfold surf
  have : ∑ j ∈ Finset.range n, w j * ∫ θ in 0..2 * π, f j θ = (∑ j ∈ Finset.range n, w j) * a := by
    rw [Finset.sum_mul]
    exact Finset.sum_congr rfl fun j hj => by rw [h j (Finset.mem_range.1 hj)]
  rw [this, mul_div_cancel_left₀ _ hw]

theorem surf_eq {n : Nat} {w : Nat → ℝ} {f : Nat → ℝ → ℝ} {a : Nat → ℝ}
    (h : ∀ j < n, ∫ θ in 0..2 * π, f j θ = a j) :
    surf n w f = 2 * π * ((∑ j ∈ Finset.range n, w j * a j) / ∑ j ∈ Finset.range n, w j) := by
  unfold surf
  have : ∑ j ∈ Finset.range n, w j * ∫ θ in 0..2 * π, f j θ = ∑ j ∈ Finset.range n, w j * a j :=
    Finset.sum_congr rfl fun j hj => by rw [h j (Finset.mem_range.1 hj)]
  rw [this]

/-- The average of `cos^2 theta / |grad r|^2` over the poloidal angle. -/
noncomputable def cosAvg (i : In ℝ) (j : Nat) : ℝ :=
  (∫ θ in 0..2 * π, cos θ ^ 2 / gradR2 (i.r1.X1c j) (i.r1.Y1s j) (i.r1.Y1c j) θ) / (2 * π)

section
variable {i : In ℝ}

theorem Ok.area_sq (ok : Ok i) {j : Nat} (hj : j < i.cfg.nphi) : (i.r1.X1c j * i.r1.Y1s j) ^ 2 = 1 := by
  rw [ok.area hj, mul_pow, ok.sGsq, ok.spsisq, one_mul]

theorem cosAvg_shape (ok : Ok i) {j : Nat} (hj : j < i.cfg.nphi) :
    cosAvg i j = (i.r1.X1c j ^ 2 + i.r1.Y1c j ^ 2 + 1) / (i.r1.X1c j ^ 2 + i.r1.Y1s j ^ 2 + i.r1.Y1c j ^ 2 + 2) := by
  have h := ok.area_sq hj
  unfold cosAvg
  simp only [gradR2_eq h]
  rw [integral_cos_sq (det_eq h) (tr_pos h)]
  have := Real.pi_ne_zero
  rw [mul_div_cancel_left₀ _ (by positivity)]
  congr 1
  ring

/-- The ratio in the code is that average. -/
theorem cosAvg_eq (ok : Ok i) {j : Nat} (hj : j < i.cfg.nphi) :
    cosAvg i j =
      (let e := i.cfg.etaBar
       let k := i.cfg.curvature j
       let s := i.st.sigma j
       (e * e * e * e + k * k * k * k * s * s + e * e * k * k) /
        (e * e * e * e + k * k * k * k * (1 + s * s) + 2 * e * e * k * k)) := by
  have hk := ok.kappa j hj
  have he := ok.eta
  have h1 := ok.sGsq
  have h2 := ok.spsisq
  rw [cosAvg_shape ok hj, ok.Y1c]
  have hY : i.r1.Y1s j ^ 2 = (i.cfg.curvature j / i.cfg.etaBar) ^ 2 := by
    rw [ok.Y1s]
    have : (i.cfg.sG : ℝ) ^ 2 * (i.cfg.spsi : ℝ) ^ 2 = 1 := by rw [h1, h2, one_mul]
    linear_combination (norm := skip) (i.cfg.curvature j / i.cfg.etaBar) ^ 2 * this
    field_simp
    ring
  rw [mul_pow, hY, ok.X1c]
  dsimp only
  have hp : 0 < i.cfg.etaBar ^ 2 := by positivity
  have hq : 0 < i.cfg.curvature j ^ 2 := by positivity
  have hden : i.cfg.etaBar * i.cfg.etaBar * i.cfg.etaBar * i.cfg.etaBar + i.cfg.curvature j * i.cfg.curvature j *
      i.cfg.curvature j * i.cfg.curvature j * (1 + i.st.sigma j * i.st.sigma j) +
      2 * i.cfg.etaBar * i.cfg.etaBar * i.cfg.curvature j * i.cfg.curvature j ≠ 0 := by
    have : i.cfg.etaBar * i.cfg.etaBar * i.cfg.etaBar * i.cfg.etaBar + i.cfg.curvature j * i.cfg.curvature j *
      i.cfg.curvature j * i.cfg.curvature j * (1 + i.st.sigma j * i.st.sigma j) +
      2 * i.cfg.etaBar * i.cfg.etaBar * i.cfg.curvature j * i.cfg.curvature j =
      (i.cfg.etaBar ^ 2 + i.cfg.curvature j ^ 2) ^ 2 + (i.cfg.curvature j ^ 2 * i.st.sigma j) ^ 2 := by ring
    rw [this]; positivity
  rw [div_eq_div_iff (by positivity) hden]
  field_simp
  ring

theorem cosAvg_between (ok : Ok i) {j : Nat} (hj : j < i.cfg.nphi) : 0 < cosAvg i j ∧ cosAvg i j < 1 := by
  rw [cosAvg_shape ok hj]
  refine ⟨by positivity, ?_⟩
  rw [div_lt_one (by positivity)]
  nlinarith [sq_nonneg (i.r1.Y1s j)]

/-- The integral in the code is `2 pi` times the average over the flux surface. -/
theorem mercier_integral (ok : Ok i) (mean dPhi L : ℝ) (hw : ∀ j < i.cfg.nphi, 0 < i.cfg.dl j)
    (hn : 0 < i.cfg.nphi) (hd : dPhi * i.cfg.nfp ≠ 0)
    (hL : L = (∑ j ∈ Finset.range i.cfg.nphi, i.cfg.dl j) * dPhi * i.cfg.nfp) :
    (mercier realOps i mean dPhi L).integral = 2 * π * ((∑ j ∈ Finset.range i.cfg.nphi, i.cfg.dl j * cosAvg i j) /
      ∑ j ∈ Finset.range i.cfg.nphi, i.cfg.dl j) := by
  have hs : 0 < ∑ j ∈ Finset.range i.cfg.nphi, i.cfg.dl j :=
    Finset.sum_pos (fun j hj => hw j (Finset.mem_range.1 hj)) ⟨0, Finset.mem_range.2 hn⟩
  have e : (mercier realOps i mean dPhi L).integral =
      (∑ j ∈ Finset.range i.cfg.nphi, i.cfg.dl j * cosAvg i j) * dPhi * i.cfg.nfp * 2 * π / L := by
    have h1 : ∑ j ∈ Finset.range i.cfg.nphi, i.cfg.dl j * cosAvg i j = vsum i.cfg.nphi fun j =>
      i.cfg.dl j * (i.cfg.etaBar * i.cfg.etaBar * i.cfg.etaBar * i.cfg.etaBar +
        i.cfg.curvature j * i.cfg.curvature j * i.cfg.curvature j * i.cfg.curvature j * i.st.sigma j * i.st.sigma j +
        i.cfg.etaBar * i.cfg.etaBar * i.cfg.curvature j * i.cfg.curvature j) /
      (i.cfg.etaBar * i.cfg.etaBar * i.cfg.etaBar * i.cfg.etaBar +
        i.cfg.curvature j * i.cfg.curvature j * i.cfg.curvature j * i.cfg.curvature j *
          (1 + i.st.sigma j * i.st.sigma j) +
        2 * i.cfg.etaBar * i.cfg.etaBar * i.cfg.curvature j * i.cfg.curvature j) := by
      rw [vsum_eq]
      exact Finset.sum_congr rfl fun j hj => by rw [cosAvg_eq ok (Finset.mem_range.1 hj)]; dsimp only; ring
    rw [h1]; rfl
  rw [e, hL]
  obtain ⟨d1, d2⟩ := mul_ne_zero_iff.1 hd
  field_simp

/-- **C45.** The geodesic term is the one of the Mercier criterion, times `r^2`, for any net current. -/
theorem mercier_geod (ok : Ok i) (mean dPhi L : ℝ) (hw : ∀ j < i.cfg.nphi, 0 < i.cfg.dl j)
    (hn : 0 < i.cfg.nphi) (hd : dPhi * i.cfg.nfp ≠ 0)
    (hL : L = (∑ j ∈ Finset.range i.cfg.nphi, i.cfg.dl j) * dPhi * i.cfg.nfp) (hi : i.r1.iotaN ≠ 0)
    (c0 : ℝ) {r : ℝ} (hr : r ≠ 0) :
    (mercier realOps i mean dPhi L).DGeod =
      r ^ 2 * geod i.cfg.nphi i.cfg.dl (|i.cfg.G0| / i.cfg.B0 ^ 2) i.cfg.B0 (JB i c0 r) (gradPsi2 i r) := by
  have hs : 0 < ∑ j ∈ Finset.range i.cfg.nphi, i.cfg.dl j :=
    Finset.sum_pos (fun j hj => hw j (Finset.mem_range.1 hj)) ⟨0, Finset.mem_range.2 hn⟩
  have hB := ok.B0
  have hpi := Real.pi_ne_zero
  have hint := mercier_integral ok mean dPhi L hw hn hd hL
  generalize hg : |i.cfg.G0| / i.cfg.B0 ^ 2 = g
  generalize hb : (pre i).beta1s = b
  have hne : ∀ j < i.cfg.nphi, ∀ θ, gradR2 (i.r1.X1c j) (i.r1.Y1s j) (i.r1.Y1c j) θ ≠ 0 := fun j hj θ => by
    rw [gradR2_eq (ok.area_sq hj)]; exact (form_pos (det_eq (ok.area_sq hj)) (tr_pos (ok.area_sq hj)) θ).ne'
  have hcont : ∀ j < i.cfg.nphi, Continuous fun θ => gradR2 (i.r1.X1c j) (i.r1.Y1s j) (i.r1.Y1c j) θ :=
    fun j hj => by simp only [gradR2_eq (ok.area_sq hj)]; exact form_continuous
  have i0 : ∀ j < i.cfg.nphi, ∫ θ in 0..2 * π, 1 / gradR2 (i.r1.X1c j) (i.r1.Y1s j) (i.r1.Y1c j) θ = 2 * π :=
    fun j hj => by
      simp only [gradR2_eq (ok.area_sq hj)]; exact integral_inv (det_eq (ok.area_sq hj)) (tr_pos (ok.area_sq hj))
  have i1 : ∀ j < i.cfg.nphi, ∫ θ in 0..2 * π, cos θ / gradR2 (i.r1.X1c j) (i.r1.Y1s j) (i.r1.Y1c j) θ = 0 :=
    fun j hj => by
      simp only [gradR2_eq (ok.area_sq hj)]; exact integral_cos (det_eq (ok.area_sq hj)) (tr_pos (ok.area_sq hj))
  have i2 : ∀ j, ∫ θ in 0..2 * π, cos θ ^ 2 / gradR2 (i.r1.X1c j) (i.r1.Y1s j) (i.r1.Y1c j) θ =
      2 * π * cosAvg i j := fun j => by
    unfold cosAvg; rw [mul_div_cancel₀ _ (by positivity)]
  have S1 : surf i.cfg.nphi i.cfg.dl (fun j θ => g * i.cfg.B0 ^ 2 / gradPsi2 i r j θ) =
      2 * π * (g / r ^ 2 * (2 * π)) := by
    refine surf_const hs.ne' fun j hj => ?_
    have e : ∀ θ, g * i.cfg.B0 ^ 2 / gradPsi2 i r j θ =
        g / r ^ 2 * (1 / gradR2 (i.r1.X1c j) (i.r1.Y1s j) (i.r1.Y1c j) θ) := by
      intro θ
      have := hne j hj θ
      simp only [gradPsi2]
      field_simp
    simp only [e]
    rw [intervalIntegral.integral_const_mul, i0 j hj]
  have S2 : surf i.cfg.nphi i.cfg.dl (fun j θ => g * JB i c0 r j θ / gradPsi2 i r j θ) =
      2 * π * (g / r ^ 2 * c0 * (2 * π)) := by
    refine surf_const hs.ne' fun j hj => ?_
    have e : ∀ θ, g * JB i c0 r j θ / gradPsi2 i r j θ =
        g / r ^ 2 * c0 * (1 / gradR2 (i.r1.X1c j) (i.r1.Y1s j) (i.r1.Y1c j) θ) +
        (-(g / r * b)) * (cos θ / gradR2 (i.r1.X1c j) (i.r1.Y1s j) (i.r1.Y1c j) θ) := by
      intro θ
      have := hne j hj θ
      simp only [gradPsi2, JB, hb]
      field_simp
      ring
    simp only [e]
    rw [intervalIntegral.integral_add, intervalIntegral.integral_const_mul,
      intervalIntegral.integral_const_mul, i0 j hj, i1 j hj]
    · ring
    · exact (continuous_const.mul (continuous_const.div (hcont j hj) (hne j hj))).intervalIntegrable _ _
    · exact (continuous_const.mul (continuous_cos.div (hcont j hj) (hne j hj))).intervalIntegrable _ _
  have S3 : surf i.cfg.nphi i.cfg.dl (fun j θ => g * JB i c0 r j θ ^ 2 / (i.cfg.B0 ^ 2 * gradPsi2 i r j θ)) =
      2 * π * ((∑ j ∈ Finset.range i.cfg.nphi, i.cfg.dl j * (g / r ^ 2 * c0 ^ 2 * (2 * π) +
        g * b ^ 2 * (2 * π * cosAvg i j))) / ∑ j ∈ Finset.range i.cfg.nphi, i.cfg.dl j) := by
    refine surf_eq fun j hj => ?_
    have e : ∀ θ, g * JB i c0 r j θ ^ 2 / (i.cfg.B0 ^ 2 * gradPsi2 i r j θ) =
        g / r ^ 2 * c0 ^ 2 * (1 / gradR2 (i.r1.X1c j) (i.r1.Y1s j) (i.r1.Y1c j) θ) +
        ((-(2 * g / r * c0 * b)) * (cos θ / gradR2 (i.r1.X1c j) (i.r1.Y1s j) (i.r1.Y1c j) θ) +
        g * b ^ 2 * (cos θ ^ 2 / gradR2 (i.r1.X1c j) (i.r1.Y1s j) (i.r1.Y1c j) θ)) := by
      intro θ
      have := hne j hj θ
      simp only [gradPsi2, JB, hb]
      field_simp
      ring
    simp only [e]
    have c1 := (continuous_const (y := -(2 * g / r * c0 * b))).mul (continuous_cos.div (hcont j hj) (hne j hj))
    have c2 := (continuous_const (y := g * b ^ 2)).mul ((continuous_cos.pow 2).div (hcont j hj) (hne j hj))
    rw [intervalIntegral.integral_add, intervalIntegral.integral_add, intervalIntegral.integral_const_mul,
      intervalIntegral.integral_const_mul, intervalIntegral.integral_const_mul, i0 j hj, i1 j hj, i2 j]
    · ring
    · exact c1.intervalIntegrable _ _
    · exact c2.intervalIntegrable _ _
    · exact (continuous_const.mul (continuous_const.div (hcont j hj) (hne j hj))).intervalIntegrable _ _
    · exact (c1.add c2).intervalIntegrable _ _
  unfold geod
  rw [S1, S2, S3]
  have hsum : (∑ j ∈ Finset.range i.cfg.nphi, i.cfg.dl j * (g / r ^ 2 * c0 ^ 2 * (2 * π) +
      g * b ^ 2 * (2 * π * cosAvg i j))) / ∑ j ∈ Finset.range i.cfg.nphi, i.cfg.dl j =
      g / r ^ 2 * c0 ^ 2 * (2 * π) + g * b ^ 2 * (mercier realOps i mean dPhi L).integral := by
    rw [hint]
    simp only [mul_add, Finset.sum_add_distrib]
    rw [← Finset.sum_mul, add_div, mul_div_cancel_left₀ _ hs.ne']
    congr 1
    rw [← mul_div_assoc, ← mul_div_assoc, Finset.mul_sum, Finset.mul_sum]
    congr 1
    exact Finset.sum_congr rfl fun j _ => by ring
  rw [hsum]
  have hD : (mercier realOps i mean dPhi L).DGeod = -(2 * i.mu0 * i.mu0 * i.p2 * i.p2 * i.cfg.G0 * i.cfg.G0 *
      i.cfg.G0 * i.cfg.G0 * i.cfg.etaBar * i.cfg.etaBar / (π * π * π * i.cfg.B0 * i.cfg.B0 * i.cfg.B0 * i.cfg.B0 *
        i.cfg.B0 * i.cfg.B0 * i.cfg.B0 * i.cfg.B0 * i.cfg.B0 * i.cfg.B0 * i.r1.iotaN * i.r1.iotaN)) *
      (mercier realOps i mean dPhi L).integral := rfl
  rw [hD]
  generalize (mercier realOps i mean dPhi L).integral = J
  have hb2 : b ^ 2 = 16 * i.mu0 ^ 2 * i.p2 ^ 2 * i.cfg.etaBar ^ 2 * i.cfg.G0 ^ 2 / (i.r1.iotaN ^ 2 * i.cfg.B0 ^ 6) := by
    have hbe : (pre i).beta1s = -4 * i.cfg.spsi * i.cfg.sG * i.mu0 * i.p2 * i.cfg.etaBar * i.G0overB0 /
      (i.r1.iotaN * i.cfg.B0 * i.cfg.B0) := rfl
    rw [← hb, hbe, ok.G0]
    have h3 : (i.cfg.spsi : ℝ) ^ 2 * (i.cfg.sG : ℝ) ^ 2 = (i.cfg.sG : ℝ) ^ 2 := by rw [ok.spsisq, one_mul]
    linear_combination (norm := skip) (16 * i.mu0 ^ 2 * i.p2 ^ 2 * i.cfg.etaBar ^ 2 * i.G0overB0 ^ 2 /
      (i.r1.iotaN ^ 2 * i.cfg.B0 ^ 4)) * h3
    field_simp
    ring
  have hg2 : g ^ 2 = i.cfg.G0 ^ 2 / i.cfg.B0 ^ 4 := by
    rw [← hg, div_pow, sq_abs]; ring
  have e1 : r ^ 2 * (((2 * π * (g / r ^ 2 * c0 * (2 * π))) ^ 2 - 2 * π * (g / r ^ 2 * (2 * π)) *
      (2 * π * (g / r ^ 2 * c0 ^ 2 * (2 * π) + g * b ^ 2 * J))) / (2 * π) ^ 6) =
      -(g ^ 2 * b ^ 2 * J) / (2 * π) ^ 3 := by
    field_simp
    ring
  rw [e1, hg2, hb2]
  field_simp
  ring

/-- **C45.** The well term is the one of the Mercier criterion, times `r^2`: `dp / dpsi = 2 p2 / B0`. -/
theorem mercier_well (ok : Ok i) (mean dPhi L : ℝ) (hw : ∀ j < i.cfg.nphi, 0 < i.cfg.dl j)
    (hn : 0 < i.cfg.nphi) {r : ℝ} (hr : r ≠ 0) :
    (mercier realOps i mean dPhi L).DWell =
      r ^ 2 * well i.cfg.nphi i.cfg.dl (|i.cfg.G0| / i.cfg.B0 ^ 2) i.cfg.B0 (2 * i.mu0 * i.p2 / i.cfg.B0)
        (mercier realOps i mean dPhi L).d2V (gradPsi2 i r) := by
  have hs : 0 < ∑ j ∈ Finset.range i.cfg.nphi, i.cfg.dl j :=
    Finset.sum_pos (fun j hj => hw j (Finset.mem_range.1 hj)) ⟨0, Finset.mem_range.2 hn⟩
  have hB := ok.B0
  have hpi := Real.pi_ne_zero
  have hne : ∀ j < i.cfg.nphi, ∀ θ, gradR2 (i.r1.X1c j) (i.r1.Y1s j) (i.r1.Y1c j) θ ≠ 0 := fun j hj θ => by
    rw [gradR2_eq (ok.area_sq hj)]; exact (form_pos (det_eq (ok.area_sq hj)) (tr_pos (ok.area_sq hj)) θ).ne'
  have i0 : ∀ j < i.cfg.nphi, ∫ θ in 0..2 * π, 1 / gradR2 (i.r1.X1c j) (i.r1.Y1s j) (i.r1.Y1c j) θ = 2 * π :=
    fun j hj => by
      simp only [gradR2_eq (ok.area_sq hj)]; exact integral_inv (det_eq (ok.area_sq hj)) (tr_pos (ok.area_sq hj))
  have S1 : surf i.cfg.nphi i.cfg.dl (fun j θ => |i.cfg.G0| / i.cfg.B0 ^ 2 * i.cfg.B0 ^ 2 / gradPsi2 i r j θ) =
      2 * π * (|i.cfg.G0| / i.cfg.B0 ^ 2 / r ^ 2 * (2 * π)) := by
    refine surf_const hs.ne' fun j hj => ?_
    have e : ∀ θ, |i.cfg.G0| / i.cfg.B0 ^ 2 * i.cfg.B0 ^ 2 / gradPsi2 i r j θ =
        |i.cfg.G0| / i.cfg.B0 ^ 2 / r ^ 2 * (1 / gradR2 (i.r1.X1c j) (i.r1.Y1s j) (i.r1.Y1c j) θ) := by
      intro θ
      have := hne j hj θ
      simp only [gradPsi2]
      field_simp
    simp only [e]
    rw [intervalIntegral.integral_const_mul, i0 j hj]
  have S0 : surf i.cfg.nphi i.cfg.dl (fun _ _ => |i.cfg.G0| / i.cfg.B0 ^ 2 / i.cfg.B0 ^ 2) =
      2 * π * (2 * π * (|i.cfg.G0| / i.cfg.B0 ^ 2 / i.cfg.B0 ^ 2)) := by
    refine surf_const hs.ne' fun j _ => ?_
    rw [intervalIntegral.integral_const, smul_eq_mul, sub_zero]
  unfold well
  rw [S0, S1]
  have hD : (mercier realOps i mean dPhi L).DWell = i.mu0 * i.p2 * |i.cfg.G0| /
      (8 * π * π * π * π * i.cfg.B0 * i.cfg.B0 * i.cfg.B0) * ((mercier realOps i mean dPhi L).d2V -
        8 * π * π * i.mu0 * i.p2 * |i.cfg.G0| / (i.cfg.B0 * i.cfg.B0 * i.cfg.B0 * i.cfg.B0 * i.cfg.B0)) := rfl
  rw [hD]
  generalize (mercier realOps i mean dPhi L).d2V = V
  field_simp
  ring

/-- **C45.** The sum of both is reported; the geodesic term is never positive; it vanishes only without
pressure gradient; and without pressure gradient all three vanish. -/
theorem mercier_signs (ok : Ok i) (mean dPhi L : ℝ) (hw : ∀ j < i.cfg.nphi, 0 < i.cfg.dl j)
    (hn : 0 < i.cfg.nphi) (hd : dPhi * i.cfg.nfp ≠ 0)
    (hL : L = (∑ j ∈ Finset.range i.cfg.nphi, i.cfg.dl j) * dPhi * i.cfg.nfp) :
    let m := mercier realOps i mean dPhi L
    m.DMerc = m.DWell + m.DGeod ∧ m.DGeod ≤ 0 ∧ m.DMerc ≤ m.DWell ∧
    (i.mu0 ≠ 0 → i.r1.iotaN ≠ 0 → (m.DGeod = 0 ↔ i.p2 = 0)) ∧
    (i.p2 = 0 → m.DWell = 0 ∧ m.DGeod = 0 ∧ m.DMerc = 0) := by
  intro m
  have hs : 0 < ∑ j ∈ Finset.range i.cfg.nphi, i.cfg.dl j :=
    Finset.sum_pos (fun j hj => hw j (Finset.mem_range.1 hj)) ⟨0, Finset.mem_range.2 hn⟩
  have hint := mercier_integral ok mean dPhi L hw hn hd hL
  have hpi := Real.pi_pos
  have hpos : 0 < m.integral := by
    change 0 < (mercier realOps i mean dPhi L).integral
    rw [hint]
    have : 0 < ∑ j ∈ Finset.range i.cfg.nphi, i.cfg.dl j * cosAvg i j :=
      Finset.sum_pos (fun j hj => mul_pos (hw j (Finset.mem_range.1 hj))
        (cosAvg_between ok (Finset.mem_range.1 hj)).1) ⟨0, Finset.mem_range.2 hn⟩
    positivity
  have hD : m.DGeod = -(2 * (i.mu0 * i.p2 * i.cfg.G0 ^ 2 * i.cfg.etaBar / (i.cfg.B0 ^ 5 * i.r1.iotaN)) ^ 2 / π ^ 3) *
      m.integral := by
    have : m.DGeod = -(2 * i.mu0 * i.mu0 * i.p2 * i.p2 * i.cfg.G0 * i.cfg.G0 *
      i.cfg.G0 * i.cfg.G0 * i.cfg.etaBar * i.cfg.etaBar / (π * π * π * i.cfg.B0 * i.cfg.B0 * i.cfg.B0 * i.cfg.B0 *
        i.cfg.B0 * i.cfg.B0 * i.cfg.B0 * i.cfg.B0 * i.cfg.B0 * i.cfg.B0 * i.r1.iotaN * i.r1.iotaN)) * m.integral := rfl
    rw [this]
    congr 2
    rw [div_pow, mul_pow, mul_div_assoc', div_div]
    congr 1 <;> ring
  have hM : m.DMerc = m.DWell + m.DGeod := rfl
  have hle : m.DGeod ≤ 0 := by
    rw [hD, neg_mul]
    have : 0 ≤ 2 * (i.mu0 * i.p2 * i.cfg.G0 ^ 2 * i.cfg.etaBar / (i.cfg.B0 ^ 5 * i.r1.iotaN)) ^ 2 / π ^ 3 * m.integral := by
      positivity
    linarith
  have h0 : i.p2 = 0 → m.DGeod = 0 := fun h => by rw [hD, h]; simp
  have h0' : i.p2 = 0 → m.DWell = 0 := fun h => by
    have hD : m.DWell = i.mu0 * i.p2 * |i.cfg.G0| /
      (8 * π * π * π * π * i.cfg.B0 * i.cfg.B0 * i.cfg.B0) * (m.d2V -
        8 * π * π * i.mu0 * i.p2 * |i.cfg.G0| / (i.cfg.B0 * i.cfg.B0 * i.cfg.B0 * i.cfg.B0 * i.cfg.B0)) := rfl
    rw [hD, h]; simp
  refine ⟨hM, hle, by linarith, fun hmu hi => ⟨fun h => ?_, h0⟩, fun h => ⟨h0' h, h0 h, by rw [hM, h0' h, h0 h, add_zero]⟩⟩
  have hG : i.cfg.G0 ≠ 0 := by
    rw [ok.G0]
    have := ok.sGsq
    have h3 : (i.cfg.sG : ℝ) ≠ 0 := by intro h4; rw [h4] at this; norm_num at this
    exact mul_ne_zero (mul_ne_zero h3 ok.l) ok.B0
  have hB := ok.B0
  have he := ok.eta
  by_contra hp
  have : 0 < 2 * (i.mu0 * i.p2 * i.cfg.G0 ^ 2 * i.cfg.etaBar / (i.cfg.B0 ^ 5 * i.r1.iotaN)) ^ 2 / π ^ 3 * m.integral := by
    have hne : i.mu0 * i.p2 * i.cfg.G0 ^ 2 * i.cfg.etaBar / (i.cfg.B0 ^ 5 * i.r1.iotaN) ≠ 0 :=
      div_ne_zero (mul_ne_zero (mul_ne_zero (mul_ne_zero hmu hp) (pow_ne_zero _ hG)) he)
        (mul_ne_zero (pow_ne_zero _ hB) hi)
    positivity
  rw [hD, neg_mul] at h
  linarith

/-- **C45.** `d2_volume_d_psi2` is the second derivative of the volume with respect to the toroidal flux
`psi = B0 r^2 / 2`: the first derivative is the surface integral of the Jacobian. -/
theorem volume_second_derivative (ok : Ok i) (x : Nat → ℝ) (dPhi L : ℝ)
    (hw : ∀ j < i.cfg.nphi, 0 < i.cfg.dl j) (hn : 0 < i.cfg.nphi) :
    let r2 := finish realOps i x
    let e := fun j => pt i r2 j
    let dV := fun r => surf i.cfg.nphi i.cfg.dl fun j θ =>
      |G (e j) r + (e j).iotaN * I (e j) r| / B (e j) r θ ^ 2
    dV 0 = (2 * π) ^ 2 * |i.cfg.G0| / i.cfg.B0 ^ 2 ∧
    Order 3 fun r => dV r - (dV 0 + (mercier realOps i r2.mean dPhi L).d2V * (i.cfg.B0 * r ^ 2 / 2)) := by
  intro r2 e dV
  have hs : 0 < ∑ j ∈ Finset.range i.cfg.nphi, i.cfg.dl j :=
    Finset.sum_pos (fun j hj => hw j (Finset.mem_range.1 hj)) ⟨0, Finset.mem_range.2 hn⟩
  have hB := ok.B0
  have hG : i.cfg.G0 ≠ 0 := by
    rw [ok.G0]
    have := ok.sGsq
    have h3 : (i.cfg.sG : ℝ) ≠ 0 := by intro h4; rw [h4] at this; norm_num at this
    exact mul_ne_zero (mul_ne_zero h3 ok.l) ok.B0
  have h0 : dV 0 = (2 * π) ^ 2 * |i.cfg.G0| / i.cfg.B0 ^ 2 := by
    have : dV 0 = 2 * π * (2 * π * (|i.cfg.G0| / i.cfg.B0 ^ 2)) := by
      refine surf_const hs.ne' fun j _ => ?_
      have : ∀ θ, |G (e j) 0 + (e j).iotaN * I (e j) 0| / B (e j) 0 θ ^ 2 = |i.cfg.G0| / i.cfg.B0 ^ 2 := by
        intro θ
        have e1 : G (e j) 0 + (e j).iotaN * I (e j) 0 = i.cfg.G0 := by simp [G, I, e, pt]
        have e2 : B (e j) 0 θ = i.cfg.B0 := by simp [B, e, pt]
        rw [e1, e2]
      simp only [this]
      rw [intervalIntegral.integral_const, smul_eq_mul, sub_zero]
    rw [this]; ring
  refine ⟨h0, ?_⟩
  rw [h0]
  have hd : (mercier realOps i r2.mean dPhi L).d2V = 4 * π * π * |i.cfg.G0| / (i.cfg.B0 * i.cfg.B0 * i.cfg.B0) *
      (3 * i.cfg.etaBar * i.cfg.etaBar - 4 * r2.mean / i.cfg.B0 +
        2 * ((pre i).G2 + i.st.iota * i.cfg.I2) / i.cfg.G0) := rfl
  obtain ⟨hm, -⟩ := b20_mean x hw hn
  have hm' : r2.mean = (∑ j ∈ Finset.range i.cfg.nphi, r2.B20 j * i.cfg.dl j) /
      ∑ j ∈ Finset.range i.cfg.nphi, i.cfg.dl j := by rw [eq_div_iff hs.ne']; exact hm
  have key := Asymptotics.IsBigO.sum (s := Finset.range i.cfg.nphi)
    fun j (_ : j ∈ Finset.range i.cfg.nphi) =>
      (integral_jacobian (e j) (by exact hB) (by exact hG)).const_mul_left (i.cfg.dl j)
  have key2 := key.const_mul_left (2 * π / ∑ j ∈ Finset.range i.cfg.nphi, i.cfg.dl j)
  refine key2.congr_left fun r => ?_
  simp only [Finset.sum_apply, mul_sub, Finset.sum_sub_distrib]
  have t1 : 2 * π / (∑ j ∈ Finset.range i.cfg.nphi, i.cfg.dl j) *
      (∑ j ∈ Finset.range i.cfg.nphi, i.cfg.dl j *
        ∫ θ in 0..2 * π, |G (e j) r + (e j).iotaN * I (e j) r| / B (e j) r θ ^ 2) = dV r := by
    change _ = surf _ _ _
    unfold surf
    ring
  rw [t1]
  congr 1
  have t2 : ∀ j, i.cfg.dl j * (2 * π * |(e j).G0| / (e j).B0 ^ 2 * (1 + r ^ 2 * (3 * (e j).etaBar ^ 2 / 2 -
      2 * (e j).B20 / (e j).B0 + ((e j).G2 + (e j).iotaN * (e j).I2) / (e j).G0))) =
      (2 * π * |i.cfg.G0| / i.cfg.B0 ^ 2 * (1 + r ^ 2 * (3 * i.cfg.etaBar ^ 2 / 2 +
        ((pre i).G2 + i.st.iota * i.cfg.I2) / i.cfg.G0))) * i.cfg.dl j -
      (2 * π * |i.cfg.G0| / i.cfg.B0 ^ 2 * r ^ 2 * 2 / i.cfg.B0) * (r2.B20 j * i.cfg.dl j) := by
    intro j
    simp only [e, pt]
    ring
  simp only [t2, Finset.sum_sub_distrib, ← Finset.mul_sum]
  rw [← hm, hd]
  have hs' := hs.ne'
  change _ / _ * (_ - _ * (r2.mean * _)) = _
  generalize (∑ j ∈ Finset.range i.cfg.nphi, i.cfg.dl j) = W at hs'
  generalize r2.mean = M
  generalize (pre i).G2 + i.st.iota * i.cfg.I2 = Q
  field_simp
  ring

end

/-- The hypotheses are met by the sample: positive weights, a pressure gradient and a non-zero `iota_N`. -/
example : (∀ j < sample.cfg.nphi, 0 < sample.cfg.dl j) ∧ 0 < sample.cfg.nphi ∧
    (3 : ℝ) * sample.cfg.nfp ≠ 0 ∧
    (3 : ℝ) = (∑ j ∈ Finset.range sample.cfg.nphi, sample.cfg.dl j) * 3 * sample.cfg.nfp ∧ sample.p2 ≠ 0 := by
  simp [sample, R1.sample]

/-- Its geodesic term is negative. -/
example : (mercier realOps sample 0 3 3).DGeod < 0 := by
  obtain ⟨-, h1, -, h2, -⟩ := mercier_signs sample_ok 0 3 3 (by simp [sample, R1.sample])
    (by simp [sample, R1.sample]) (by simp [sample, R1.sample]) (by simp [sample, R1.sample])
  have := h2 (by simp [sample]) (by simp [sample, R1.diagnostics, R1.sample])
  refine lt_of_le_of_ne h1 fun h0 => ?_
  have := this.1 h0
  simp [sample] at this

end Qsc.R2
