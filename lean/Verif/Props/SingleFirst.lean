import Verif.Props.SingleAxis
import Verif.Props.R1

/-!
# A single run: the solution of first order in the output file (C82)
-/

namespace Qsc.Single
open Qsc.Netcdf Qsc.Spec.Netcdf Qsc.Spec.Output Qsc.Output Qsc.Toml Qsc.Spec.Single

theorem calculate_first {L : Lib ℝ} (ho : L.ops = realOps) {q : QscIn ℝ} {n : Nat} {ord : Setup.Order} {r : Result ℝ}
    (h : calculate L q n ord = .ok r) :
    r.cfg = R1.Cfg.ofAxis r.axis n q.nfp.toNat q.sG q.spsi q.eta_bar q.sigma0 q.I2 q.B0 ∧
    R1.solveSigma realOps r.cfg (newtonSolve L n) q.newton_tolerance q.max_newton_iterations q.max_linesearch_iterations =
      (r.newton, some r.st) ∧
    r.r1 = R1.diagnostics realOps r.cfg r.st := by
  rw [← ho]
  unfold calculate at h
  split at h
  · cases h
  · rename_i a ha
    dsimp only at h
    split at h
    · cases h
    · split at h
      · cases h
      · rename_i s st hs
        split at h
        · split at h
          · cases h
          · injection h with h
            subst h
            exact ⟨rfl, hs, rfl⟩
        · injection h with h
          subst h
          exact ⟨rfl, hs, rfl⟩

/-- The members that the first-order calculation takes from the axis. -/
theorem cfg_axis {q : QscIn ℝ} {M : Nat} {r : Result ℝ} (hn : 0 < q.nfp) (hc : (coeffs q).WellSized)
    (h : Axis.initAxis realOps (coeffs q) (2 * M + 1) q.sG q.spsi q.B0 = .ok r.axis)
    (hcfg : r.cfg = R1.Cfg.ofAxis r.axis (2 * M + 1) q.nfp.toNat q.sG q.spsi q.eta_bar q.sigma0 q.I2 q.B0)
    (hR : ∀ j < 2 * M + 1, axisR q (grid q (2 * M + 1) j) ≠ 0)
    (hk : ∀ j < 2 * M + 1, Spec.Axis.curvature (axis q) (grid q (2 * M + 1) j) ≠ 0) :
    (∀ j < 2 * M + 1, r.cfg.curvature j = Spec.Axis.curvature (axis q) (grid q (2 * M + 1) j)) ∧
    (∀ j < 2 * M + 1, r.cfg.torsion j = Spec.Axis.torsion (axis q) (grid q (2 * M + 1) j)) ∧
    (∀ j, r.cfg.dl j = Spec.Axis.speed (axis q) (grid q (2 * M + 1) j)) ∧
    r.cfg.dlDvarphi = Spec.Single.length q (2 * M + 1) / (2 * Real.pi) ∧ r.cfg.dlDvarphi ≠ 0 ∧
    r.cfg.G0 = q.sG * q.B0 * (Spec.Single.length q (2 * M + 1) / (2 * Real.pi)) := by
  have hphi := phi_eq hc h hn
  have hfr : ∀ j < 2 * M + 1, _ := fun j hj => Axis.frenet hc h j
    (by rw [hphi]; exact speed_ne (hR j hj)) (by rw [hphi]; exact hk j hj)
  simp only [hphi] at hfr
  have hn' : 0 < (coeffs q).nfp := by change 0 < q.nfp.toNat; omega
  have hR' : ∀ k < 2 * M + 1, Axis.Rf (coeffs q) (r.axis.phi k) ≠ 0 := by rw [hphi]; exact hR
  obtain ⟨a1, a2, -⟩ := Axis.averages hc h hn' hR'
  obtain ⟨b1, -⟩ := R1.after_init_axis (coeffs q) hc M q.sG q.spsi q.eta_bar q.sigma0 q.I2 q.B0 r.axis h hn' hR'
  rw [length_is hc h hn] at a1 a2
  rw [hcfg]
  refine ⟨fun j hj => (hfr j hj).2.2.2.2.1, fun j hj => (hfr j hj).2.2.2.2.2, fun j => ?_, a2, b1, a1⟩
  have := Axis.speed_eq hc h j
  rwa [hphi] at this

theorem apply_eq (n : Nat) (D : Nat → Nat → ℝ) (g : Nat → ℝ) (j : Nat) : matVec n D g j = apply n D g j := by
  unfold matVec apply
  rw [vsum_eq]

theorem apply_congr {n : Nat} (D : Nat → Nat → ℝ) {g g' : Nat → ℝ} (h : ∀ j < n, g j = g' j) (j : Nat) :
    apply n D g j = apply n D g' j :=
  Finset.sum_congr rfl fun k hk => by rw [h k (Finset.mem_range.1 hk)]

theorem first_in_file {q : QscIn ℝ} {ord : Setup.Order} {M : Nat} {r : Result ℝ} {f : Netcdf.File ℝ} (hn : 0 < q.nfp)
    (hc : (coeffs q).WellSized) (hv : Vars realOps q ord (2 * M + 1) r f)
    (h : Axis.initAxis realOps (coeffs q) (2 * M + 1) q.sG q.spsi q.B0 = .ok r.axis)
    (hcfg : r.cfg = R1.Cfg.ofAxis r.axis (2 * M + 1) q.nfp.toNat q.sG q.spsi q.eta_bar q.sigma0 q.I2 q.B0)
    (hs0 : r.st.sigma 0 = q.sigma0) (hr1 : r.r1 = R1.diagnostics realOps r.cfg r.st)
    (hR : ∀ j < 2 * M + 1, axisR q (grid q (2 * M + 1) j) ≠ 0)
    (hk : ∀ j < 2 * M + 1, Spec.Axis.curvature (axis q) (grid q (2 * M + 1) j) ≠ 0)
    (he : q.eta_bar ≠ 0) (hG : q.sG ≠ 0) (hpsi : q.spsi ≠ 0) : FirstVars f q (2 * M + 1) := by
  obtain ⟨k1, k2, k3, k4, k5, k6⟩ := cfg_axis hn hc h hcfg hR hk
  have hs1 := hv.s1
  have P : ∀ {a v w}, (a, v) ∈ profiles1 realOps r → a ≠ "X1s" → (∀ j < 2 * M + 1, v j = w j) →
    Profile f a (2 * M + 1) w := fun hm hne e => profile_congr (hv.p1 _ hm hne) e
  have n1 : r.cfg.nphi = 2 * M + 1 := by rw [hcfg]; rfl
  have n2 : r.cfg.dDvarphi = r.axis.dDvarphi := by rw [hcfg]; rfl
  have n3 : r.cfg.etaBar = q.eta_bar := by rw [hcfg]; rfl
  have n4 : r.cfg.sG = q.sG := by rw [hcfg]; rfl
  have n5 : r.cfg.spsi = q.spsi := by rw [hcfg]; rfl
  have n6 : r.cfg.B0 = q.B0 := by rw [hcfg]; rfl
  have n7 : r.cfg.helicity = r.axis.helicity := by rw [hcfg]; rfl
  have n8 : ((r.cfg.nfp : Nat) : Int) = q.nfp := by rw [hcfg]; exact Int.toNat_of_nonneg hn.le
  have hX : ∀ j < 2 * M + 1, r.r1.X1c j = X1c q (2 * M + 1) j := by
    intro j hj
    rw [hr1]
    change r.cfg.etaBar / r.cfg.curvature j = _
    rw [k1 j hj, n3]
    rfl
  have hY : ∀ j < 2 * M + 1, r.r1.Y1s j = Y1s q (2 * M + 1) j := by
    intro j hj
    rw [hr1]
    change ((r.cfg.sG * r.cfg.spsi : Int) : ℝ) / r.cfg.etaBar * r.cfg.curvature j = _
    rw [k1 j hj, n3, n4, n5]
    unfold Y1s
    push_cast
    ring
  have hYc : ∀ j < 2 * M + 1, r.r1.Y1c j = Y1s q (2 * M + 1) j * r.st.sigma j := by
    intro j hj
    rw [← hY j hj, hr1]
    rfl
  have hi : r.r1.iotaN = r.st.iota + r.axis.helicity * q.nfp := by
    rw [hr1, ← n8, ← n7]
    simp only [R1.diagnostics]
    push_cast
    rfl
  have hdX : ∀ j, r.r1.dX1c j = apply (2 * M + 1) r.axis.dDvarphi (X1c q (2 * M + 1)) j := by
    intro j
    rw [← apply_congr _ hX, ← apply_eq, hr1, ← n1, ← n2]
    rfl
  have hdY : ∀ j, r.r1.dY1s j = apply (2 * M + 1) r.axis.dDvarphi (Y1s q (2 * M + 1)) j := by
    intro j
    rw [← apply_congr _ hY, ← apply_eq, hr1, ← n1, ← n2]
    rfl
  have hdYc : ∀ j, r.r1.dY1c j = apply (2 * M + 1) r.axis.dDvarphi (fun j => Y1s q (2 * M + 1) j * r.st.sigma j) j := by
    intro j
    rw [← apply_congr _ hYc, ← apply_eq, hr1, ← n1, ← n2]
    rfl
  refine ⟨r.st.sigma, r.st.iota, r.axis.helicity, r.axis.dDvarphi, P (by simp [profiles1]) (by decide) fun _ _ => rfl, hs0,
    hs1 ("iota", r.st.iota) (by simp [scalars1]), hv.hel, hv.dvarphi, ?_⟩
  dsimp only
  refine ⟨scalar_congr (hs1 ("iota_N", r.r1.iotaN) (by simp [scalars1])) hi,
    P (v := r.r1.X1c) (by simp [profiles1]) (by decide) hX, P (v := r.r1.Y1s) (by simp [profiles1]) (by decide) hY,
    P (v := r.r1.Y1c) (by simp [profiles1]) (by decide) hYc,
    P (v := r.r1.dX1c) (by simp [profiles1]) (by decide) fun j _ => hdX j,
    P (v := r.r1.dY1s) (by simp [profiles1]) (by decide) fun j _ => hdY j,
    P (v := r.r1.dY1c) (by simp [profiles1]) (by decide) fun j _ => hdYc j, ?_, ?_⟩
  · refine ⟨r.r1.elongation, P (by simp [profiles1]) (by decide) fun _ _ => rfl, ?_,
      ⟨_, hs1 ("grid_max_elongation", r.r1.maxElongation) (by simp [scalars1]), ?_⟩,
      scalar_congr (hs1 ("mean_elongation", r.r1.meanElongation) (by simp [scalars1])) ?_⟩
    · intro j hj
      have := R1.elongation_ratio r.cfg r.st (j := j) (by rw [k1 j hj]; exact hk j hj) (by rw [n3]; exact he)
        (by rw [n4]; exact hG) (by rw [n5]; exact hpsi)
      rwa [← hr1, hX j hj, hY j hj, hYc j hj] at this
    · have := vmax_spec (2 * M + 1) (by omega) r.r1.elongation
      have e : r.r1.maxElongation = vmax realOps (2 * M + 1) r.r1.elongation := by rw [hr1, ← n1]; rfl
      rw [← e] at this
      exact ⟨this.2, by rintro y ⟨k, hk, rfl⟩; exact this.1 k hk⟩
    · have e : r.r1.meanElongation = vsum (2 * M + 1) (fun j => r.r1.elongation j * r.cfg.dl j) /
          vsum (2 * M + 1) r.cfg.dl := by rw [hr1, ← n1]; rfl
      rw [e, vsum_eq, vsum_eq]
      simp only [k3]
      rfl
  · refine ⟨fun j => R1.gradB r.cfg r.r1 j, R1.LgradB realOps r.cfg r.r1, hv.gradB, ?_,
      P (by simp [profiles1]) (by decide) fun _ _ => rfl, ?_,
      P (v := R1.LgradBInverse realOps r.cfg r.r1) (by simp [profiles1]) (by decide) fun _ _ => rfl,
      _, hs1 ("grid_min_L_grad_B", R1.minLgradB realOps r.cfg r.r1) (by simp [scalars1]), ?_⟩
    · intro j hj
      rw [← hYc j hj, ← hX j hj, ← hY j hj, ← hdX, ← hdY, ← hdYc, ← hi, ← k1 j hj, ← k2 j hj, ← k4, ← n4, ← n5, ← n6]
      refine ⟨rfl, rfl, ?_, ?_, rfl, rfl, rfl, rfl, rfl⟩ <;> simp only [R1.gradB] <;> field_simp <;> ring
    · intro j hj
      change r.cfg.B0 * Real.sqrt _ = _
      rw [n6]
      congr 3
      have z1 : R1.gradB r.cfg r.r1 j 1 2 = 0 := rfl
      have z2 : R1.gradB r.cfg r.r1 j 2 1 = 0 := rfl
      have z3 : R1.gradB r.cfg r.r1 j 2 2 = 0 := rfl
      simp only [normSq, Finset.sum_range_succ, Finset.sum_range_zero, z1, z2, z3]
      ring
    · have := vmin_spec r.cfg.nphi (by rw [n1]; omega) (R1.LgradB realOps r.cfg r.r1)
      rw [n1] at this
      have e : R1.minLgradB realOps r.cfg r.r1 = vmin realOps (2 * M + 1) (R1.LgradB realOps r.cfg r.r1) := by
        rw [← n1]; rfl
      rw [← e] at this
      exact ⟨this.2, by rintro y ⟨k, hk, rfl⟩; exact this.1 k hk⟩

/-- **C82.** The first-order solution in the output file is that of the axis of the input file. -/
theorem output_first {L : Lib ℝ} (ho : L.ops = realOps) (hl : Literals L.lit) {m0 : Mem ℝ} {path : List Char}
    {file : Sections.File ℝ} (hf : Spec.Sections.WellFormed file) {name : List Char} {r : Result ℝ} {f : Netcdf.File ℝ}
    (h : run L m0 path file = .ok (name, r, f)) {q : QscIn ℝ} (hq : Input L.single file q) {n : Nat} (hn : Points q n)
    (hR : ∀ j < n, axisR q (grid q n j) ≠ 0) (hk : ∀ j < n, Spec.Axis.curvature (axis q) (grid q n j) ≠ 0)
    (he : q.eta_bar ≠ 0) (hG : q.sG ≠ 0) (hpsi : q.spsi ≠ 0) : FirstVars f q n := by
  obtain ⟨ord, M, rfl, h2, h4, -, h6, h7, h8⟩ := ended_with ho hl hf h hq hn
  obtain ⟨c1, c2, c3⟩ := calculate_first ho h8
  obtain ⟨st, s1, s2, -⟩ := R1.solve_spec r.cfg (newtonSolve L (2 * M + 1)) q.newton_tolerance q.max_newton_iterations
    q.max_linesearch_iterations
  rw [c2] at s1
  injection s1 with s1
  subst s1
  refine first_in_file h2.2.2.1 h4 h6 h7 c1 (s2.trans ?_) c3 hR hk he hG hpsi
  rw [c1]
  rfl

/-- **C82.** The sigma equation, made from what is in the file: if the Newton solver reported convergence, the sum
of the squares of the residuals is below the square of the tolerance; at the iteration limit it is not; and unless a
line search failed it is not larger than for the initial guess. -/
theorem output_sigma {L : Lib ℝ} (ho : L.ops = realOps) (hl : Literals L.lit) {m0 : Mem ℝ} {path : List Char}
    {file : Sections.File ℝ} (hf : Spec.Sections.WellFormed file) {name : List Char} {r : Result ℝ} {f : Netcdf.File ℝ}
    (h : run L m0 path file = .ok (name, r, f)) {q : QscIn ℝ} (hq : Input L.single file q) {n : Nat} (hn : Points q n)
    (hR : ∀ j < n, axisR q (grid q n j) ≠ 0) (hk : ∀ j < n, Spec.Axis.curvature (axis q) (grid q n j) ≠ 0) :
    ∃ (sigma : Nat → ℝ) (iotaN : ℝ) (h : Int) (D : Nat → Nat → ℝ), Profile f "sigma" n sigma ∧ Scalar f "iota_N" iotaN ∧
      Integer f "helicity" h ∧ Square f "d_d_varphi" n D ∧
      (r.newton = .converged → sigmaSum q n D iotaN sigma < q.newton_tolerance ^ 2) ∧
      (r.newton = .maxIterations → q.newton_tolerance ^ 2 ≤ sigmaSum q n D iotaN sigma) ∧
      (r.newton ≠ .linesearchFailed →
        sigmaSum q n D iotaN sigma ≤ sigmaSum q n D (h * q.nfp) fun _ => q.sigma0) := by
  obtain ⟨ord, M, rfl, h2, h4, -, h6, h7, h8⟩ := ended_with ho hl hf h hq hn
  obtain ⟨c1, c2, c3⟩ := calculate_first ho h8
  obtain ⟨st, s1, -, s3⟩ := R1.solve_spec r.cfg (newtonSolve L (2 * M + 1)) q.newton_tolerance q.max_newton_iterations
    q.max_linesearch_iterations
  rw [c2] at s1 s3
  injection s1 with s1
  subst s1
  dsimp only at s3
  obtain ⟨k1, k2, k3, k4, k5, k6⟩ := cfg_axis h2.2.2.1 h4 h7 c1 hR hk
  have n8 : ((r.cfg.nfp : Nat) : ℝ) = q.nfp := by rw [c1]; exact nfp_cast h2.2.2.1
  have n7 : r.cfg.helicity = r.axis.helicity := by rw [c1]; rfl
  have hi : r.r1.iotaN = r.st.iota + r.axis.helicity * q.nfp := by
    rw [c3, ← n8, ← n7]
    simp only [R1.diagnostics]
    push_cast
    rfl
  have hS : ∀ i s, (∑ j ∈ Finset.range r.cfg.nphi, Spec.R1.sigmaEq r.cfg.nphi r.cfg.dDvarphi r.cfg.etaBar r.cfg.curvature
      r.cfg.torsion r.cfg.spsi r.cfg.G0 r.cfg.B0 r.cfg.I2 i s j ^ 2) = sigmaSum q (2 * M + 1) r.axis.dDvarphi i s := by
    intro i s
    have n1 : r.cfg.nphi = 2 * M + 1 := by rw [c1]; rfl
    unfold sigmaSum
    rw [n1]
    refine Finset.sum_congr rfl fun j hj => ?_
    have hj := Finset.mem_range.1 hj
    unfold Spec.R1.sigmaEq
    rw [k1 j hj, k2 j hj, k6, c1]
    rfl
  have n9 : r.cfg.sigma0 = q.sigma0 := by rw [c1]; rfl
  rw [hS, hS, n8, n7, n9, ← hi, zero_add] at s3
  exact ⟨_, _, _, _, h6.p1 ("sigma", r.st.sigma) (by simp [profiles1]) (by simp),
    h6.s1 ("iota_N", r.r1.iotaN) (by simp [scalars1]), h6.hel, h6.dvarphi, s3⟩

/-- All hypotheses are met by a run of the example. -/
example (m0 : Mem ℝ) : ∃ r f, run exLib m0 "dir/qsc_in.torus".toList (exFile "r2.1" 20) =
    .ok ("dir/qsc_out.torus.nc".toList, r, f) ∧ FirstVars f (exInput "r2.1" 20) 21 := by
  obtain ⟨r, f, h⟩ := ex_run m0
  exact ⟨r, f, h, output_first rfl exLiterals (exWellFormed _ _) h (ex_input _ _) (Or.inr ⟨rfl, rfl⟩)
    (fun j _ => ex_R_ne _ _ _) (fun j _ => ex_curved _ _ _) (by simp [exInput]) (by simp [exInput, defaults])
    (by simp [exInput, defaults])⟩

end Qsc.Single
