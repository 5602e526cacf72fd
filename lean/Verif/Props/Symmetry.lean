import Verif.Lemmas.SymmetryExample

/-!
# Stellarator symmetry of a run (C97, C98)
-/

namespace Qsc.Symmetry
open Qsc.Netcdf Qsc.Single Qsc.Toml Qsc.Spec.Single Qsc.Spec.Symmetry

theorem no_throw {L : Lib ℝ} {q : QscIn ℝ} {n : Nat} {ord : Setup.Order} {r : Result ℝ} (ho : L.ops = realOps)
    (h : calculate L q n ord = .ok r) :
    newtonThrows L r.cfg q.newton_tolerance q.max_newton_iterations q.max_linesearch_iterations = false := by
  obtain ⟨hc, -, -⟩ := calculate_first ho h
  unfold calculate at h
  split at h
  · cases h
  · rename_i a ha
    dsimp only at h
    split at h
    · cases h
    · rename_i ht
      have e : r.axis = a := by
        split at h
        · cases h
        · split at h
          · split at h
            · cases h
            · injection h with h; rw [← h]
          · injection h with h; rw [← h]
      rw [hc, e]
      exact Bool.eq_false_iff.2 ht

/-- Everything known about the first order of a symmetric run. -/
theorem run_first {L : Lib ℝ} (ho : L.ops = realOps) (hE : Exact L.gesv) {q : QscIn ℝ} (hs : First q) {M : Nat}
    {ord : Setup.Order} {r : Result ℝ} (hc : (coeffs q).WellSized) (hn : 0 < q.nfp)
    (ha : Axis.initAxis realOps (coeffs q) (2 * M + 1) q.sG q.spsi q.B0 = .ok r.axis)
    (h : calculate L q (2 * M + 1) ord = .ok r) :
    SymAxis (2 * M + 1) q.nfp.toNat r.axis ∧ SymCfg (2 * M + 1) r.cfg ∧ Odd (2 * M + 1) r.st.sigma ∧
      SymFirst (2 * M + 1) r.cfg r.r1 := by
  obtain ⟨c1, c2, c3⟩ := calculate_first ho h
  have h1 := symAxis hc (by change 0 < q.nfp.toNat; omega) hs.R0s hs.Z0c ha
  have h2 : SymCfg (2 * M + 1) r.cfg := by
    rw [c1, hs.sigma0]; exact symCfg (by omega) h1 _ _ _ _ _
  have h3 := sigma_after ho hE h2 (no_throw ho h) c2
  exact ⟨h1, h2, h3, c3 ▸ symFirst h2 h3⟩

/-- **C97.** A stellarator symmetric axis (only `R0c` and `Z0s`) with `sigma0 = 0`: if the linear solver is
exact, in the output file of every run that ends each quantity of first order along the axis is either even or
odd about grid point 0, with the parity that `FirstVars` lists; the angles go to one field period minus
themselves, `mean_Z` is zero, and both differentiation matrices change sign.  This holds whether or not
Newton's method converged.  `hR`, `hk`, `_he`, `_hB` keep divisions by zero out. -/
theorem first_symmetric {L : Lib ℝ} (ho : L.ops = realOps) (hl : Literals L.lit) {m0 : Mem ℝ} {path : List Char}
    {file : Sections.File ℝ} (hf : Spec.Sections.WellFormed file) {name : List Char} {r : Result ℝ} {f : Netcdf.File ℝ}
    (h : run L m0 path file = .ok (name, r, f)) {q : QscIn ℝ} (hq : Input L.single file q) {n : Nat} (hn : Points q n)
    (hE : Exact L.gesv) (hs : First q) (hR : ∀ j < n, axisR q (grid q n j) ≠ 0)
    (hk : ∀ j < n, Spec.Axis.curvature (axis q) (grid q n j) ≠ 0) (_he : q.eta_bar ≠ 0) (_hB : q.B0 ≠ 0) :
    Spec.Symmetry.FirstVars f q n := by
  obtain ⟨ord, M, rfl, k2, k4, k5, hv, k7, k8⟩ := ended_with ho hl hf h hq hn
  obtain ⟨h1, h2, h3, h4⟩ := run_first ho hE hs k4 k2.2.2.1 k7 k8
  have hnfp : ((q.nfp.toNat : Nat) : ℝ) = (q.nfp : ℝ) := nfp_cast k2.2.2.1
  obtain ⟨c1, -, -⟩ := calculate_first ho k8
  have hd : ∑ j ∈ Finset.range (2 * M + 1), (r.axis.loc j).dl ≠ 0 := by
    obtain ⟨-, -, c, -⟩ := cfg_axis k2.2.2.1 k4 k7 c1 hR hk
    rw [c1] at c
    have e : ∀ j < 2 * M + 1, 0 < (r.axis.loc j).dl := fun j hj => by
      have : (r.axis.loc j).dl = _ := c j
      rw [this]
      exact lt_of_le_of_ne (Real.sqrt_nonneg _) (speed_ne (hR j hj)).symm
    exact (Finset.sum_pos (fun j hj => e j (Finset.mem_range.1 hj)) ⟨0, by simp⟩).ne'
  have ev : ∀ a v, (a, v) ∈ profiles1 realOps r → a ≠ "X1s" → Even (2 * M + 1) v → EvenVar f (2 * M + 1) a :=
    fun a v h1 h2 h3 => ⟨v, hv.p1 (a, v) h1 h2, h3⟩
  have od : ∀ a v, (a, v) ∈ profiles1 realOps r → a ≠ "X1s" → Odd (2 * M + 1) v → OddVar f (2 * M + 1) a :=
    fun a v h1 h2 h3 => ⟨v, hv.p1 (a, v) h1 h2, h3⟩
  refine ⟨?_, ?_, ?_, ?_, ?_, ?_, ?_, ⟨_, hv.gradB, fun b c => gradB_parity h2 h4 b c⟩⟩
  · intro a ha
    fin_cases ha
    · exact ⟨_, hv.p1 ("phi", r.axis.phi) (by simp [profiles1]) (by simp), h1.phi0, hnfp ▸ h1.phi⟩
    · exact ⟨_, hv.p1 ("Boozer_toroidal_angle", r.axis.boozer) (by simp [profiles1]) (by simp), h1.boozer0,
        hnfp ▸ h1.boozer hd⟩
  · intro a ha
    fin_cases ha
    · exact ev _ _ (by simp [profiles1]; rfl) (by decide) fun j hj => by rw [h1.pt j hj]; rfl
    · exact ev _ _ (by simp [profiles1]; rfl) (by decide) fun j hj => by rw [h1.pt j hj]; rfl
    · exact ev _ _ (by simp [profiles1]; rfl) (by decide) fun j hj => by rw [h1.pt j hj]; rfl
    · exact ev _ _ (by simp [profiles1]; rfl) (by decide) fun j hj => by rw [h1.pt j hj]; rfl
    · exact ev _ _ (by simp [profiles1]; rfl) (by decide) fun j hj => by rw [h1.loc j hj]; rfl
    · exact ev _ _ (by simp [profiles1]; rfl) (by decide) fun j hj => by rw [h1.loc j hj]; rfl
    · exact ev _ _ (by simp [profiles1]; rfl) (by decide) fun j hj => by rw [h1.loc j hj]; rfl
  · intro a ha
    fin_cases ha
    · exact od _ _ (by simp [profiles1]; rfl) (by decide) fun j hj => by rw [h1.pt j hj]; rfl
    · exact od _ _ (by simp [profiles1]; rfl) (by decide) fun j hj => by rw [h1.pt j hj]; rfl
    · exact od _ _ (by simp [profiles1]; rfl) (by decide) fun j hj => by rw [h1.pt j hj]; rfl
    · exact od _ _ (by simp [profiles1]; rfl) (by decide) fun j hj => by rw [h1.pt j hj]; rfl
    · exact od _ _ (by simp [profiles1]; rfl) (by decide) fun j hj => by rw [h1.loc j hj]; rfl
  · have := hv.s1 ("mean_Z", r.axis.meanZ) (by simp [scalars1])
    rwa [h1.meanZ] at this
  · intro a ha
    fin_cases ha
    · exact ev "X1c" r.r1.X1c (by simp [profiles1]) (by decide) h4.X1c
    · exact ev "Y1s" r.r1.Y1s (by simp [profiles1]) (by decide) h4.Y1s
    · exact ev "elongation" r.r1.elongation (by simp [profiles1]) (by decide) h4.elongation
    · exact ev "d_Y1c_d_varphi" r.r1.dY1c (by simp [profiles1]) (by decide) h4.dY1c
    · exact ev "L_grad_B" (R1.LgradB realOps r.cfg r.r1) (by simp [profiles1]) (by decide) (LgradB_even h2 h4)
    · exact ev "L_grad_B_inverse" (R1.LgradBInverse realOps r.cfg r.r1) (by simp [profiles1]) (by decide) fun j hj => by
        simp only [R1.LgradBInverse]; rw [LgradB_even h2 h4 j hj]
  · intro a ha
    fin_cases ha
    · exact od "sigma" r.st.sigma (by simp [profiles1]) (by decide) h3
    · exact od "Y1c" r.r1.Y1c (by simp [profiles1]) (by decide) h4.Y1c
    · exact od "d_X1c_d_varphi" r.r1.dX1c (by simp [profiles1]) (by decide) h4.dX1c
    · exact od "d_Y1s_d_varphi" r.r1.dY1s (by simp [profiles1]) (by decide) h4.dY1s
  · intro a ha
    fin_cases ha
    · exact ⟨_, hv.dphi, h1.dphi⟩
    · exact ⟨_, hv.dvarphi, h1.dvarphi⟩

/-- **C98.** If also `B2s = 0`, the same is true of each quantity of second order, of the tensor of second
derivatives of the field, and with order `r2.1` of each quantity of third order.  (`r_hat_singularity_robust`,
which comes from the eigenvalue routine, is not among them.)  The hypotheses with an underscore keep divisions
by zero out. -/
theorem second_symmetric {L : Lib ℝ} (ho : L.ops = realOps) (hl : Literals L.lit) {m0 : Mem ℝ} {path : List Char}
    {file : Sections.File ℝ} (hf : Spec.Sections.WellFormed file) {name : List Char} {r : Result ℝ} {f : Netcdf.File ℝ}
    (h : run L m0 path file = .ok (name, r, f)) {q : QscIn ℝ} (hq : Input L.single file q) {n : Nat} (hn : Points q n)
    (h2 : q.order_r_option ≠ "r1") (hE : Exact L.gesv) (hs : First q) (hB2 : q.B2s = 0)
    (_hR : ∀ j < n, axisR q (grid q n j) ≠ 0) (_hk : ∀ j < n, Spec.Axis.curvature (axis q) (grid q n j) ≠ 0)
    (_he : q.eta_bar ≠ 0) (_hB : q.B0 ≠ 0) (_hi : r.r1.iotaN ≠ 0) :
    Spec.Symmetry.SecondVars f n ∧ (q.order_r_option = "r2.1" → Spec.Symmetry.ThirdVars f n) := by
  obtain ⟨ord, M, rfl, k2, k4, k5, hv, k7, k8⟩ := ended_with ho hl hf h hq hn
  obtain ⟨h1, hc, h3, h4⟩ := run_first ho hE hs k4 k2.2.2.1 k7 k8
  have hord : ord.atLeastR2 = true := by
    rcases (validate_ok k5).2 with ⟨e, -⟩ | ⟨-, rfl⟩ | ⟨-, rfl⟩
    · exact absurd e h2
    · rfl
    · rfl
  obtain ⟨d, x, d1, d2, d3, d4, d5, -, -⟩ := calculate_second ho k8 hord
  have hi : SymIn (2 * M + 1) d.inp := by
    rw [d2]; exact ⟨hc, h3, h4, hB2⟩
  obtain ⟨x1, x2⟩ := symSolution hE hi d3
  have hr : SymSecond (2 * M + 1) d.r2 := d4 ▸ symSecond hi x1 x2
  have ha := symPre hi
  have hD := fun {v} => hi.even (f := v)
  have hD' := fun {v} => hi.odd (f := v)
  constructor
  · have ev : ∀ a v, (a, v) ∈ profiles2 realOps d → Even (2 * M + 1) v → EvenVar f (2 * M + 1) a :=
      fun a v h1 h3 => ⟨v, hv.p2 d d1 (a, v) h1, h3⟩
    have od : ∀ a v, (a, v) ∈ profiles2 realOps d → Odd (2 * M + 1) v → OddVar f (2 * M + 1) a :=
      fun a v h1 h3 => ⟨v, hv.p2 d d1 (a, v) h1, h3⟩
    refine ⟨?_, ?_, ⟨_, hv.gradgradB d d1, fun b c e => gradGradB_parity hi hr b c e⟩⟩
    · intro a ha'
      fin_cases ha'
      · exact ev "X20" d.r2.X20 (by simp [profiles2]) hr.X20
      · exact ev "X2c" (R2.pre d.inp).X2c (by simp [profiles2]) ha.X2c
      · exact ev "Y2s" d.r2.Y2s (by simp [profiles2]) hr.Y2s
      · exact ev "Z2s" (R2.pre d.inp).Z2s (by simp [profiles2]) ha.Z2s
      · exact ev "B20" d.r2.B20 (by simp [profiles2]) hr.B20
      · exact ev "B20_anomaly" d.r2.anomaly (by simp [profiles2]) hr.anomaly
      · exact ev "d_X2s_d_varphi" (R2.pre d.inp).dX2s (by simp [profiles2]) ha.dX2s
      · exact ev "d_Y20_d_varphi" (der d.inp d.r2.Y20) (by simp [profiles2]) (hD' hr.Y20)
      · exact ev "d_Y2c_d_varphi" (der d.inp d.r2.Y2c) (by simp [profiles2]) (hD' hr.Y2c)
      · exact ev "d_Z20_d_varphi" (R2.pre d.inp).dZ20 (by simp [profiles2]) ha.dZ20
      · exact ev "d_Z2c_d_varphi" (R2.pre d.inp).dZ2c (by simp [profiles2]) ha.dZ2c
      · exact ev "d2_X20_d_varphi2" (der d.inp (der d.inp d.r2.X20)) (by simp [profiles2]) (hD' (hD hr.X20))
      · exact ev "d2_X2c_d_varphi2" (der d.inp (R2.pre d.inp).dX2c) (by simp [profiles2]) (hD' ha.dX2c)
      · exact ev "d2_Y2s_d_varphi2" (der d.inp (der d.inp d.r2.Y2s)) (by simp [profiles2]) (hD' (hD hr.Y2s))
      · exact ev "d2_Z2s_d_varphi2" (der d.inp (R2.pre d.inp).dZ2s) (by simp [profiles2]) (hD' ha.dZ2s)
      · refine ev "L_grad_grad_B" (fun j => GradGradB.LgradGradB realOps (.of d.inp d.r2 j)) (by simp [profiles2]) fun j hj => ?_
        dsimp only
        rw [at_flip hi hr hj, LgradGradB_flip]
      · refine ev "L_grad_grad_B_inverse" (fun j => GradGradB.LgradGradBInverse realOps (.of d.inp d.r2 j))
          (by simp [profiles2]) fun j hj => ?_
        dsimp only [GradGradB.LgradGradBInverse]
        rw [at_flip hi hr hj, LgradGradB_flip]
    · intro a ha'
      fin_cases ha'
      · exact od "X2s" (R2.pre d.inp).X2s (by simp [profiles2]) ha.X2s
      · exact od "Y20" d.r2.Y20 (by simp [profiles2]) hr.Y20
      · exact od "Y2c" d.r2.Y2c (by simp [profiles2]) hr.Y2c
      · exact od "Z20" (R2.pre d.inp).Z20 (by simp [profiles2]) ha.Z20
      · exact od "Z2c" (R2.pre d.inp).Z2c (by simp [profiles2]) ha.Z2c
      · exact od "d_X20_d_varphi" (der d.inp d.r2.X20) (by simp [profiles2]) (hD hr.X20)
      · exact od "d_X2c_d_varphi" (R2.pre d.inp).dX2c (by simp [profiles2]) ha.dX2c
      · exact od "d_Y2s_d_varphi" (der d.inp d.r2.Y2s) (by simp [profiles2]) (hD hr.Y2s)
      · exact od "d_Z2s_d_varphi" (R2.pre d.inp).dZ2s (by simp [profiles2]) ha.dZ2s
      · exact od "d2_X2s_d_varphi2" (der d.inp (R2.pre d.inp).dX2s) (by simp [profiles2]) (hD ha.dX2s)
      · exact od "d2_Y20_d_varphi2" (der d.inp (der d.inp d.r2.Y20)) (by simp [profiles2]) (hD (hD' hr.Y20))
      · exact od "d2_Y2c_d_varphi2" (der d.inp (der d.inp d.r2.Y2c)) (by simp [profiles2]) (hD (hD' hr.Y2c))
      · exact od "d2_Z20_d_varphi2" (der d.inp (R2.pre d.inp).dZ20) (by simp [profiles2]) (hD ha.dZ20)
      · exact od "d2_Z2c_d_varphi2" (der d.inp (R2.pre d.inp).dZ2c) (by simp [profiles2]) (hD ha.dZ2c)
  · intro h21
    have hord3 : ord.r2p1 = true := by
      rcases (validate_ok k5).2 with ⟨e, -⟩ | ⟨e, -⟩ | ⟨-, rfl⟩
      · exact absurd e h2
      · rw [e] at h21; exact absurd h21 (by decide)
      · rfl
    rw [hord3, if_pos rfl] at d5
    have ht := symThird hi hr
    have ev : ∀ a v, (a, v) ∈ profiles3 d.inp (R2.r2p1 realOps d.inp d.r2) → Even (2 * M + 1) v → EvenVar f (2 * M + 1) a :=
      fun a v h1 h3 => ⟨v, hv.p3 d _ d1 d5 (a, v) h1, h3⟩
    have od : ∀ a v, (a, v) ∈ profiles3 d.inp (R2.r2p1 realOps d.inp d.r2) → Odd (2 * M + 1) v → OddVar f (2 * M + 1) a :=
      fun a v h1 h3 => ⟨v, hv.p3 d _ d1 d5 (a, v) h1, h3⟩
    generalize R2.r2p1 realOps d.inp d.r2 = t at *
    constructor
    · intro a ha'
      fin_cases ha'
      · exact ev "lambda_for_XY3" t.lambda (by simp [profiles3]) ht.lambda
      · exact ev "X3c1" t.X3c1 (by simp [profiles3]) ht.X3c1
      · exact ev "Y3s1" t.Y3s1 (by simp [profiles3]) ht.Y3s1
      · exact ev "d_Y3c1_d_varphi" (der d.inp t.Y3c1) (by simp [profiles3]) (hD' ht.Y3c1)
      · exact ev "d2_X3c1_d_varphi2" (der d.inp (der d.inp t.X3c1)) (by simp [profiles3]) (hD' (hD ht.X3c1))
      · exact ev "d2_Y3s1_d_varphi2" (der d.inp (der d.inp t.Y3s1)) (by simp [profiles3]) (hD' (hD ht.Y3s1))
    · intro a ha'
      fin_cases ha'
      · exact od "Y3c1" t.Y3c1 (by simp [profiles3]) ht.Y3c1
      · exact od "d_X3c1_d_varphi" (der d.inp t.X3c1) (by simp [profiles3]) (hD ht.X3c1)
      · exact od "d_Y3s1_d_varphi" (der d.inp t.Y3s1) (by simp [profiles3]) (hD ht.Y3s1)
      · exact od "d2_Y3c1_d_varphi2" (der d.inp (der d.inp t.Y3c1)) (by simp [profiles3]) (hD (hD' ht.Y3c1))

/-! ## Examples: a circular axis with current, to third order, with one Newton step and two exact linear solves;
and an axis that is not plane -/

example (m0 : Mem ℝ) : ∃ name r f, run ringLib m0 "dir/qsc_in.torus".toList ringFile = .ok (name, r, f) ∧
    Spec.Symmetry.FirstVars f ringInput 3 ∧
    Spec.Symmetry.SecondVars f 3 ∧ Spec.Symmetry.ThirdVars f 3 := by
  obtain ⟨r, f, h, hi⟩ := ring_run m0
  have hR : ∀ j < 3, axisR ringInput (grid ringInput 3 j) ≠ 0 := fun j _ => by rw [ring_R]; norm_num
  have hk : ∀ j < 3, Spec.Axis.curvature (axis ringInput) (grid ringInput 3 j) ≠ 0 := fun j _ => ring_curvature
  have he : ringInput.eta_bar ≠ 0 := by simp [ringInput]
  have hB : ringInput.B0 ≠ 0 := by simp [ringInput, defaults]
  obtain ⟨h2, h3⟩ := second_symmetric (L := ringLib) rfl exLiterals ringWellFormed h ring_input ring_points
    (by simp [ringInput]) solver_exact ring_sym.1 ring_sym.2 hR hk he hB (by rw [hi]; norm_num)
  exact ⟨_, r, f, h, first_symmetric (L := ringLib) rfl exLiterals ringWellFormed h ring_input ring_points solver_exact
    ring_sym.1 hR hk he hB, h2, h3 rfl⟩

example (m0 : Mem ℝ) : ∃ name r f, run ringLib m0 "dir/qsc_in.torus".toList twistFile = .ok (name, r, f) ∧
    Spec.Symmetry.FirstVars f twistInput 21 := by
  obtain ⟨r, f, h⟩ := twist_run m0
  exact ⟨_, r, f, h, first_symmetric (L := ringLib) rfl exLiterals twistWellFormed h twist_input twist_points solver_exact
    twist_sym (fun j _ => ex_R_ne "r1" 21 _) (fun j _ => ex_curved "r1" 21 _) (by simp [twistInput, exInput])
    (by simp [twistInput, exInput, defaults])⟩

end Qsc.Symmetry
