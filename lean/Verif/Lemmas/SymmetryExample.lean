import Verif.Lemmas.SymmetryGrad
import Mathlib.LinearAlgebra.Matrix.ToLin
import Mathlib.LinearAlgebra.FiniteDimensional.Basic
import Mathlib.LinearAlgebra.Matrix.FiniteDimensional

/-!
# A run with an exact linear solver: a circular axis with current, on three grid points
-/

namespace Qsc.Symmetry
open Qsc.Netcdf Qsc.Single Qsc.Toml Qsc.Spec.Single Qsc.Spec.Symmetry

/-- `x` solves the system. -/
def Solves (n : Nat) (m : Nat → Nat → ℝ) (b x : Nat → ℝ) : Prop := ∀ i < n, ∑ j ∈ Finset.range n, m i j * x j = b i

open Classical in
/-- The solver that gives the solution if there is exactly one. -/
noncomputable def solver (n : Nat) (m : Nat → Nat → ℝ) (b : Nat → ℝ) : Option (Nat → ℝ) :=
  if h : ∃ x, Solves n m b x ∧ ∀ y, Solves n m b y → ∀ j < n, y j = x j then some h.choose else none

theorem solver_exact : Exact solver := by
  intro n m b x h
  unfold solver at h
  split at h
  · rename_i hx
    injection h with h
    rw [← h]
    exact hx.choose_spec
  · cases h

theorem solver_some {n : Nat} {m : Nat → Nat → ℝ} (b : Nat → ℝ) (h : ∀ y, Solves n m (fun _ => 0) y → ∀ j < n, y j = 0) :
    ∃ x, solver n m b = some x := by
  have hinj : Function.Injective (Matrix.of fun i j : Fin n => m i j).mulVecLin := by
    rw [← LinearMap.ker_eq_bot, LinearMap.ker_eq_bot']
    intro z hz
    have := h (fun j => if hj : j < n then z ⟨j, hj⟩ else 0) fun i hi => by
      have e := congrFun hz ⟨i, hi⟩
      simp only [Matrix.mulVecLin_apply, Matrix.mulVec, dotProduct, Matrix.of_apply, Pi.zero_apply] at e
      refine Eq.trans ?_ e
      rw [Finset.sum_range]
      refine Finset.sum_congr rfl fun j _ => ?_
      dsimp only
      rw [dif_pos j.2]
    funext j
    have := this j j.2
    rw [dif_pos j.2] at this
    exact this
  obtain ⟨z, hz⟩ := LinearMap.injective_iff_surjective.1 hinj fun i => b i
  unfold solver
  rw [dif_pos]
  · exact ⟨_, rfl⟩
  · refine ⟨fun j => if hj : j < n then z ⟨j, hj⟩ else 0, ?_⟩
    have hs : Solves n m b fun j => if hj : j < n then z ⟨j, hj⟩ else 0 := by
      intro i hi
      have e := congrFun hz ⟨i, hi⟩
      simp only [Matrix.mulVecLin_apply, Matrix.mulVec, dotProduct, Matrix.of_apply] at e
      refine Eq.trans ?_ e
      rw [Finset.sum_range]
      refine Finset.sum_congr rfl fun j _ => ?_
      dsimp only
      rw [dif_pos j.2]
    refine ⟨hs, fun y hy j hj => ?_⟩
    have := h (fun j => y j - if hj : j < n then z ⟨j, hj⟩ else 0) (fun i hi => by
      have e1 := hy i hi
      have e2 := hs i hi
      simp only [mul_sub, Finset.sum_sub_distrib]
      rw [e1, e2, sub_self]) j hj
    linarith

/-- The libraries with that solver. -/
noncomputable def ringLib : Lib ℝ := { exLib with gesv := solver }

/-- A circular axis with current. -/
noncomputable def ringFile : Sections.File ℝ :=
  [("qsc", [("order_r_option", .str "r2.1"), ("nfp", .int 1), ("nphi", .int 3), ("I2", .flt 2), ("eta_bar", .flt 1),
    ("max_newton_iterations", .int 1)])]

noncomputable def ringInput : QscIn ℝ :=
  { defaults false with
    order_r_option := "r2.1", nfp := 1, nphi := 3, I2 := 2, eta_bar := 1, max_newton_iterations := 1 }

theorem ringWellFormed : Spec.Sections.WellFormed ringFile := by
  refine ⟨by simp [ringFile], ?_⟩
  simp [ringFile]

theorem ring_input : Input ringLib.single ringFile ringInput := by
  rw [← input_iff (lit := exLib.lit) exLiterals _ ringWellFormed, defaults_eq exLiterals]
  rfl

theorem ring_sound : Sound ringInput := by
  refine ⟨by simp [ringInput], by simp [ringInput], by simp [ringInput], by simp [ringInput, defaults]⟩

theorem ring_points : Points ringInput 3 := Or.inl ⟨rfl, rfl⟩

theorem ring_sym : First ringInput ∧ ringInput.B2s = 0 := by
  refine ⟨⟨?_, ?_, rfl⟩, rfl⟩ <;> simp [ringInput, defaults]

/-- The axis. -/
structure RingAxis (a : Axis.Axis ℝ) (v : ℝ) : Prop where
  dl : ∀ j, (a.loc j).dl = 1
  curvature : ∀ j, (a.loc j).curvature = 1
  torsion : ∀ j, (a.loc j).torsion = 0
  G0 : a.G0 = 1
  dlDvarphi : a.dlDvarphi = 1
  G0overB0 : a.G0overB0 = 1
  B0overG0 : a.B0overG0 = 1
  helicity : a.helicity = 0
  hv : 3 * v ^ 2 = 1
  D00 : a.dDvarphi 0 0 = 0
  D01 : a.dDvarphi 0 1 = v
  D02 : a.dDvarphi 0 2 = -v
  D10 : a.dDvarphi 1 0 = -v
  D11 : a.dDvarphi 1 1 = 0
  D12 : a.dDvarphi 1 2 = v
  D20 : a.dDvarphi 2 0 = v
  D21 : a.dDvarphi 2 1 = -v
  D22 : a.dDvarphi 2 2 = 0

theorem ring_local : Axis.localOf realOps ⟨1, 0, 0, 0, 0, 0, 0, 0⟩ =
    ⟨1, 0, ⟨0, 1, 0⟩, ⟨-1, 0, 0⟩, 1, ⟨-1, 0, 0⟩, ⟨0, 0, 1⟩, 0⟩ := by
  simp [Axis.localOf, Axis.Pt.d1, Axis.Pt.d2, Axis.Pt.d3, realOps]

theorem ring_axis : ∃ a v, Axis.initAxis realOps (coeffs ringInput) 3 1 1 1 = .ok a ∧ RingAxis a v := by
  have hc : (coeffs ringInput).WellSized := ⟨by simp [coeffs, ringInput, defaults], rfl, rfl, rfl⟩
  obtain ⟨h, h1, h2⟩ := Axis.initAxis_eq (coeffs ringInput) hc 1 1 1 1
  have hpt : ∀ φ, Axis.point realOps 1 1 0 (((List.range 1).drop 1).map (Axis.modeAt (coeffs ringInput))) φ =
      ⟨1, 0, 0, 0, 0, 0, 0, 0⟩ := fun φ => rfl
  have e1 : (coeffs ringInput).nfp = 1 := rfl
  have e2 : (coeffs ringInput).R0c.getD 0 0 = 1 := rfl
  have e3 : (coeffs ringInput).Z0c.getD 0 0 = 0 := rfl
  have e4 : (coeffs ringInput).R0c.length = 1 := rfl
  rw [e1, e2, e3, e4] at h1 h2
  simp only [hpt, ring_local] at h2
  have hh : h = 0 := by
    have : Helicity.calculateHelicity realOps.ge0 (2 * 1 + 1) (fun _ => (-1 : ℝ)) (fun _ => (0 : ℝ)) 1 1 = .ok 0 := by
      have g1 : realOps.ge0 (-1 : ℝ) = false := by simp [realOps]
      have g2 : realOps.ge0 (0 : ℝ) = true := by simp [realOps]
      have : Helicity.quadrant realOps.ge0 (2 * 1 + 1) (fun _ => (-1 : ℝ)) (fun _ => (0 : ℝ)) = fun _ => 2 := by
        funext j
        simp [Helicity.quadrant, g1, g2, Helicity.quadrantOf]
      unfold Helicity.calculateHelicity
      rw [this]
      rfl
    rw [this] at h2
    injection h2 with h2
    exact h2.symm
  subst hh
  have hs3 : Real.sin (Real.pi / 3) ≠ 0 := (Real.sin_pos_of_pos_of_lt_pi (by positivity) (by linarith [Real.pi_pos])).ne'
  have hsq : Real.sin (Real.pi / 3) ^ 2 = 3 / 4 := by
    rw [Real.sin_pi_div_three, div_pow, Real.sq_sqrt (by norm_num)]; norm_num
  obtain ⟨v, hv⟩ : ∃ v, v = (1 / 2) / Real.sin (Real.pi / 3) := ⟨_, rfl⟩
  have hen : ∀ j k, j < 3 → k < 3 → DiffMat.entry 1 (2 * Real.pi / (2 * Real.pi / ((1 : ℕ) : ℝ) - 0)) j k =
      (-1) ^ (j + k) * ((1 / 2) / Real.sin (((j : ℝ) - k) * Real.pi / 3)) := fun j k _ _ => by
    have : 2 * Real.pi / (2 * Real.pi / ((1 : ℕ) : ℝ) - 0) = 1 := by
      rw [Nat.cast_one, div_one, sub_zero, div_self (by positivity)]
    unfold DiffMat.entry
    rw [this, one_mul]
    norm_num
  have s1 : Real.sin ((1 : ℝ) * Real.pi / 3) = Real.sin (Real.pi / 3) := by rw [one_mul]
  have s2 : Real.sin ((2 : ℝ) * Real.pi / 3) = Real.sin (Real.pi / 3) := by
    rw [show (2 : ℝ) * Real.pi / 3 = Real.pi - Real.pi / 3 by ring, Real.sin_pi_sub]
  have s3 : Real.sin ((-1 : ℝ) * Real.pi / 3) = -Real.sin (Real.pi / 3) := by
    rw [show (-1 : ℝ) * Real.pi / 3 = -(Real.pi / 3) by ring, Real.sin_neg]
  have s4 : Real.sin ((-2 : ℝ) * Real.pi / 3) = -Real.sin (Real.pi / 3) := by
    rw [show (-2 : ℝ) * Real.pi / 3 = -((2 : ℝ) * Real.pi / 3) by ring, Real.sin_neg, s2]
  generalize hD : (fun j k => if j < 2 * 1 + 1 ∧ k < 2 * 1 + 1 then
          DiffMat.entry 1 (2 * Real.pi / (2 * Real.pi / ((1 : ℕ) : ℝ) - 0)) j k else
          (((DiffMat.differentiationMatrix DiffMat.real (2 * 1 + 1) 0
            (2 * Real.pi / ((1 : ℕ) : ℝ))).bind fun m => m.get j k).getD 0)) = D at h1
  have hD' : ∀ j k, j < 3 → k < 3 → D j k = (-1) ^ (j + k) * ((1 / 2) / Real.sin (((j : ℝ) - k) * Real.pi / 3)) :=
    fun j k hj hk => by rw [← hD, ← hen j k hj hk]; exact if_pos ⟨hj, hk⟩
  have hl : ∀ j, (Axis.axisData realOps 1 (2 * 1 + 1) 1 (1 : ℝ) 1 0
        (((List.range 1).drop 1).map (Axis.modeAt (coeffs ringInput))) D 0).loc j =
      ⟨1, 0, ⟨0, 1, 0⟩, ⟨-1, 0, 0⟩, 1, ⟨-1, 0, 0⟩, ⟨0, 0, 1⟩, 0⟩ := fun j => by
    simp only [Axis.axisData, hpt, ring_local]
  have hB : (Axis.axisData realOps 1 (2 * 1 + 1) 1 (1 : ℝ) 1 0
        (((List.range 1).drop 1).map (Axis.modeAt (coeffs ringInput))) D 0).B0overG0 = 1 := by
    simp only [Axis.axisData, hpt, ring_local, vsum_eq]
    norm_num
  generalize ha : Axis.axisData realOps 1 (2 * 1 + 1) 1 (1 : ℝ) 1 0
        (((List.range 1).drop 1).map (Axis.modeAt (coeffs ringInput))) D 0 = a at h1 hl hB
  have hG : a.G0overB0 = 1 := by
    have : a.G0overB0 = 1 / a.B0overG0 := by rw [← ha]; rfl
    rw [this, hB, div_one]
  have hd : ∀ j k, a.dDvarphi j k = D j k := fun j k => by
    have : a.dDvarphi j k = D j k / (a.B0overG0 * (a.loc j).dl) := by rw [← ha]; rfl
    rw [this, hB, hl, mul_one, div_one]
  refine ⟨a, v, h1, fun j => by rw [hl], fun j => by rw [hl], fun j => by rw [hl], ?_, ?_, hG, hB, ?_, ?_, ?_, ?_, ?_, ?_, ?_,
    ?_, ?_, ?_, ?_⟩
  · have : a.G0 = ((1 : Int) : ℝ) * a.G0overB0 * 1 := by rw [← ha]; rfl
    rw [this, hG]; norm_num
  · have : a.dlDvarphi = a.G0overB0 := by rw [← ha]; rfl
    rw [this, hG]
  · rw [← ha]; rfl
  · rw [hv, div_pow, hsq]; norm_num
  · rw [hd, hD' 0 0 (by omega) (by omega)]; norm_num
  · rw [hd, hD' 0 1 (by omega) (by omega), hv]
    rw [show (((0 : ℕ) : ℝ) - ((1 : ℕ) : ℝ)) = -1 by norm_num, s3]; norm_num [neg_div, div_neg]
  · rw [hd, hD' 0 2 (by omega) (by omega), hv]
    rw [show (((0 : ℕ) : ℝ) - ((2 : ℕ) : ℝ)) = -2 by norm_num, s4]; norm_num [neg_div, div_neg]
  · rw [hd, hD' 1 0 (by omega) (by omega), hv]
    rw [show (((1 : ℕ) : ℝ) - ((0 : ℕ) : ℝ)) = 1 by norm_num, s1]; norm_num
  · rw [hd, hD' 1 1 (by omega) (by omega)]; norm_num
  · rw [hd, hD' 1 2 (by omega) (by omega), hv]
    rw [show (((1 : ℕ) : ℝ) - ((2 : ℕ) : ℝ)) = -1 by norm_num, s3]; norm_num [div_neg]
  · rw [hd, hD' 2 0 (by omega) (by omega), hv]
    rw [show (((2 : ℕ) : ℝ) - ((0 : ℕ) : ℝ)) = 2 by norm_num, s2]; norm_num
  · rw [hd, hD' 2 1 (by omega) (by omega), hv]
    rw [show (((2 : ℕ) : ℝ) - ((1 : ℕ) : ℝ)) = 1 by norm_num, s1]; norm_num
  · rw [hd, hD' 2 2 (by omega) (by omega)]; norm_num


variable {a : Axis.Axis ℝ} {v : ℝ}

/-- The configuration. -/
noncomputable def ringCfg (a : Axis.Axis ℝ) : R1.Cfg ℝ := R1.Cfg.ofAxis a 3 1 1 1 1 0 2 1

theorem ring_etaSq (h : RingAxis a v) (j : Nat) : R1.etaSq (ringCfg a) j = 1 := by
  have : R1.etaSq (ringCfg a) j = (1 * 1) / ((a.loc j).curvature * (a.loc j).curvature) := rfl
  rw [this, h.curvature]; norm_num

theorem ring_residual (h : RingAxis a v) {x : Nat → ℝ} (h1 : x 1 = 0) (h2 : x 2 = 0) {j : Nat} (hj : j < 3) :
    R1.residual (ringCfg a) x j = 2 * x 0 - 4 := by
  have e : R1.residual (ringCfg a) x j = matVec 3 a.dDvarphi (fun j => if j = 0 then 0 else x j) j +
      ((x 0 + (a.helicity * ((1 : Nat) : Int) : Int)) * (R1.etaSq (ringCfg a) j * R1.etaSq (ringCfg a) j + 1
        + (if j = 0 then 0 else x j) * (if j = 0 then 0 else x j))
      - 2 * R1.etaSq (ringCfg a) j * (-((1 : Int) : ℝ) * (a.loc j).torsion + 2 / 1) * a.G0 / 1) := rfl
  have e2 : matVec 3 a.dDvarphi (fun j => if j = 0 then 0 else x j) j = 0 := by
    unfold matVec
    rw [vsum_eq]
    simp [Finset.sum_range_succ, h1, h2]
  have e3 : (if j = 0 then 0 else x j) = 0 := by
    obtain rfl | rfl | rfl : j = 0 ∨ j = 1 ∨ j = 2 := by omega
    · simp
    · simpa using h1
    · simpa using h2
  rw [e, e2, e3, ring_etaSq h, h.helicity, h.torsion, h.G0]
  norm_num
  ring

theorem ring_jacobian (h : RingAxis a v) (j k : Nat) :
    R1.jacobian (ringCfg a) (R1.store (ringCfg a) (R1.start (ringCfg a))) j k = if k = 0 then 2 else a.dDvarphi j k := by
  have e : R1.jacobian (ringCfg a) (R1.store (ringCfg a) (R1.start (ringCfg a))) j k =
      if k = 0 then R1.etaSq (ringCfg a) j * R1.etaSq (ringCfg a) j + 1 + (if j = 0 then 0 else R1.start (ringCfg a) j)
        * (if j = 0 then 0 else R1.start (ringCfg a) j)
      else if j = k then a.dDvarphi j k + (R1.start (ringCfg a) 0 + (a.helicity * ((1 : Nat) : Int) : Int)) * 2 *
        (if j = 0 then 0 else R1.start (ringCfg a) j)
      else a.dDvarphi j k := rfl
  have e2 : (if j = 0 then 0 else R1.start (ringCfg a) j) = 0 := by
    unfold R1.start
    split
    · rfl
    · rfl
  rw [e, e2, ring_etaSq h]
  split
  · norm_num
  · split <;> simp

theorem ring_direction (h : RingAxis a v) :
    ∃ d, solver 3 (R1.jacobian (ringCfg a) (R1.store (ringCfg a) (R1.start (ringCfg a))))
        (fun j => -R1.residual (ringCfg a) (R1.start (ringCfg a)) j) = some d ∧ d 0 = 2 ∧ d 1 = 0 ∧ d 2 = 0 := by
  have hv : v ≠ 0 := fun e => by have := h.hv; rw [e] at this; norm_num at this
  obtain ⟨d, hd⟩ := solver_some (n := 3) (m := R1.jacobian (ringCfg a) (R1.store (ringCfg a) (R1.start (ringCfg a))))
    (fun j => -R1.residual (ringCfg a) (R1.start (ringCfg a)) j) (by
      intro y hy
      have y0 := hy 0 (by omega)
      have y1 := hy 1 (by omega)
      have y2 := hy 2 (by omega)
      simp only [ring_jacobian h, Finset.sum_range_succ, Finset.sum_range_zero, if_true, one_ne_zero, OfNat.ofNat_ne_zero,
        if_false, h.D01, h.D02, h.D11, h.D12, h.D21, h.D22] at y0 y1 y2
      have e0 : y 0 = 0 := by linarith
      have e1 : y 1 = 0 := by
        have : v * y 1 = 0 := by rw [e0] at y2; linarith
        exact (mul_eq_zero.1 this).resolve_left hv
      have e2 : y 2 = 0 := by
        have : v * y 2 = 0 := by rw [e0] at y1; linarith
        exact (mul_eq_zero.1 this).resolve_left hv
      intro j hj
      obtain rfl | rfl | rfl : j = 0 ∨ j = 1 ∨ j = 2 := by omega
      exacts [e0, e1, e2])
  refine ⟨d, hd, ?_⟩
  have hs := (solver_exact _ _ _ _ hd).1
  have hr : ∀ j < 3, R1.residual (ringCfg a) (R1.start (ringCfg a)) j = -4 := fun j hj => by
    rw [ring_residual h rfl rfl hj]
    have : R1.start (ringCfg a) 0 = 0 := rfl
    rw [this]; norm_num
  have y0 := hs 0 (by omega)
  have y1 := hs 1 (by omega)
  have y2 := hs 2 (by omega)
  rw [hr _ (by omega)] at y0 y1 y2
  simp only [ring_jacobian h, Finset.sum_range_succ, Finset.sum_range_zero, if_true, one_ne_zero, OfNat.ofNat_ne_zero,
        if_false, h.D01, h.D02, h.D11, h.D12, h.D21, h.D22] at y0 y1 y2
  have e0 : d 0 = 2 := by linarith
  refine ⟨e0, ?_, ?_⟩
  · have : v * d 1 = 0 := by rw [e0] at y2; linarith
    exact (mul_eq_zero.1 this).resolve_left hv
  · have : v * d 2 = 0 := by rw [e0] at y1; linarith
    exact (mul_eq_zero.1 this).resolve_left hv

/-- Newton's method needs one step. -/
theorem ring_newton (h : RingAxis a v) : ∃ x s, x 0 = 2 ∧ x 1 = 0 ∧ x 2 = 0 ∧
    (Newton.newton (R1.env realOps (ringCfg a) (newtonSolve ringLib 3) (ringInput.newton_tolerance)) 1 4
      (R1.start (ringCfg a))).trace = [.res (R1.start (ringCfg a)), .jac (R1.start (ringCfg a)), .solve, .res x] ∧
    (Newton.newton (R1.env realOps (ringCfg a) (newtonSolve ringLib 3) (ringInput.newton_tolerance)) 1 4
      (R1.start (ringCfg a))).status = s := by
  obtain ⟨d, hd, d0, d1, d2⟩ := ring_direction h
  obtain ⟨e, he⟩ : ∃ e, e = R1.env realOps (ringCfg a) (newtonSolve ringLib 3) (ringInput.newton_tolerance) := ⟨_, rfl⟩
  have hdir : e.dir 0 (R1.start (ringCfg a)) (e.res (R1.start (ringCfg a))) = d := by
    have : e.dir 0 (R1.start (ringCfg a)) (e.res (R1.start (ringCfg a))) =
      (solver 3 (R1.jacobian (ringCfg a) (R1.store (ringCfg a) (R1.start (ringCfg a))))
        (fun j => -R1.residual (ringCfg a) (R1.start (ringCfg a)) j)).getD
        (fun j => -R1.residual (ringCfg a) (R1.start (ringCfg a)) j) := by rw [he]; rfl
    rw [this, hd]; rfl
  obtain ⟨x, hx⟩ : ∃ x, x = e.move (R1.start (ringCfg a)) d 0 := ⟨_, rfl⟩
  have hx' : ∀ j, x j = d j := fun j => by
    have : x j = R1.start (ringCfg a) j + (1 / 2 ^ 0) * d j := by rw [hx, he]; rfl
    rw [this]
    have : R1.start (ringCfg a) j = 0 := by unfold R1.start; split <;> rfl
    rw [this]; norm_num
  have hn : ∀ y, e.nrm (e.res y) = ∑ j ∈ Finset.range 3, R1.residual (ringCfg a) y j * R1.residual (ringCfg a) y j := fun y => by
    rw [he]; exact vsum_eq _ _
  have n0 : e.nrm (e.res (R1.start (ringCfg a))) = 48 := by
    rw [hn, Finset.sum_congr rfl fun j hj => by rw [ring_residual h rfl rfl (Finset.mem_range.1 hj)]]
    have : R1.start (ringCfg a) 0 = 0 := rfl
    rw [this]; norm_num
  have n1 : e.nrm (e.res x) = 0 := by
    rw [hn, Finset.sum_congr rfl fun j hj => by
      rw [ring_residual h (by rw [hx', d1]) (by rw [hx', d2]) (Finset.mem_range.1 hj), hx', d0]]
    norm_num
  have ht : e.tolSq = (1 / 10 ^ 12) * (1 / 10 ^ 12) := by rw [he]; rfl
  have hl : ∀ y z, e.lt y z = decide (y < z) := fun y z => by rw [he]; rfl
  rw [← he]
  refine ⟨x, _, by rw [hx', d0], by rw [hx', d1], by rw [hx', d2], ?_, rfl⟩
  have c1 : e.lt 48 e.tolSq = false := by rw [hl, ht, decide_eq_false_iff_not]; norm_num
  have c2 : e.lt 0 48 = true := by rw [hl, decide_eq_true_eq]; norm_num
  have c3 : e.lt 48 0 = false := by rw [hl, decide_eq_false_iff_not]; norm_num
  unfold Newton.newton
  have f1 : (1 : Int).toNat = 0 + 1 := rfl
  have f2 : (4 : Int).toNat = 3 + 1 := rfl
  rw [f1, f2]
  dsimp only
  rw [Newton.loop]
  dsimp only
  rw [n0, c1, hdir, Newton.lineSearch]
  dsimp only
  rw [← hx, n1, c2]
  simp [c3, Newton.loop]

/-! ## Second order -/

/-- The quantities from which the second order is calculated. -/
noncomputable def ringIn (a : Axis.Axis ℝ) (x : Nat → ℝ) : R2.In ℝ :=
  R2.In.of a (ringCfg a) (R1.store (ringCfg a) x) (R1.diagnostics realOps (ringCfg a) (R1.store (ringCfg a) x)) (mu0 realOps)
    0 0 0

theorem ring_D (h : RingAxis a v) (f : Nat → ℝ) :
    matVec 3 a.dDvarphi f 0 = v * f 1 - v * f 2 ∧ matVec 3 a.dDvarphi f 1 = -v * f 0 + v * f 2 ∧
      matVec 3 a.dDvarphi f 2 = v * f 0 - v * f 1 := by
  unfold matVec
  simp only [vsum_eq, Finset.sum_range_succ, Finset.sum_range_zero, h.D00, h.D01, h.D02, h.D10, h.D11, h.D12, h.D20, h.D21, h.D22]
  refine ⟨by ring, by ring, by ring⟩

theorem ring_D_const (h : RingAxis a v) {f : Nat → ℝ} {c : ℝ} (hf : ∀ j < 3, f j = c) {j : Nat} (hj : j < 3) :
    matVec 3 a.dDvarphi f j = 0 := by
  obtain ⟨d0, d1, d2⟩ := ring_D h f
  rw [hf 0 (by omega), hf 1 (by omega), hf 2 (by omega)] at *
  obtain rfl | rfl | rfl : j = 0 ∨ j = 1 ∨ j = 2 := by omega
  · rw [d0]; ring
  · rw [d1]; ring
  · rw [d2]; ring

theorem ring_solution (h : RingAxis a v) {x : Nat → ℝ} (x0 : x 0 = 2) (x1 : x 1 = 0) (x2 : x 2 = 0) :
    ∃ y, solver (2 * 3) (R2.matrix (ringIn a x) fun _ _ => 0) (R2.rhs (ringIn a x)) = some y := by
  have w : (ringIn a x).r1.iotaN = 2 := by
    have : (ringIn a x).r1.iotaN = x 0 + (a.helicity * ((1 : Nat) : Int) : Int) := rfl
    rw [this, h.helicity, x0]; norm_num
  have sg : ∀ j < 3, (ringIn a x).st.sigma j = 0 := fun j hj => by
    have : (ringIn a x).st.sigma j = if j = 0 then 0 else x j := rfl
    rw [this]
    obtain rfl | rfl | rfl : j = 0 ∨ j = 1 ∨ j = 2 := by omega
    · simp
    · simpa using x1
    · simpa using x2
  have X : ∀ j, (ringIn a x).r1.X1c j = 1 := fun j => by
    have : (ringIn a x).r1.X1c j = 1 / (a.loc j).curvature := rfl
    rw [this, h.curvature, div_one]
  have Ys : ∀ j, (ringIn a x).r1.Y1s j = 1 := fun j => by
    have : (ringIn a x).r1.Y1s j = ((1 * 1 : Int) : ℝ) / 1 * (a.loc j).curvature := rfl
    rw [this, h.curvature]; norm_num
  have Yc : ∀ j < 3, (ringIn a x).r1.Y1c j = 0 := fun j hj => by
    have : (ringIn a x).r1.Y1c j = (ringIn a x).r1.Y1s j * (ringIn a x).st.sigma j := rfl
    rw [this, sg j hj, mul_zero]
  have g : ∀ j < 3, (R2.pre (ringIn a x)).Z20 j = 0 ∧ (R2.pre (ringIn a x)).Z2s j = 0 ∧ (R2.pre (ringIn a x)).Z2c j = 0 := by
    have v1 : ∀ j < 3, (R2.pre (ringIn a x)).V1 j = 2 := fun j hj => by
      simp only [R2.pre]; rw [X, Ys, Yc j hj]; norm_num
    have v2 : ∀ j < 3, (R2.pre (ringIn a x)).V2 j = 0 := fun j hj => by
      simp only [R2.pre]; rw [Yc j hj]; norm_num
    have v3 : ∀ j < 3, (R2.pre (ringIn a x)).V3 j = 0 := fun j hj => by
      simp only [R2.pre]; rw [X, Ys, Yc j hj]; norm_num
    intro j hj
    refine ⟨?_, ?_, ?_⟩
    · have : (R2.pre (ringIn a x)).Z20 j = matVec 3 a.dDvarphi (R2.pre (ringIn a x)).V1 j * (-a.B0overG0 / 8) := rfl
      rw [this, ring_D_const h v1 hj, zero_mul]
    · have : (R2.pre (ringIn a x)).Z2s j = (-a.B0overG0 / 8) * (matVec 3 a.dDvarphi (R2.pre (ringIn a x)).V2 j
        - 2 * (ringIn a x).r1.iotaN * (R2.pre (ringIn a x)).V3 j) := rfl
      rw [this, ring_D_const h v2 hj, v3 j hj]; ring
    · have : (R2.pre (ringIn a x)).Z2c j = (-a.B0overG0 / 8) * (matVec 3 a.dDvarphi (R2.pre (ringIn a x)).V3 j
        + 2 * (ringIn a x).r1.iotaN * (R2.pre (ringIn a x)).V2 j) := rfl
      rw [this, ring_D_const h v3 hj, v2 j hj]; ring
  have c1 : (ringIn a x).cfg.dDvarphi = a.dDvarphi := rfl
  have c2 : (ringIn a x).cfg.curvature = fun j => (a.loc j).curvature := rfl
  have c3 : (ringIn a x).cfg.torsion = fun j => (a.loc j).torsion := rfl
  have c4 : (ringIn a x).cfg.etaBar = 1 := rfl
  have c5 : (ringIn a x).cfg.I2 = 2 := rfl
  have c6 : (ringIn a x).cfg.B0 = 1 := rfl
  have c7 : (ringIn a x).cfg.sG = 1 := rfl
  have c8 : (ringIn a x).cfg.spsi = 1 := rfl
  have c9 : (ringIn a x).G0overB0 = 1 := h.G0overB0
  have b : ∀ j < 3, ∀ k < 3, R2.blk11 (ringIn a x) j k = (if k = j then 4 else 0) ∧
      R2.blk12 (ringIn a x) j k = -2 * a.dDvarphi j k ∧ R2.blk21 (ringIn a x) j k = -2 * a.dDvarphi j k ∧
      R2.blk22 (ringIn a x) j k = if k = j then -4 else 0 := by
    intro j hj k hk
    obtain ⟨g1, g2, g3⟩ := g j hj
    simp only [R2.blk11, R2.blk12, R2.blk21, R2.blk22, R2.fsOf, R2.linOf, R2.fs, R2.lin, X, Ys, Yc j hj, g1, g2, g3, w, c1, c2,
      c3, c4, c5, c6, c7, c8, c9, h.curvature, h.torsion, sg j hj, sg k hk]
    refine ⟨?_, ?_, ?_, ?_⟩
    · split <;> norm_num
    · split <;> norm_num
    · split <;> norm_num <;> ring
    · split <;> norm_num
  refine solver_some _ fun y hy => ?_
  have r : ∀ j < 3, 4 * y j - 2 * (∑ k ∈ Finset.range 3, a.dDvarphi j k * y (k + 3)) = 0 ∧
      -2 * (∑ k ∈ Finset.range 3, a.dDvarphi j k * y k) - 4 * y (j + 3) = 0 := by
    intro j hj
    obtain ⟨r1, r2⟩ := R2.row_sums (ringIn a x) (fun _ _ => 0) y (j := j) hj
    have n3 : (ringIn a x).cfg.nphi = 3 := rfl
    rw [n3] at r1 r2
    rw [hy j (by omega)] at r1
    rw [hy (j + 3) (by omega)] at r2
    rw [Finset.sum_congr rfl fun k hk => by rw [(b j hj k (Finset.mem_range.1 hk)).1],
      Finset.sum_congr (s₁ := Finset.range 3) (f := fun k => R2.blk12 (ringIn a x) j k * y (k + 3)) rfl
        fun k hk => by rw [(b j hj k (Finset.mem_range.1 hk)).2.1]] at r1
    rw [Finset.sum_congr rfl fun k hk => by rw [(b j hj k (Finset.mem_range.1 hk)).2.2.1],
      Finset.sum_congr (s₁ := Finset.range 3) (f := fun k => R2.blk22 (ringIn a x) j k * y (k + 3)) rfl
        fun k hk => by rw [(b j hj k (Finset.mem_range.1 hk)).2.2.2]] at r2
    simp only [ite_mul, zero_mul, Finset.sum_ite_eq', Finset.mem_range, hj, if_true, mul_assoc, ← Finset.mul_sum] at r1 r2
    exact ⟨by linarith, by linarith⟩
  obtain ⟨p0, q0⟩ := r 0 (by omega)
  obtain ⟨p1, q1⟩ := r 1 (by omega)
  obtain ⟨p2, q2⟩ := r 2 (by omega)
  simp only [Finset.sum_range_succ, Finset.sum_range_zero, h.D00, h.D01, h.D02, h.D10, h.D11, h.D12, h.D20, h.D21, h.D22,
    Nat.reduceAdd] at p0 q0 p1 q1 p2 q2
  have hv := h.hv
  have z0 : 12 * y 0 = 2 * y 0 - y 1 - y 2 := by
    linear_combination 3 * p0 - (3 / 2) * v * (q1 - q2) + (2 * y 0 - y 1 - y 2) * hv
  have z1 : 12 * y 1 = 2 * y 1 - y 2 - y 0 := by
    linear_combination 3 * p1 - (3 / 2) * v * (q2 - q0) + (2 * y 1 - y 2 - y 0) * hv
  have z2 : 12 * y 2 = 2 * y 2 - y 0 - y 1 := by
    linear_combination 3 * p2 - (3 / 2) * v * (q0 - q1) + (2 * y 2 - y 0 - y 1) * hv
  have e0 : y 0 = 0 := by linarith
  have e1 : y 1 = 0 := by linarith
  have e2 : y 2 = 0 := by linarith
  rw [e1, e2] at q0
  rw [e0, e2] at q1
  rw [e0, e1] at q2
  intro j hj
  obtain rfl | rfl | rfl | rfl | rfl | rfl : j = 0 ∨ j = 1 ∨ j = 2 ∨ j = 3 ∨ j = 4 ∨ j = 5 := by omega
  · exact e0
  · exact e1
  · exact e2
  · linarith
  · linarith
  · linarith

/-! ## The run -/

theorem ring_sized : (coeffs ringInput).WellSized := ⟨by simp [coeffs, ringInput, defaults], rfl, rfl, rfl⟩

theorem ring_R (φ : ℝ) : axisR ringInput φ = 1 := by
  simp [axisR, Spec.Axis.fourier, ringInput, defaults]

theorem ring_curvature {j : Nat} : Spec.Axis.curvature (axis ringInput) (grid ringInput 3 j) ≠ 0 := by
  obtain ⟨a, v, ha, h⟩ := ring_axis
  have hp : a.phi j = grid ringInput (2 * 1 + 1) j := by
    rw [phi_eq (M := 1) ring_sized ha (by simp [ringInput])]
  have := (Axis.curvature_regular (M := 1) ring_sized ha j (by
    rw [hp]; exact speed_ne (by rw [ring_R]; norm_num))).2
  rw [h.curvature, hp] at this
  change 1 = Spec.Axis.curvature (axis ringInput) (grid ringInput 3 j) at this
  rw [← this]
  norm_num

theorem ring_calculate : ∃ r, calculate ringLib ringInput 3 ⟨true, true, true⟩ = .ok r ∧ r.r1.iotaN = 2 := by
  obtain ⟨a, v, ha, h⟩ := ring_axis
  obtain ⟨x, s, x0, x1, x2, ht, hs⟩ := ring_newton h
  obtain ⟨d, hd, -⟩ := ring_direction h
  obtain ⟨y, hy⟩ := ring_solution h x0 x1 x2
  have c0 : Axis.initAxis ringLib.ops (coeffs ringInput) 3 ringInput.sG ringInput.spsi ringInput.B0 = .ok a := ha
  have c1 : newtonThrows ringLib (ringCfg a) ringInput.newton_tolerance ringInput.max_newton_iterations
      ringInput.max_linesearch_iterations = false := by
    have : newtonThrows ringLib (ringCfg a) ringInput.newton_tolerance ringInput.max_newton_iterations
      ringInput.max_linesearch_iterations = (jacStates (Newton.newton (R1.env realOps (ringCfg a) (newtonSolve ringLib 3)
        (ringInput.newton_tolerance)) 1 4 (R1.start (ringCfg a))).trace).any fun x =>
          (solver 3 (R1.jacobian (ringCfg a) (R1.store (ringCfg a) x)) fun j => -R1.residual (ringCfg a) x j).isNone := rfl
    rw [this, ht]
    simp only [jacStates, List.any_cons, List.any_nil, hd]
    rfl
  have c2 : R1.solveSigma ringLib.ops (ringCfg a) (newtonSolve ringLib 3) ringInput.newton_tolerance
      ringInput.max_newton_iterations ringInput.max_linesearch_iterations = (s, some (R1.store (ringCfg a) x)) := by
    have : R1.solveSigma ringLib.ops (ringCfg a) (newtonSolve ringLib 3) ringInput.newton_tolerance
      ringInput.max_newton_iterations ringInput.max_linesearch_iterations =
      ((Newton.newton (R1.env realOps (ringCfg a) (newtonSolve ringLib 3) (ringInput.newton_tolerance)) 1 4
        (R1.start (ringCfg a))).status,
       (Newton.lastEvaluated (Newton.newton (R1.env realOps (ringCfg a) (newtonSolve ringLib 3)
        (ringInput.newton_tolerance)) 1 4 (R1.start (ringCfg a))).trace).map (R1.store (ringCfg a))) := rfl
    rw [this, hs, ht]
    rfl
  have c3 : ∃ d, second ringLib (ringIn a x) a true = .ok d := by
    unfold second
    have : ringLib.gesv (2 * (ringIn a x).cfg.nphi) (R2.matrix (ringIn a x) fun _ _ => 0) (R2.rhs (ringIn a x)) = some y := hy
    rw [this]
    dsimp only
    have o : ringLib.ops = realOps := rfl
    rw [o]
    cases h' : RSing.calculate realOps (if ringLib.single then RSing.tolSingle else RSing.tolDouble) ringLib.geev (ringIn a x)
        (R2.finish realOps (ringIn a x) y) with
    | error e =>
      obtain ⟨-, m, hm⟩ := RSing.calculate_error (tol_nonneg ringLib.single) h'
      cases hm
    | ok s => exact ⟨_, rfl⟩
  obtain ⟨d, c3⟩ := c3
  have w : (ringIn a x).r1.iotaN = 2 := by
    have : (ringIn a x).r1.iotaN = x 0 + (a.helicity * ((1 : Nat) : Int) : Int) := rfl
    rw [this, h.helicity, x0]; norm_num
  refine ⟨⟨a, s, ringCfg a, R1.store (ringCfg a) x, (ringIn a x).r1, some d⟩, ?_, w⟩
  unfold calculate
  rw [c0]
  dsimp only
  have e : R1.Cfg.ofAxis a 3 ringInput.nfp.toNat ringInput.sG ringInput.spsi ringInput.eta_bar ringInput.sigma0 ringInput.I2
    ringInput.B0 = ringCfg a := rfl
  rw [e, c1, if_neg (by decide), c2]
  dsimp only
  rw [if_pos rfl]
  have e2 : R2.In.of a (ringCfg a) (R1.store (ringCfg a) x) (R1.diagnostics ringLib.ops (ringCfg a) (R1.store (ringCfg a) x))
    (mu0 ringLib.ops) ringInput.p2 ringInput.B2s ringInput.B2c = ringIn a x := rfl
  rw [e2]
  rw [c3]
  rfl

/-- The run ends with an output file. -/
theorem ring_run (m0 : Mem ℝ) : ∃ r f, run ringLib m0 "dir/qsc_in.torus".toList ringFile =
    .ok ("dir/".toList ++ "qsc_out.".toList ++ "torus".toList ++ ".nc".toList, r, f) ∧ r.r1.iotaN = 2 := by
  obtain ⟨r, hr, hi⟩ := ring_calculate
  have h2 : Sections.inputQsc (fun i => (i : ℝ)) 0 ringFile (Pipeline.qscNew ringLib.lit ringLib.single) = .ok ringInput :=
    (input_iff (lit := exLib.lit) exLiterals _ ringWellFormed _).2 ring_input
  have h3 : Setup.validate ringInput.order_r_option = .ok ⟨true, true, true⟩ := rfl
  rw [run_eq ringLib m0 (Outfile.outfile_ok _ _ _ ex_path) h2 h3 ring_sound.2.1 ((points_iff ringInput 3).2 ring_points)
    ring_sound.2.2.1]
  obtain ⟨l1, l2, l3⟩ := sized ringWellFormed h2
  obtain ⟨f, hw, -⟩ := file_written ringLib.toF ringLib.ops m0 ringInput ⟨true, true, true⟩ 3 r (calculate_done (validate_order h3) hr)
    (validate_ok h3).1 rfl l1 l2 l3 (by omega) ring_sized.pos
  exact ⟨r, f, by simp only [hr, hw], hi⟩

/-! ## A twisted axis, first order, no Newton steps -/

/-- `nfp = 4`, an axis that is not plane. -/
noncomputable def twistFile : Sections.File ℝ :=
  [("qsc", [("order_r_option", .str "r1"), ("nfp", .int 4), ("nphi", .int 21), ("R0c", .arr [.flt 1, .flt (1 / 20)]),
    ("Z0s", .arr [.flt 0, .flt (1 / 20)]), ("eta_bar", .flt (3 / 2)), ("max_newton_iterations", .int 0)])]

noncomputable def twistInput : QscIn ℝ := { exInput "r1" 21 with max_newton_iterations := 0 }

theorem twistWellFormed : Spec.Sections.WellFormed twistFile := by
  refine ⟨by simp [twistFile], ?_⟩
  simp [twistFile]

theorem twist_input : Input ringLib.single twistFile twistInput := by
  rw [← input_iff (lit := exLib.lit) exLiterals _ twistWellFormed]
  unfold twistInput exInput
  rw [defaults_eq exLiterals]
  rfl

theorem twist_points : Points twistInput 21 := Or.inl ⟨rfl, rfl⟩

theorem twist_sym : First twistInput := by
  refine ⟨?_, ?_, rfl⟩ <;> simp [twistInput, exInput, defaults]

theorem twist_run (m0 : Mem ℝ) : ∃ r f, run ringLib m0 "dir/qsc_in.torus".toList twistFile =
    .ok ("dir/".toList ++ "qsc_out.".toList ++ "torus".toList ++ ".nc".toList, r, f) := by
  have h2 : Sections.inputQsc (fun i => (i : ℝ)) 0 twistFile (Pipeline.qscNew ringLib.lit ringLib.single) = .ok twistInput :=
    (input_iff (lit := exLib.lit) exLiterals _ twistWellFormed _).2 twist_input
  have h3 : Setup.validate twistInput.order_r_option = .ok ⟨false, false, false⟩ := rfl
  obtain ⟨l1, l2, l3⟩ := sized twistWellFormed h2
  have hpos : 0 < twistInput.R0c.length := by simp [twistInput, exInput]
  have hr : ∃ r, calculate ringLib twistInput (21) ⟨false, false, false⟩ = .ok r := by
    obtain ⟨a, ha⟩ := Axis.init_ok (coeffs twistInput) ⟨hpos, l1, l2, l3⟩ 10 twistInput.sG twistInput.spsi twistInput.B0
    unfold calculate
    have : Axis.initAxis ringLib.ops (coeffs twistInput) (21) twistInput.sG twistInput.spsi twistInput.B0 = .ok a := ha
    rw [this]
    dsimp only
    generalize R1.Cfg.ofAxis a (21) twistInput.nfp.toNat twistInput.sG twistInput.spsi twistInput.eta_bar
      twistInput.sigma0 twistInput.I2 twistInput.B0 = p
    have e : twistInput.max_newton_iterations = 0 := rfl
    have e2 : newtonThrows ringLib p twistInput.newton_tolerance 0 twistInput.max_linesearch_iterations = false := by
      unfold newtonThrows Newton.newton
      rw [show (0 : Int).toNat = 0 from rfl, Newton.loop]
      rfl
    rw [e, e2]
    obtain ⟨st, hst, -⟩ := R1.solve_spec p (newtonSolve ringLib (21)) twistInput.newton_tolerance 0
      twistInput.max_linesearch_iterations
    rcases hs : R1.solveSigma realOps p (newtonSolve ringLib (21)) twistInput.newton_tolerance 0
      twistInput.max_linesearch_iterations with ⟨s, o⟩
    rw [hs] at hst
    obtain rfl : o = some st := hst
    have hs' : R1.solveSigma ringLib.ops p (newtonSolve ringLib (21)) twistInput.newton_tolerance 0
      twistInput.max_linesearch_iterations = (s, some st) := hs
    rw [hs']
    exact ⟨_, rfl⟩
  obtain ⟨r, hr⟩ := hr
  rw [run_eq ringLib m0 (Outfile.outfile_ok _ _ _ ex_path) h2 h3 (by simp [twistInput, exInput])
    ((points_iff twistInput 21).2 twist_points) (by simp [twistInput, exInput])]
  obtain ⟨f, hw, -⟩ := file_written ringLib.toF ringLib.ops m0 twistInput ⟨false, false, false⟩ 21 r
    (calculate_done (validate_order h3) hr) (validate_ok h3).1 rfl l1 l2 l3 (by omega) hpos
  exact ⟨r, f, by simp only [hr, hw]⟩

end Qsc.Symmetry
