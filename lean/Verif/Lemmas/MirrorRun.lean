import Verif.Lemmas.MirrorSecond
import Verif.Lemmas.ScalingRun

/-!
# Lemmas on mirror images: the results of a run
-/

namespace Qsc.Mirror
open Qsc.Netcdf Qsc.Single Qsc.HalfTurn Qsc.Toml Qsc.Spec.Single Qsc.Spec.Mirror

/-- The mirror image of the input, as the calculation uses it. -/
structure InputRel (q q' : QscIn ℝ) : Prop where
  coeffs : coeffs q' = mirCoeffs (coeffs q)
  nfp : q'.nfp = q.nfp
  sG : q'.sG = q.sG
  spsi : q'.spsi = q.spsi
  B0 : q'.B0 = q.B0
  etaBar : q'.eta_bar = q.eta_bar
  sigma0 : q'.sigma0 = -q.sigma0
  I2 : q'.I2 = -q.I2
  p2 : q'.p2 = q.p2
  B2s : q'.B2s = -q.B2s
  B2c : q'.B2c = q.B2c
  tol : q'.newton_tolerance = q.newton_tolerance
  N : q'.max_newton_iterations = q.max_newton_iterations
  M : q'.max_linesearch_iterations = q.max_linesearch_iterations
  nphi : q'.nphi = q.nphi
  order : q'.order_r_option = q.order_r_option

theorem inputRel {q q' : QscIn ℝ} (h : MirrorImage q q') : InputRel q q' := by
  unfold MirrorImage at h
  generalize q'.verbose = w at h
  subst h
  exact ⟨rfl, rfl, rfl, rfl, rfl, rfl, rfl, rfl, rfl, rfl, rfl, rfl, rfl, rfl, rfl, rfl⟩

/-- The mirror image of the results beyond first order. -/
structure SecondRel (n : Nat) (d d' : Second ℝ) : Prop where
  nphi : d.inp.cfg.nphi = n
  inp : d'.inp = mirIn d.inp
  r2 : R2Rel n d.r2 d'.r2
  third : ∀ t, d.third = some t → ∃ t', d'.third = some t' ∧ R3Rel n t t'
  merc : d'.merc = d.merc

/-- The mirror image of the results. -/
structure Rel (r r' : Result ℝ) : Prop where
  axis : r'.axis = mirAxis r.axis
  newton : r'.newton = r.newton
  cfg : r'.cfg = mirCfg r.cfg
  st : r'.st = mirSt r.st
  r1 : r'.r1 = mirR1 r.r1

theorem ofAxis_mir (x : Axis.Axis ℝ) {q q' : QscIn ℝ} (h : InputRel q q') (n : Nat) :
    R1.Cfg.ofAxis (mirAxis x) n q'.nfp.toNat q'.sG q'.spsi q'.eta_bar q'.sigma0 q'.I2 q'.B0
      = mirCfg (R1.Cfg.ofAxis x n q.nfp.toNat q.sG q.spsi q.eta_bar q.sigma0 q.I2 q.B0) := by
  simp only [R1.Cfg.ofAxis, mirCfg, mirAxis, mirLocal, h.nfp, h.sG, h.spsi, h.etaBar, h.sigma0, h.I2, h.B0]

theorem of_mir (x : Axis.Axis ℝ) {q q' : QscIn ℝ} (h : InputRel q q') (p : R1.Cfg ℝ) (st : R1.Stored ℝ) (r : R1.R1 ℝ) :
    R2.In.of (mirAxis x) (mirCfg p) (mirSt st) (mirR1 r) (mu0 realOps) q'.p2 q'.B2s q'.B2c
      = mirIn (R2.In.of x p st r (mu0 realOps) q.p2 q.B2s q.B2c) := by
  simp only [R2.In.of, mirIn, mirAxis, h.p2, h.B2s, h.B2c]

/-- The normal vectors of the axis do not cross the axis of symmetry at a grid point. -/
def SteadyAxis (n : Nat) (x : Axis.Axis ℝ) : Prop :=
  Steady n (fun j => (x.loc j).normal.x) fun j => (x.loc j).normal.z

theorem axis_rel {q q' : QscIn ℝ} (h : InputRel q q') (hc : (coeffs q).WellSized) {M : Nat}
    {x : Axis.Axis ℝ} (hx : Axis.initAxis realOps (coeffs q) (2 * M + 1) q.sG q.spsi q.B0 = .ok x)
    (hst : SteadyAxis (2 * M + 1) x) :
    Axis.initAxis realOps (coeffs q') (2 * M + 1) q'.sG q'.spsi q'.B0 = .ok (mirAxis x) := by
  rw [h.coeffs, h.sG, h.spsi, h.B0]
  exact initAxis_mir hc M _ _ _ hx hst

theorem first_rel {L : Lib ℝ} (ho : L.ops = realOps) (hg : Signs L.gesv) {q q' : QscIn ℝ}
    (h : InputRel q q') (hc : (coeffs q).WellSized) {M : Nat} {ord : Setup.Order} {r r' : Result ℝ}
    (hr : calculate L q (2 * M + 1) ord = .ok r) (hst : SteadyAxis (2 * M + 1) r.axis)
    (hr' : calculate L q' (2 * M + 1) ord = .ok r') : Rel r r' := by
  have e := axis_rel h hc (calculate_axis ho hr) hst
  rw [calculate_axis ho hr'] at e
  injection e with e
  obtain ⟨c1, c2, c3⟩ := calculate_first ho hr
  obtain ⟨c1', c2', c3'⟩ := calculate_first ho hr'
  rw [e, ofAxis_mir _ h, ← c1] at c1'
  rw [c1', solveSigma_mir hg, h.tol, h.N, h.M, c2] at c2'
  injection c2' with e1 e2
  injection e2 with e2
  rw [c1', ← e2, diagnostics_mir, ← c3] at c3'
  exact ⟨e, e1.symm, c1', e2.symm, c3'⟩

theorem solve_mir {L : Lib ℝ} (hg : Signs L.gesv) (i : R2.In ℝ) {x : Nat → ℝ}
    (h : L.gesv (2 * i.cfg.nphi) (R2.matrix i fun _ _ => 0) (R2.rhs i) = some x) :
    L.gesv (2 * (mirIn i).cfg.nphi) (R2.matrix (mirIn i) fun _ _ => 0) (R2.rhs (mirIn i))
      = some fun b => colSgn i.cfg.nphi b * x b := by
  rw [matrix_mir, rhs_mir]
  have e := hg (2 * i.cfg.nphi) (R2.matrix i fun _ _ => 0) (R2.rhs i) (rowSgn i.cfg.nphi) (colSgn i.cfg.nphi)
    (rowSgn_or _) (colSgn_or _)
  rw [h] at e
  exact e

theorem second_rel {L : Lib ℝ} (ho : L.ops = realOps) (hg : Signs L.gesv) {q q' : QscIn ℝ}
    (h : InputRel q q') (hc : (coeffs q).WellSized) {M : Nat} {ord : Setup.Order} {r r' : Result ℝ}
    (hr : calculate L q (2 * M + 1) ord = .ok r) (hst : SteadyAxis (2 * M + 1) r.axis)
    (hr' : calculate L q' (2 * M + 1) ord = .ok r') (h2 : ord.atLeastR2 = true) :
    ∃ d d', r.second = some d ∧ r'.second = some d' ∧ SecondRel (2 * M + 1) d d' ∧ (d.third.isSome = ord.r2p1) := by
  have R := first_rel ho hg h hc hr hst hr'
  obtain ⟨c1, -, -⟩ := calculate_first ho hr
  obtain ⟨d, x, k1, k2, k3, k4, k5, k6, k7⟩ := calculate_second ho hr h2
  obtain ⟨d', x', k1', k2', k3', k4', k5', k6', k7'⟩ := calculate_second ho hr' h2
  have hn : d.inp.cfg.nphi = 2 * M + 1 := by rw [k2]; change r.cfg.nphi = _; rw [c1]; rfl
  rw [R.axis, R.cfg, R.st, R.r1, of_mir _ h, ← k2] at k2'
  have e := solve_mir hg d.inp k3
  have k3'' : L.gesv (2 * (mirIn d.inp).cfg.nphi) (R2.matrix (mirIn d.inp) fun _ _ => 0) (R2.rhs (mirIn d.inp))
      = some x' := by
    rw [← k2']
    exact k3'
  rw [e] at k3''
  injection k3'' with e
  have F := finish_mir d.inp (by omega) x
  rw [k2', ← e] at k4'
  rw [← k4, ← k4', hn] at F
  have T := r2p1_mir d.inp (by omega) (hn.symm ▸ F)
  rw [hn] at T
  refine ⟨d, d', k1, k1', ⟨hn, k2', F, ?_, ?_⟩, ?_⟩
  · intro t ht
    rw [k5] at ht
    rw [k5', k2']
    cases hb : ord.r2p1 with
    | false => rw [hb] at ht; cases ht
    | true =>
      rw [hb] at ht
      injection ht with ht
      exact ⟨_, rfl, ht ▸ T⟩
  · rw [k6', k2', F.mean, R.axis, k6]
    exact mercier_mir _ _ _ _
  · rw [k5]
    cases ord.r2p1 <;> rfl

/-- The calculation ends for the mirror image too. -/
theorem calculate_rel {L : Lib ℝ} (ho : L.ops = realOps) (hg : Signs L.gesv) {q q' : QscIn ℝ}
    (h : InputRel q q') (hc : (coeffs q).WellSized) {M : Nat} {ord : Setup.Order} {r : Result ℝ}
    (hr : calculate L q (2 * M + 1) ord = .ok r) (hst : SteadyAxis (2 * M + 1) r.axis)
    (hs : ord.atLeastR2 = true → ∀ m, L.geev m ≠ none) : ∃ r', calculate L q' (2 * M + 1) ord = .ok r' := by
  have hx := calculate_axis ho hr
  obtain ⟨c1, c2, c3⟩ := calculate_first ho hr
  have ht : newtonThrows L r.cfg q.newton_tolerance q.max_newton_iterations q.max_linesearch_iterations = false := by
    have hr' := hr
    rw [calculate, ho, hx] at hr'
    dsimp only at hr'
    rw [← c1] at hr'
    cases hh : newtonThrows L r.cfg q.newton_tolerance q.max_newton_iterations q.max_linesearch_iterations with
    | false => rfl
    | true => rw [hh, if_pos rfl] at hr'; cases hr'
  rw [calculate, ho, axis_rel h hc hx hst]
  dsimp only
  rw [ofAxis_mir _ h, ← c1, newtonThrows_mir ho hg, h.tol, h.N, h.M, ht, if_neg (by simp), solveSigma_mir hg, c2]
  dsimp only [Option.map_some]
  cases h2 : ord.atLeastR2 with
  | false => exact ⟨_, rfl⟩
  | true =>
    rw [if_pos rfl, diagnostics_mir, ← c3, of_mir _ h]
    obtain ⟨d, x, k1, k2, k3, k4, k5, k6, k7⟩ := calculate_second ho hr h2
    have hn : d.inp.cfg.nphi = 2 * M + 1 := by rw [k2]; change r.cfg.nphi = _; rw [c1]; rfl
    have hd : ∃ d', second L (mirIn d.inp) (mirAxis r.axis) ord.r2p1 = .ok d' := by
      unfold second
      rw [solve_mir hg d.inp k3]
      dsimp only
      rw [ho]
      cases hcal : RSing.calculate realOps (if L.single then RSing.tolSingle else RSing.tolDouble) L.geev
          (mirIn d.inp) (R2.finish realOps (mirIn d.inp) fun b => colSgn d.inp.cfg.nphi b * x b) with
      | ok s => exact ⟨_, rfl⟩
      | error e =>
        obtain ⟨-, m, hm⟩ := RSing.calculate_error (tol_nonneg _) hcal
        exact absurd hm (hs h2 m)
    obtain ⟨d', hd'⟩ := hd
    rw [← k2, hd']
    exact ⟨_, rfl⟩

end Qsc.Mirror
