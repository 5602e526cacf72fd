import Verif.Model.ScanRun
import Verif.Spec.ScanLoop
import Verif.Lemmas.R2
import Verif.Lemmas.ScanLoop

/-!
Helper lemmas for `Verif.Props.ScanRun`: an attempt of a scan in which `q` is reused does what an attempt on a fresh
`q` does, and what it records is what `Qsc::calculate` would give.
-/

namespace Qsc.R2

/-- Outside the `2 n` rows and columns nothing is changed. -/
theorem matrix_outside {K : Type} [Field K] (i : In K) (old : Nat → Nat → K) {x y : Nat}
    (h : ¬ (x < 2 * i.cfg.nphi ∧ y < 2 * i.cfg.nphi)) : matrix i old x y = old x y := by
  have hm : matrix i old = forLoop i.cfg.nphi (rowStep i.cfg.nphi
      (fun j k => i.r1.Y1c j * i.cfg.dDvarphi j k * (linOf i).Y2sX20 k -
        i.r1.Y1s j * i.cfg.dDvarphi j k * (linOf i).Y2cX20 k)
      (fun j k => -2 * i.r1.Y1s j * i.cfg.dDvarphi j k)
      (fun j k => -i.r1.X1c j * i.cfg.dDvarphi j k + i.r1.Y1s j * i.cfg.dDvarphi j k * (linOf i).Y2sX20 k +
        i.r1.Y1c j * i.cfg.dDvarphi j k * (linOf i).Y2cX20 k) (fun _ _ => 0)
      (fun j v => v + i.r1.X1c j * (fsOf i).fXsX20 j - i.r1.Y1s j * (fsOf i).fY0X20 j +
        i.r1.Y1c j * (fsOf i).fYsX20 j - i.r1.Y1s j * (fsOf i).fYcX20 j)
      (fun j v => v + i.r1.X1c j * (fsOf i).fXsY20 j - i.r1.Y1s j * (fsOf i).fY0Y20 j +
        i.r1.Y1c j * (fsOf i).fYsY20 j - i.r1.Y1s j * (fsOf i).fYcY20 j)
      (fun j v => v - i.r1.X1c j * (fsOf i).fX0X20 j + i.r1.X1c j * (fsOf i).fXcX20 j -
        i.r1.Y1c j * (fsOf i).fY0X20 j + i.r1.Y1s j * (fsOf i).fYsX20 j + i.r1.Y1c j * (fsOf i).fYcX20 j)
      (fun j v => v - i.r1.X1c j * (fsOf i).fX0Y20 j + i.r1.X1c j * (fsOf i).fXcY20 j -
        i.r1.Y1c j * (fsOf i).fY0Y20 j + i.r1.Y1s j * (fsOf i).fYsY20 j + i.r1.Y1c j * (fsOf i).fYcY20 j))
      old := rfl
  rw [hm]
  clear hm
  generalize i.cfg.nphi = n at *
  generalize (fun j k => i.r1.Y1c j * i.cfg.dDvarphi j k * (linOf i).Y2sX20 k -
        i.r1.Y1s j * i.cfg.dDvarphi j k * (linOf i).Y2cX20 k) = e11
  generalize (fun j k => -2 * i.r1.Y1s j * i.cfg.dDvarphi j k) = e12
  generalize (fun j k => -i.r1.X1c j * i.cfg.dDvarphi j k + i.r1.Y1s j * i.cfg.dDvarphi j k * (linOf i).Y2sX20 k +
        i.r1.Y1c j * i.cfg.dDvarphi j k * (linOf i).Y2cX20 k) = e21
  generalize (fun (_ _ : Nat) => (0 : K)) = e22
  suffices H : ∀ m, m ≤ n → ∀ g11 g12 g21 g22, forLoop m (rowStep n e11 e12 e21 e22 g11 g12 g21 g22) old x y = old x y from
    H n le_rfl _ _ _ _
  intro m hm g11 g12 g21 g22
  induction m with
  | zero => rfl
  | succ m ih =>
    rw [forLoop_succ, ← ih (by omega)]
    generalize forLoop m (rowStep n e11 e12 e21 e22 g11 g12 g21 g22) old = w
    by_cases hx : x = m ∨ x = m + n
    · have h1 := inner_spec (show m < n by omega) (e11 m) (e12 m) (e21 m) (e22 m) w n le_rfl x y
      rw [if_neg (by omega), if_neg (by omega), if_neg (by omega), if_neg (by omega)] at h1
      unfold rowStep
      generalize forLoop n (put4 n m (e11 m) (e12 m) (e21 m) (e22 m)) w = v at *
      simp only [setE]
      rw [if_neg (by omega), if_neg (by omega), if_neg (by omega), if_neg (by omega), h1]
    · exact rowStep_other (by omega) _ _ _ _ _ _ _ _ w (by omega) (by omega) y

end Qsc.R2

namespace Qsc.ScanRun

open Qsc.Single (Lib)
open Qsc.Scan (Cand Cfg Local Counter bump save)
open Qsc.ScanPipeline (Proc)
open Qsc.ScanDraws (Drawn)
open Qsc.Spec.Scan

/-! ## The matrix -/

/-- Nothing outside the rows and columns that there are. -/
def Clean (n : Nat) (m : Nat → Nat → ℝ) : Prop := ∀ j k, ¬ (j < 2 * n ∧ k < 2 * n) → m j k = 0

theorem clip_clean (n : Nat) (m : Nat → Nat → ℝ) : Clean n (clip n m) := fun _ _ h => if_neg h

theorem matrix_fresh (i : R2.In ℝ) {n : Nat} (hn : i.cfg.nphi = n) {m : Nat → Nat → ℝ} (hm : Clean n m) :
    R2.matrix i m = R2.matrix i fun _ _ => 0 := by
  funext x y
  by_cases h : x < 2 * i.cfg.nphi ∧ y < 2 * i.cfg.nphi
  · rw [R2.matrix_entry i m h.1 h.2, R2.matrix_entry i _ h.1 h.2]
  · rw [R2.matrix_outside i m h, R2.matrix_outside i _ h, hm x y (hn ▸ h)]

/-! ## What the members hold after the calculations -/

/-- The first-order configuration of an attempt. -/
noncomputable def cfgAt (e : Env) (d : Drawn) (a : Axis.Axis ℝ) : R1.Cfg ℝ :=
  let q := atDraw e.q d e.n
  R1.Cfg.ofAxis a e.n q.nfp.toNat q.sG q.spsi q.eta_bar q.sigma0 q.I2 q.B0

/-- What second order takes over from first order. -/
noncomputable def inAt (e : Env) (d : Drawn) (a : Axis.Axis ℝ) (st : R1.Stored ℝ) : R2.In ℝ :=
  R2.In.of a (cfgAt e d a) st (R1.diagnostics e.L.ops (cfgAt e d a) st) (Single.mu0 e.L.ops) d.p2 d.B2s d.B2c

/-- The recorded members after `calculate_r2` and what follows. -/
noncomputable def afterR2 (e : Env) (i : R2.In ℝ) (a : Axis.Axis ℝ) (c : Cand ℝ) : Cand ℝ :=
  match e.L.gesv (2 * i.cfg.nphi) (R2.matrix i fun _ _ => 0) (R2.rhs i) with
  | none => c
  | some x =>
    let r := R2.finish e.L.ops i x
    let c := setGradGrad (GradGradB.minLgradGradB e.L.ops i r)
      (setMercier (R2.mercier e.L.ops i r.mean a.dPhi a.axisLength) (setR2 r c))
    match RSing.calculate e.L.ops (if e.L.single then RSing.tolSingle else RSing.tolDouble) e.L.geev i r with
    | .error _ => c
    | .ok s => setSing s c

/-- The recorded members after `solve_sigma_equation` and what follows. -/
noncomputable def afterSigma (e : Env) (d : Drawn) (a : Axis.Axis ℝ) (c : Cand ℝ) : Cand ℝ :=
  match (R1.solveSigma e.L.ops (cfgAt e d a) (Single.newtonSolve e.L e.n) e.q.newton_tolerance
      e.q.max_newton_iterations e.q.max_linesearch_iterations).2 with
  | none => c
  | some st =>
    let c := setFirst e.L.ops (cfgAt e d a) st (R1.diagnostics e.L.ops (cfgAt e d a) st) c
    if e.cfg.r2 then afterR2 e (inAt e d a st) a c else c

/-- What an attempt records if nothing stops it, on a `q` that holds `c0` before. -/
noncomputable def candOf (e : Env) (c0 : Cand ℝ) (d : Drawn) : Cand ℝ :=
  match Axis.initAxis e.L.ops (Single.coeffs (atDraw e.q d e.n)) e.n e.q.sG e.q.spsi e.q.B0 with
  | .error _ => setInputs d c0
  | .ok a => afterSigma e d a (setAxis a (setInputs d c0))

/-- The end of an attempt of `Scan.attempt`. -/
noncomputable def tail2 (cfg : Cfg ℝ) (c : Cand ℝ) (s : Local ℝ) : Local ℝ :=
  let o := ScanPipeline.realOps
  let s := bump .nR2 s
  if !cfg.keepAll && o.lt cfg.maxB20Variation c.b20Variation then bump .b20Variation s
  else if !cfg.keepAll && o.lt cfg.maxD2Volume c.d2Volume then bump .d2Volume s
  else if !cfg.keepAll && o.lt c.dMerc cfg.minDMerc then bump .dMerc s
  else if !cfg.keepAll && o.lt c.gridMinLGradGradB cfg.minLGradGradB then bump .lGradGradB s
  else if !cfg.keepAll && o.lt c.rSingularity cfg.minRSingularity then bump .rSingularity s
  else if !cfg.keepAll && o.lt c.beta cfg.minBeta then bump .beta s
  else save c s

noncomputable def tail1 (cfg : Cfg ℝ) (c : Cand ℝ) (s : Local ℝ) : Local ℝ :=
  let o := ScanPipeline.realOps
  let s := bump .nSigma s
  if !cfg.keepAll && o.lt (o.abs c.iota) cfg.minIota then bump .iota s
  else if !cfg.keepAll && o.lt cfg.maxElongation c.gridMaxElongation then bump .elongation s
  else if !cfg.keepAll && o.lt c.gridMinLGradB cfg.minLGradB then bump .lGradB s
  else if cfg.r2 then tail2 cfg c s
  else save c s

theorem attempt_tail (cfg : Cfg ℝ) (c : Cand ℝ) (s : Local ℝ) : Scan.attempt ScanPipeline.realOps cfg c s =
    (let o := ScanPipeline.realOps
     let s := bump .attempts s
     if o.le (Scan.r0At0 o c.R0c) o.zero || o.le (Scan.r0AtHalfPeriod o c.R0c) o.zero then bump .r0Crude s
     else if !cfg.keepAll && o.lt c.gridMinR0 cfg.minR0 then bump .r0 s
     else if !cfg.keepAll && ((cfg.helicityToKeep == 0 && c.helicity != 0) ||
         (cfg.helicityToKeep == 1 && c.helicity.natAbs != 1)) then bump .helicity s
     else if !cfg.keepAll && o.lt (o.inv c.gridMaxCurvature) cfg.minLGradB then bump .curvature s
     else tail1 cfg c s) := rfl

/-! ## One attempt -/

/-- The members that only the second order sets. -/
def SameSecond (c c' : Cand ℝ) : Prop :=
  c.b20Variation = c'.b20Variation ∧ c.b20Residual = c'.b20Residual ∧ c.d2Volume = c'.d2Volume ∧ c.dMerc = c'.dMerc ∧
  c.gridMinLGradGradB = c'.gridMinLGradGradB ∧ c.rSingularity = c'.rSingularity ∧ c.beta = c'.beta

theorem SameSecond.refl (c : Cand ℝ) : SameSecond c c := ⟨rfl, rfl, rfl, rfl, rfl, rfl, rfl⟩

/-- The members that second order does not set are the same. -/
def SameFirst (c c' : Cand ℝ) : Prop := ∀ r m x s,
  setSing s (setGradGrad x (setMercier m (setR2 r c))) = setSing s (setGradGrad x (setMercier m (setR2 r c')))

section
variable {e : Env} {i : R2.In ℝ} {a : Axis.Axis ℝ} {s s' : Local ℝ} {m m' : Members} {c : Cand ℝ} {d : Drawn}

theorem beyond_ok (hi : i.cfg.nphi = e.n) (hm : Clean e.n m.matrix) (hc : SameFirst m.cand c)
    (h : beyond e i a s m = .ok (s', m')) :
    s' = tail2 e.cfg (afterR2 e i a c) s ∧ Clean e.n m'.matrix ∧ m'.axis = m.axis ∧ m'.cand.p2 = m.cand.p2 := by
  unfold beyond at h
  rw [matrix_fresh i hi hm] at h
  dsimp only at h
  cases hg : e.L.gesv (2 * i.cfg.nphi) (R2.matrix i fun _ _ => 0) (R2.rhs i) with
  | none => rw [hg] at h; cases h
  | some x =>
    rw [hg] at h
    dsimp only at h
    have hcl := clip_clean e.n (e.left (R2.matrix i fun _ _ => 0))
    unfold afterR2
    rw [hg]
    dsimp only
    cases hs : RSing.calculate e.L.ops (if e.L.single then RSing.tolSingle else RSing.tolDouble) e.L.geev i
        (R2.finish e.L.ops i x) with
    | error msg =>
      rw [hs] at h
      dsimp only at h ⊢
      split at h
      · next h1 => cases h; exact ⟨(if_pos h1).symm, hcl, rfl, rfl⟩
      next h1 =>
      split at h
      · next h2 => cases h; exact ⟨((if_neg h1).trans (if_pos h2)).symm, hcl, rfl, rfl⟩
      next h2 =>
      split at h
      · next h3 => cases h; exact ⟨((if_neg h1).trans ((if_neg h2).trans (if_pos h3))).symm, hcl, rfl, rfl⟩
      next h3 =>
      split at h
      · next h4 =>
        cases h
        exact ⟨((if_neg h1).trans ((if_neg h2).trans ((if_neg h3).trans (if_pos h4)))).symm, hcl, rfl, rfl⟩
      cases h
    | ok sing =>
      rw [hs] at h
      dsimp only at h ⊢
      split at h
      · next h1 => cases h; exact ⟨(if_pos h1).symm, hcl, rfl, rfl⟩
      next h1 =>
      split at h
      · next h2 => cases h; exact ⟨((if_neg h1).trans (if_pos h2)).symm, hcl, rfl, rfl⟩
      next h2 =>
      split at h
      · next h3 => cases h; exact ⟨((if_neg h1).trans ((if_neg h2).trans (if_pos h3))).symm, hcl, rfl, rfl⟩
      next h3 =>
      split at h
      · next h4 =>
        cases h
        exact ⟨((if_neg h1).trans ((if_neg h2).trans ((if_neg h3).trans (if_pos h4)))).symm, hcl, rfl, rfl⟩
      next h4 =>
      split at h
      · next h5 =>
        cases h
        exact ⟨((if_neg h1).trans ((if_neg h2).trans ((if_neg h3).trans ((if_neg h4).trans (if_pos h5))))).symm,
          hcl, rfl, rfl⟩
      next h5 =>
      split at h
      · next h6 =>
        cases h
        exact ⟨((if_neg h1).trans ((if_neg h2).trans ((if_neg h3).trans ((if_neg h4).trans ((if_neg h5).trans
          (if_pos h6)))))).symm, hcl, rfl, rfl⟩
      next h6 =>
      cases h
      refine ⟨?_, hcl, rfl, rfl⟩
      rw [hc]
      exact ((if_neg h1).trans ((if_neg h2).trans ((if_neg h3).trans ((if_neg h4).trans ((if_neg h5).trans
          (if_neg h6)))))).symm

/-- The members that only `init_axis` and the draws set, and that are compared with thresholds. -/
def SameAxis (c c' : Cand ℝ) : Prop :=
  c.R0c = c'.R0c ∧ c.gridMinR0 = c'.gridMinR0 ∧ c.helicity = c'.helicity ∧ c.gridMaxCurvature = c'.gridMaxCurvature

/-- The members that only `solve_sigma_equation` and `r1_diagnostics` set, and that are compared with thresholds. -/
def SameSigma (c c' : Cand ℝ) : Prop :=
  c.iota = c'.iota ∧ c.gridMaxElongation = c'.gridMaxElongation ∧ c.gridMinLGradB = c'.gridMinLGradB

theorem afterR2_keeps (e : Env) (i : R2.In ℝ) (a : Axis.Axis ℝ) (c : Cand ℝ) :
    SameAxis (afterR2 e i a c) c ∧ SameSigma (afterR2 e i a c) c := by
  unfold afterR2
  cases e.L.gesv (2 * i.cfg.nphi) (R2.matrix i fun _ _ => 0) (R2.rhs i) with
  | none => exact ⟨⟨rfl, rfl, rfl, rfl⟩, rfl, rfl, rfl⟩
  | some x =>
    dsimp only
    cases RSing.calculate e.L.ops (if e.L.single then RSing.tolSingle else RSing.tolDouble) e.L.geev i
        (R2.finish e.L.ops i x) <;> exact ⟨⟨rfl, rfl, rfl, rfl⟩, rfl, rfl, rfl⟩

theorem afterSigma_keeps (e : Env) (d : Drawn) (a : Axis.Axis ℝ) (c : Cand ℝ) : SameAxis (afterSigma e d a c) c := by
  unfold afterSigma
  cases (R1.solveSigma e.L.ops (cfgAt e d a) (Single.newtonSolve e.L e.n) e.q.newton_tolerance
      e.q.max_newton_iterations e.q.max_linesearch_iterations).2 with
  | none => exact ⟨rfl, rfl, rfl, rfl⟩
  | some st =>
    dsimp only
    split
    · exact (afterR2_keeps e _ a _).1
    · exact ⟨rfl, rfl, rfl, rfl⟩

theorem afterSigma_r0c (e : Env) (d : Drawn) (a : Axis.Axis ℝ) (c0 : Cand ℝ) :
    (afterSigma e d a (setAxis a (setInputs d c0))).R0c = d.R0c := (afterSigma_keeps e d a _).1

theorem candOf_r0c (e : Env) (c0 : Cand ℝ) (d : Drawn) : (candOf e c0 d).R0c = d.R0c := by
  unfold candOf
  split
  · rfl
  · exact afterSigma_r0c e d _ c0

theorem first_eq (e : Env) (d : Drawn) (a : Axis.Axis ℝ) (s : Local ℝ) (m : Members) : first e d a s m =
    (let o := ScanPipeline.realOps
     let p := cfgAt e d a
     if Single.newtonThrows e.L p e.q.newton_tolerance e.q.max_newton_iterations e.q.max_linesearch_iterations then
       .error (.throw "LAPACK error in *gesv")
     else
       match (R1.solveSigma e.L.ops p (Single.newtonSolve e.L e.n) e.q.newton_tolerance e.q.max_newton_iterations
           e.q.max_linesearch_iterations).2 with
       | none => .error (.outside "no residual was evaluated")
       | some st =>
         let s := bump .nSigma s
         let m := { m with cand := setFirst e.L.ops p st (R1.diagnostics e.L.ops p st) m.cand }
         if !e.cfg.keepAll && o.lt (o.abs m.cand.iota) e.cfg.minIota then .ok (bump .iota s, m)
         else if !e.cfg.keepAll && o.lt e.cfg.maxElongation m.cand.gridMaxElongation then .ok (bump .elongation s, m)
         else if !e.cfg.keepAll && o.lt m.cand.gridMinLGradB e.cfg.minLGradB then .ok (bump .lGradB s, m)
         else if e.cfg.r2 then beyond e (inAt e d a st) a s m
         else .ok (save m.cand s, m)) := by
  unfold first
  dsimp only
  congr 1
  change (match R1.solveSigma e.L.ops (cfgAt e d a) (Single.newtonSolve e.L e.n) e.q.newton_tolerance
    e.q.max_newton_iterations e.q.max_linesearch_iterations with
    | (_, none) => _
    | (_, some st) => _) = _
  generalize R1.solveSigma e.L.ops (cfgAt e d a) (Single.newtonSolve e.L e.n) e.q.newton_tolerance
    e.q.max_newton_iterations e.q.max_linesearch_iterations = z
  obtain ⟨_, _ | st⟩ := z <;> rfl

theorem first_ok {b c0 : Cand ℝ} (hm : Clean e.n m.matrix) (hb : m.cand = setAxis a (setInputs d b))
    (h0 : e.cfg.r2 = false → SameSecond b c0) (h : first e d a s m = .ok (s', m')) :
    s' = tail1 e.cfg (afterSigma e d a (setAxis a (setInputs d c0))) s ∧ Clean e.n m'.matrix ∧ m'.axis = m.axis ∧
      m'.cand.p2 = m.cand.p2 ∧ (e.cfg.r2 = false → SameSecond m'.cand m.cand) := by
  rw [first_eq] at h
  dsimp only at h
  split at h
  · cases h
  unfold afterSigma
  generalize (R1.solveSigma e.L.ops (cfgAt e d a) (Single.newtonSolve e.L e.n) e.q.newton_tolerance
    e.q.max_newton_iterations e.q.max_linesearch_iterations).2 = z2 at h ⊢
  cases z2 with
  | none => cases h
  | some st =>
    dsimp only at h ⊢
    have hk : SameSigma (if e.cfg.r2 = true then afterR2 e (inAt e d a st) a (setFirst e.L.ops (cfgAt e d a) st
        (R1.diagnostics e.L.ops (cfgAt e d a) st) (setAxis a (setInputs d c0))) else setFirst e.L.ops (cfgAt e d a) st
        (R1.diagnostics e.L.ops (cfgAt e d a) st) (setAxis a (setInputs d c0))) (setFirst e.L.ops (cfgAt e d a) st
        (R1.diagnostics e.L.ops (cfgAt e d a) st) m.cand) := by
      split
      · exact (afterR2_keeps e _ a _).2
      · exact ⟨rfl, rfl, rfl⟩
    have hr2 : e.cfg.r2 = true → (if e.cfg.r2 = true then afterR2 e (inAt e d a st) a (setFirst e.L.ops (cfgAt e d a) st
        (R1.diagnostics e.L.ops (cfgAt e d a) st) (setAxis a (setInputs d c0))) else setFirst e.L.ops (cfgAt e d a) st
        (R1.diagnostics e.L.ops (cfgAt e d a) st) (setAxis a (setInputs d c0))) = afterR2 e (inAt e d a st) a
        (setFirst e.L.ops (cfgAt e d a) st (R1.diagnostics e.L.ops (cfgAt e d a) st) (setAxis a (setInputs d c0))) :=
      fun h => if_pos h
    have hr1 : e.cfg.r2 = false → (if e.cfg.r2 = true then afterR2 e (inAt e d a st) a (setFirst e.L.ops (cfgAt e d a) st
        (R1.diagnostics e.L.ops (cfgAt e d a) st) (setAxis a (setInputs d c0))) else setFirst e.L.ops (cfgAt e d a) st
        (R1.diagnostics e.L.ops (cfgAt e d a) st) (setAxis a (setInputs d c0))) =
        setFirst e.L.ops (cfgAt e d a) st (R1.diagnostics e.L.ops (cfgAt e d a) st) (setAxis a (setInputs d c0)) := by
      intro h; rw [if_neg (by rw [h]; decide)]
    generalize (if e.cfg.r2 = true then afterR2 e (inAt e d a st) a (setFirst e.L.ops (cfgAt e d a) st
        (R1.diagnostics e.L.ops (cfgAt e d a) st) (setAxis a (setInputs d c0))) else setFirst e.L.ops (cfgAt e d a) st
        (R1.diagnostics e.L.ops (cfgAt e d a) st) (setAxis a (setInputs d c0))) = cc at hk hr2 hr1 ⊢
    obtain ⟨k1, k2, k3⟩ := hk
    have hsec : SameSecond (setFirst e.L.ops (cfgAt e d a) st (R1.diagnostics e.L.ops (cfgAt e d a) st) m.cand) m.cand :=
      ⟨rfl, rfl, rfl, rfl, rfl, rfl, rfl⟩
    unfold tail1
    dsimp only
    rw [k1, k2, k3]
    split at h
    · next h1 => cases h; exact ⟨(if_pos h1).symm, hm, rfl, rfl, fun _ => hsec⟩
    next h1 =>
    split at h
    · next h2 => cases h; exact ⟨((if_neg h1).trans (if_pos h2)).symm, hm, rfl, rfl, fun _ => hsec⟩
    next h2 =>
    split at h
    · next h3 =>
      cases h
      exact ⟨((if_neg h1).trans ((if_neg h2).trans (if_pos h3))).symm, hm, rfl, rfl, fun _ => hsec⟩
    next h3 =>
    split at h
    · next h4 =>
      have := beyond_ok (i := inAt e d a st) (c := setFirst e.L.ops (cfgAt e d a) st (R1.diagnostics e.L.ops (cfgAt e d a) st)
        (setAxis a (setInputs d c0))) rfl (by exact hm) (by intro r m' x s; rw [hb]; rfl) h
      rw [hr2 h4]
      refine ⟨?_, this.2.1, this.2.2.1, this.2.2.2, fun h => absurd h4 (by rw [h]; decide)⟩
      rw [this.1]
      exact ((if_neg h1).trans ((if_neg h2).trans ((if_neg h3).trans (if_pos h4)))).symm
    · next h4 =>
      cases h
      have h4' : e.cfg.r2 = false := by simpa using h4
      refine ⟨?_, hm, rfl, rfl, fun _ => hsec⟩
      rw [hr1 h4']
      refine Eq.trans ?_ ((if_neg h1).trans ((if_neg h2).trans ((if_neg h3).trans (if_neg h4)))).symm
      congr 1
      rw [hb]
      obtain ⟨e1, e2, e3, e4, e5, e6, e7⟩ := h0 h4'
      simp only [setFirst, setAxis, setInputs, e1, e2, e3, e4, e5, e6, e7]

/-- What the last `init_axis` was called for. -/
def AxisOf (e : Env) (d : Drawn) (a : Axis.Axis ℝ) : Prop :=
  Axis.initAxis e.L.ops (Single.coeffs (atDraw e.q d e.n)) e.n e.q.sG e.q.spsi e.q.B0 = .ok a

/-- An attempt does what it would do on a `q` that holds `c0`, which differs from what it holds in nothing but
members of no importance. -/
theorem attempt_ok {c0 : Cand ℝ} (hm : Clean e.n m.matrix) (h0 : e.cfg.r2 = false → SameSecond m.cand c0)
    (h : attempt e d s m = .ok (s', m')) :
    s' = Scan.attempt ScanPipeline.realOps e.cfg (candOf e c0 d) s ∧ Clean e.n m'.matrix ∧
      (e.cfg.r2 = false → SameSecond m'.cand c0) ∧ m'.cand.p2 = d.p2 ∧
      (m'.axis = m.axis ∧ Rejects ScanPipeline.realOps e.cfg (candOf e c0 d) .r0Crude = true ∨
        ∃ a, AxisOf e d a ∧ m'.axis = some a) := by
  unfold attempt at h
  rw [attempt_tail]
  dsimp only at h ⊢
  rw [candOf_r0c]
  split at h
  · next h1 =>
    cases h
    refine ⟨(if_pos h1).symm, hm, h0, rfl, Or.inl ⟨rfl, ?_⟩⟩
    unfold Rejects
    rw [candOf_r0c]
    exact h1
  next h1 =>
  cases ha : Axis.initAxis e.L.ops (Single.coeffs (atDraw e.q d e.n)) e.n e.q.sG e.q.spsi e.q.B0 with
  | error x => exact absurd (h.symm.trans (by erw [ha])) (by intro h; cases h)
  | ok a =>
    erw [ha] at h
    dsimp only at h
    unfold candOf
    rw [ha]
    dsimp only
    obtain ⟨k1, k2, k3, k4⟩ := afterSigma_keeps e d a (setAxis a (setInputs d c0))
    rw [k2, k3, k4]
    split at h
    · next h2 => cases h; exact ⟨((if_neg h1).trans (if_pos h2)).symm, hm, h0, rfl, Or.inr ⟨a, ha, rfl⟩⟩
    next h2 =>
    split at h
    · next h3 =>
      cases h
      exact ⟨((if_neg h1).trans ((if_neg h2).trans (if_pos h3))).symm, hm, h0, rfl, Or.inr ⟨a, ha, rfl⟩⟩
    next h3 =>
    split at h
    · next h4 =>
      cases h
      exact ⟨((if_neg h1).trans ((if_neg h2).trans ((if_neg h3).trans (if_pos h4)))).symm, hm, h0, rfl,
        Or.inr ⟨a, ha, rfl⟩⟩
    next h4 =>
    have := first_ok (b := m.cand) (c0 := c0) (by exact hm) rfl h0 h
    refine ⟨?_, this.2.1, fun hr => ?_, this.2.2.2.1, Or.inr ⟨a, ha, this.2.2.1⟩⟩
    · rw [this.1]
      exact ((if_neg h1).trans ((if_neg h2).trans ((if_neg h3).trans (if_neg h4)))).symm
    · obtain ⟨a1, a2, a3, a4, a5, a6, a7⟩ := this.2.2.2.2 hr
      obtain ⟨b1, b2, b3, b4, b5, b6, b7⟩ := h0 hr
      exact ⟨a1.trans b1, a2.trans b2, a3.trans b3, a4.trans b4, a5.trans b5, a6.trans b6, a7.trans b7⟩

/-! ## `Qsc::calculate` -/

/-- The recorded members after `Qsc::calculate`. -/
noncomputable def report (o : Ops ℝ) (c0 : Cand ℝ) (d : Drawn) (r : Single.Result ℝ) : Cand ℝ :=
  let c := setFirst o r.cfg r.st r.r1 (setAxis r.axis (setInputs d c0))
  match r.second with
  | none => c
  | some x => setSing x.sing (setGradGrad (GradGradB.minLgradGradB o x.inp x.r2) (setMercier x.merc (setR2 x.r2 c)))

/-- `Qsc::calculate` at a draw. -/
theorem calculate_eq (e : Env) (d : Drawn) (ord : Setup.Order) : Single.calculate e.L (atDraw e.q d e.n) e.n ord =
    match Axis.initAxis e.L.ops (Single.coeffs (atDraw e.q d e.n)) e.n e.q.sG e.q.spsi e.q.B0 with
    | .error x => .error (.run x)
    | .ok a =>
      if Single.newtonThrows e.L (cfgAt e d a) e.q.newton_tolerance e.q.max_newton_iterations
          e.q.max_linesearch_iterations then .error (.throw "LAPACK error in *gesv")
      else
        match R1.solveSigma e.L.ops (cfgAt e d a) (Single.newtonSolve e.L e.n) e.q.newton_tolerance
            e.q.max_newton_iterations e.q.max_linesearch_iterations with
        | (_, none) => .error (.outside "no residual was evaluated")
        | (z, some st) =>
          if ord.atLeastR2 then
            match Single.second e.L (inAt e d a st) a ord.r2p1 with
            | .error x => .error x
            | .ok x => .ok ⟨a, z, cfgAt e d a, st, R1.diagnostics e.L.ops (cfgAt e d a) st, some x⟩
          else .ok ⟨a, z, cfgAt e d a, st, R1.diagnostics e.L.ops (cfgAt e d a) st, none⟩ := by
  unfold Single.calculate
  generalize hz : Axis.initAxis e.L.ops (Single.coeffs (atDraw e.q d e.n)) e.n e.q.sG e.q.spsi e.q.B0 = z
  rw [show Axis.initAxis e.L.ops (Single.coeffs (atDraw e.q d e.n)) e.n (atDraw e.q d e.n).sG
    (atDraw e.q d e.n).spsi (atDraw e.q d e.n).B0 = z from hz]
  cases z with
  | error x => rfl
  | ok a =>
    dsimp only
    generalize hp : R1.Cfg.ofAxis a e.n (atDraw e.q d e.n).nfp.toNat (atDraw e.q d e.n).sG (atDraw e.q d e.n).spsi
      (atDraw e.q d e.n).eta_bar (atDraw e.q d e.n).sigma0 (atDraw e.q d e.n).I2 (atDraw e.q d e.n).B0 = p
    have hi : ∀ st, inAt e d a st = R2.In.of a p st (R1.diagnostics e.L.ops p st) (Single.mu0 e.L.ops)
        (atDraw e.q d e.n).p2 (atDraw e.q d e.n).B2s (atDraw e.q d e.n).B2c := by subst hp; exact fun _ => rfl
    rw [show cfgAt e d a = p from hp]
    generalize hy : R1.solveSigma e.L.ops p (Single.newtonSolve e.L e.n) e.q.newton_tolerance
            e.q.max_newton_iterations e.q.max_linesearch_iterations = y
    rw [show R1.solveSigma e.L.ops p (Single.newtonSolve e.L e.n) (atDraw e.q d e.n).newton_tolerance
            (atDraw e.q d e.n).max_newton_iterations (atDraw e.q d e.n).max_linesearch_iterations = y from hy]
    obtain ⟨_, _ | st⟩ := y
    · rfl
    · dsimp only
      rw [← hi]
      generalize Single.second e.L (inAt e d a st) a ord.r2p1 = x
      cases x <;> rfl

theorem calculate_report {c0 : Cand ℝ} {ord : Setup.Order} {r : Single.Result ℝ} (ho : ord.atLeastR2 = e.cfg.r2)
    (h : Single.calculate e.L (atDraw e.q d e.n) e.n ord = .ok r) :
    candOf e c0 d = report e.L.ops c0 d r ∧ AxisOf e d r.axis := by
  rw [calculate_eq] at h
  unfold candOf AxisOf
  cases ha : Axis.initAxis e.L.ops (Single.coeffs (atDraw e.q d e.n)) e.n e.q.sG e.q.spsi e.q.B0 with
  | error x => rw [ha] at h; cases h
  | ok a =>
    rw [ha] at h
    dsimp only at h ⊢
    split at h
    · cases h
    unfold afterSigma
    generalize R1.solveSigma e.L.ops (cfgAt e d a) (Single.newtonSolve e.L e.n) e.q.newton_tolerance
      e.q.max_newton_iterations e.q.max_linesearch_iterations = z at h ⊢
    obtain ⟨z1, _ | st⟩ := z
    · cases h
    dsimp only at h ⊢
    rw [← ho]
    split at h
    · next h1 =>
      rw [if_pos h1]
      unfold Single.second at h
      unfold afterR2
      generalize inAt e d a st = i at h ⊢
      cases hg : e.L.gesv (2 * i.cfg.nphi) (R2.matrix i fun _ _ => 0) (R2.rhs i) with
      | none => rw [hg] at h; cases h
      | some x =>
        rw [hg] at h
        dsimp only at h ⊢
        cases hs : RSing.calculate e.L.ops (if e.L.single then RSing.tolSingle else RSing.tolDouble) e.L.geev i
          (R2.finish e.L.ops i x) with
        | error msg => rw [hs] at h; cases h
        | ok sing => rw [hs] at h; cases h; exact ⟨rfl, rfl⟩
    · next h1 =>
      rw [if_neg h1]
      cases h
      exact ⟨rfl, rfl⟩

theorem passes_rejects {cfg : Cfg ℝ} {c : Cand ℝ} (h : Passes ScanPipeline.realOps cfg c = true) (k : Counter) :
    ¬ Rejects ScanPipeline.realOps cfg c k = true := by
  unfold Passes at h
  rw [Bool.not_eq_true', List.any_eq_false] at h
  exact h k (by cases k <;> decide)

/-- What was attempted and passes was calculated to the end. -/
theorem attempt_calculated {c0 : Cand ℝ} {ord : Setup.Order} (ho : ord.atLeastR2 = e.cfg.r2) (hm : Clean e.n m.matrix)
    (h : attempt e d s m = .ok (s', m')) (hp : Passes ScanPipeline.realOps e.cfg (candOf e c0 d) = true) :
    ∃ r, Single.calculate e.L (atDraw e.q d e.n) e.n ord = .ok r := by
  have P := passes_rejects hp
  rw [calculate_eq]
  unfold attempt at h
  dsimp only at h
  split at h
  · next h1 =>
    refine absurd ?_ (P .r0Crude)
    unfold Rejects
    rw [candOf_r0c]
    exact h1
  cases ha : Axis.initAxis e.L.ops (Single.coeffs (atDraw e.q d e.n)) e.n e.q.sG e.q.spsi e.q.B0 with
  | error x => exact absurd (h.symm.trans (by erw [ha])) (by intro h; cases h)
  | ok a =>
    erw [ha] at h
    dsimp only at h ⊢
    have hc : candOf e c0 d = afterSigma e d a (setAxis a (setInputs d c0)) := by unfold candOf; rw [ha]
    rw [hc] at P
    clear hc hp
    have kA := afterSigma_keeps e d a (setAxis a (setInputs d c0))
    split at h
    · next h2 => refine absurd ?_ (P .r0); unfold Rejects; rw [kA.2.1]; exact h2
    split at h
    · next h2 =>
      refine absurd ?_ (P .helicity)
      unfold Rejects
      rw [kA.2.2.1]
      have := Scan.natAbs_bne_one (setAxis a (setInputs d c0)).helicity
      rw [Bool.and_assoc, ← this]
      exact h2
    split at h
    · next h2 => refine absurd ?_ (P .curvature); unfold Rejects; rw [kA.2.2.2]; exact h2
    rw [first_eq] at h
    dsimp only at h
    split at h
    · cases h
    next ht =>
    rw [if_neg ht]
    unfold afterSigma at P
    clear ht kA
    generalize R1.solveSigma e.L.ops (cfgAt e d a) (Single.newtonSolve e.L e.n) e.q.newton_tolerance
      e.q.max_newton_iterations e.q.max_linesearch_iterations = z at h P ⊢
    obtain ⟨z1, _ | st⟩ := z
    · cases h
    dsimp only at h P ⊢
    rw [ho]
    cases hr : e.cfg.r2 with
    | false => exact ⟨_, rfl⟩
    | true =>
      rw [hr, if_pos rfl] at P
      rw [if_pos rfl]
      have kS := (afterR2_keeps e (inAt e d a st) a (setFirst e.L.ops (cfgAt e d a) st
        (R1.diagnostics e.L.ops (cfgAt e d a) st) (setAxis a (setInputs d c0)))).2
      split at h
      · next h2 => refine absurd ?_ (P .iota); unfold Rejects; rw [kS.1]; exact h2
      split at h
      · next h2 => refine absurd ?_ (P .elongation); unfold Rejects; rw [kS.2.1]; exact h2
      split at h
      · next h2 => refine absurd ?_ (P .lGradB); unfold Rejects; rw [kS.2.2]; exact h2
      have hi : (inAt e d a st).cfg.nphi = e.n := rfl
      clear kS
      generalize inAt e d a st = i at h P hi ⊢
      unfold beyond at h
      unfold afterR2 at P
      unfold Single.second
      dsimp only at h
      rw [matrix_fresh i hi hm] at h
      cases hg : e.L.gesv (2 * i.cfg.nphi) (R2.matrix i fun _ _ => 0) (R2.rhs i) with
      | none => rw [hg] at h; cases h
      | some x =>
        rw [hg] at h P
        dsimp only at h P ⊢
        cases hs : RSing.calculate e.L.ops (if e.L.single then RSing.tolSingle else RSing.tolDouble) e.L.geev i
          (R2.finish e.L.ops i x) with
        | ok sing => exact ⟨_, rfl⟩
        | error msg =>
          rw [hs] at h P
          dsimp only at h P
          split at h
          · next h2 => exact absurd (by unfold Rejects; rw [hr]; exact h2) (P .b20Variation)
          split at h
          · next h2 => exact absurd (by unfold Rejects; rw [hr]; exact h2) (P .d2Volume)
          split at h
          · next h2 => exact absurd (by unfold Rejects; rw [hr]; exact h2) (P .dMerc)
          split at h
          · next h2 => exact absurd (by unfold Rejects; rw [hr]; exact h2) (P .lGradGradB)
          cases h

end

end Qsc.ScanRun
