import Verif.Lemmas.Symmetry
import Verif.Props.SingleFirst

/-!
# Lemmas on stellarator symmetry: the solution of first order
-/

namespace Qsc.Newton

variable {X R D K : Type}

theorem jacStates_append (a b : List (Event X)) :
    Single.jacStates (a ++ b) = Single.jacStates a ++ Single.jacStates b := by
  induction a with
  | nil => rfl
  | cons h t ih => cases h <;> simp [Single.jacStates, ih]

theorem lineSearch_extends (e : Env X R D K) (x0 : X) (d : D) (last : K) (f k : Nat) (c : Cur X R K) :
    ∃ t, (lineSearch e x0 d last f k c).trace = c.trace ++ t := by
  induction f generalizing k c with
  | zero => exact ⟨[], by simp [lineSearch]⟩
  | succ f ih =>
    rw [lineSearch]
    split
    · exact ⟨_, rfl⟩
    · obtain ⟨t, ht⟩ := ih (k + 1) ⟨e.move x0 d k, e.res (e.move x0 d k), e.nrm (e.res (e.move x0 d k)),
        c.trace ++ [.res (e.move x0 d k)]⟩
      exact ⟨_, by rw [ht, List.append_assoc]⟩

theorem lineSearch_inv (e : Env X R D K) (S : X → Prop) (x0 : X) (d : D) (hd : ∀ k, S (e.move x0 d k)) (last : K)
    (f k : Nat) (c : Cur X R K) (h : S c.x) : S (lineSearch e x0 d last f k c).x := by
  induction f generalizing k c with
  | zero => exact h
  | succ f ih =>
    rw [lineSearch]
    split
    · exact hd k
    · exact ih _ _ (hd k)

theorem loop_extends (e : Env X R D K) (L f j : Nat) (c : Cur X R K) :
    ∃ t, (loop e L f j c).trace = c.trace ++ t := by
  induction f generalizing j c with
  | zero => exact ⟨[], by simp [loop]⟩
  | succ f ih =>
    obtain ⟨t, ht⟩ := lineSearch_extends e c.x (e.dir j c.x c.r) c.n L 0 ⟨c.x, c.r, c.n, c.trace ++ [.jac c.x, .solve]⟩
    rw [loop]
    dsimp only
    split
    · exact ⟨[], by simp⟩
    · split
      · exact ⟨_, by rw [ht, List.append_assoc]⟩
      · obtain ⟨s, hs⟩ := ih (j + 1) (lineSearch e c.x (e.dir j c.x c.r) c.n L 0 ⟨c.x, c.r, c.n, c.trace ++ [.jac c.x, .solve]⟩)
        exact ⟨_, by rw [hs, ht, List.append_assoc, List.append_assoc]⟩

/-- A set of states that every step of the solver stays in, if the linear solves are fine. -/
theorem loop_inv (e : Env X R D K) (S G : X → Prop)
    (hd : ∀ j x, S x → G x → ∀ k, S (e.move x (e.dir j x (e.res x)) k)) (L f j : Nat) (c : Cur X R K) (hg : Good e c)
    (hs : S c.x) (hG : ∀ x ∈ Single.jacStates (loop e L f j c).trace, G x) :
    ∃ y, lastEvaluated (loop e L f j c).trace = some y ∧ S y := by
  induction f generalizing j c with
  | zero => exact ⟨c.x, hg.seen, hs⟩
  | succ f ih =>
    have hg' := lineSearch_good e c.x (e.dir j c.x c.r) c.n L 0 _ hg.restart
    obtain ⟨t, ht⟩ := lineSearch_extends e c.x (e.dir j c.x c.r) c.n L 0 ⟨c.x, c.r, c.n, c.trace ++ [.jac c.x, .solve]⟩
    obtain ⟨s, hs'⟩ := loop_extends e L f (j + 1)
      (lineSearch e c.x (e.dir j c.x c.r) c.n L 0 ⟨c.x, c.r, c.n, c.trace ++ [.jac c.x, .solve]⟩)
    rw [loop] at hG ⊢
    dsimp only at hG ⊢
    split
    · exact ⟨c.x, hg.seen, hs⟩
    · rename_i h1
      rw [if_neg h1] at hG
      have hGc : G c.x := by
        refine hG _ ?_
        split
        · dsimp only
          rw [ht]
          simp [jacStates_append, Single.jacStates]
        · rw [hs', ht]
          simp [jacStates_append, Single.jacStates]
      have hS := lineSearch_inv e S c.x (e.dir j c.x c.r) (hg.r ▸ hd j c.x hs hGc) c.n L 0
        ⟨c.x, c.r, c.n, c.trace ++ [.jac c.x, .solve]⟩ hs
      split
      · exact ⟨_, hg'.seen, hS⟩
      · rename_i h2
        rw [if_neg h2] at hG
        exact ih _ _ hg' hS hG

end Qsc.Newton

namespace Qsc.Symmetry
open Qsc.Spec.Symmetry Qsc.Single

/-- The settings of a symmetric configuration. -/
structure SymCfg (n : Nat) (p : R1.Cfg ℝ) : Prop where
  pos : 0 < n
  nphi : p.nphi = n
  curvature : Even n p.curvature
  torsion : Even n p.torsion
  dl : Even n p.dl
  D : Flips n p.dDvarphi
  sigma0 : p.sigma0 = 0

theorem symCfg {n : Nat} (hn : 0 < n) {a : Axis.Axis ℝ} {nfp : Nat} (h : SymAxis n nfp a) (sG spsi : Int) (e I2 B0 : ℝ) :
    SymCfg n (R1.Cfg.ofAxis a n nfp sG spsi e 0 I2 B0) where
  pos := hn
  nphi := rfl
  curvature := fun j hj => by simp only [R1.Cfg.ofAxis, h.loc j hj, flipLocal]
  torsion := fun j hj => by simp only [R1.Cfg.ofAxis, h.loc j hj, flipLocal]
  dl := fun j hj => by simp only [R1.Cfg.ofAxis, h.loc j hj, flipLocal]
  D := h.dvarphi
  sigma0 := rfl

/-- A state of the solver with odd `sigma`. -/
def SymState (n : Nat) (x : Nat → ℝ) : Prop := ∀ j, 0 < j → j < n → x (mirror n j) = -x j

variable {n : Nat} {p : R1.Cfg ℝ}

theorem sigma_odd (hp : SymCfg n p) {x : Nat → ℝ} (hx : SymState n x) : Odd n (R1.store p x).sigma := by
  intro j hj
  simp only [R1.store]
  rcases Nat.eq_zero_or_pos j with rfl | h
  · rw [mirror_zero, if_pos rfl, hp.sigma0, neg_zero]
  · rw [if_neg (by rw [mirror_eq_zero hj]; omega), if_neg (by omega), hx j h hj]

theorem etaSq_even (hp : SymCfg n p) : Even n (R1.etaSq p) := by
  intro j hj; simp only [R1.etaSq, hp.curvature j hj]

theorem residual_even (hp : SymCfg n p) {x : Nat → ℝ} (hx : SymState n x) : Even n (R1.residual p x) := by
  intro j hj
  have h1 := sigma_odd hp hx
  have h2 := hp.D.odd h1 j hj
  simp only [R1.residual]
  rw [hp.nphi, h2, h1 j hj, etaSq_even hp j hj, hp.torsion j hj]
  ring

theorem jacobian_first (hp : SymCfg n p) {x : Nat → ℝ} (hx : SymState n x) {j : Nat} (hj : j < n) :
    R1.jacobian p (R1.store p x) (mirror n j) 0 = R1.jacobian p (R1.store p x) j 0 := by
  simp only [R1.jacobian, if_true]
  rw [sigma_odd hp hx j hj, etaSq_even hp j hj]
  ring

theorem jacobian_rest (hp : SymCfg n p) {x : Nat → ℝ} (hx : SymState n x) {j k : Nat} (hj : j < n) (hk : k < n)
    (h0 : 0 < k) :
    R1.jacobian p (R1.store p x) (mirror n j) (mirror n k) = -R1.jacobian p (R1.store p x) j k := by
  unfold R1.jacobian
  rw [if_neg (by rw [mirror_eq_zero hk]; omega), if_neg (show k ≠ 0 by omega)]
  by_cases e : j = k
  · subst e
    rw [if_pos rfl, if_pos rfl, hp.D j hj j hj, sigma_odd hp hx j hj]
    ring
  · have : mirror n j ≠ mirror n k := fun h => e (by rw [← mirror_mirror hj, h, mirror_mirror hk])
    rw [if_neg e, if_neg this, hp.D j hj k hk]

/-- The direction keeps `sigma` odd. -/
theorem direction {gesv : Nat → (Nat → Nat → ℝ) → (Nat → ℝ) → Option (Nat → ℝ)} (hE : Exact gesv) (hp : SymCfg n p)
    {x d : Nat → ℝ} (hx : SymState n x)
    (h : gesv n (R1.jacobian p (R1.store p x)) (fun j => -R1.residual p x j) = some d) : SymState n d := by
  obtain ⟨h1, h2⟩ := hE _ _ _ _ h
  have := h2 (fun j => if j = 0 then d 0 else -d (mirror n j)) fun i hi => by
    have e := h1 (mirror n i) (mirror_lt hi)
    rw [residual_even hp hx i hi, ← sum_mirror] at e
    rw [← e]
    refine Finset.sum_congr rfl fun j hj => ?_
    have hj := Finset.mem_range.1 hj
    rcases Nat.eq_zero_or_pos j with rfl | h0
    · rw [mirror_zero, jacobian_first hp hx hi, if_pos rfl]
    · rw [jacobian_rest hp hx hi hj h0, if_neg (by omega)]; ring
  intro j h0 hj
  have := this j hj
  rw [if_neg (by omega)] at this
  linarith

/-- `sigma` is odd after the solver. -/
theorem sigma_after {L : Lib ℝ} (ho : L.ops = realOps) (hE : Exact L.gesv) (hp : SymCfg n p) {tol : ℝ} {N M : Int}
    (ht : newtonThrows L p tol N M = false) {s : Newton.Status} {st : R1.Stored ℝ}
    (h : R1.solveSigma realOps p (newtonSolve L n) tol N M = (s, some st)) : Odd n st.sigma := by
  unfold newtonThrows at ht
  rw [hp.nphi, ho] at ht
  rw [List.any_eq_false] at ht
  have := Newton.loop_inv (R1.env realOps p (newtonSolve L n) tol) (SymState n)
    (fun x => ∃ d, L.gesv n (R1.jacobian p (R1.store p x)) (fun j => -R1.residual p x j) = some d) ?_ M.toNat N.toNat 0
    ⟨R1.start p, R1.residual p (R1.start p), _, [.res (R1.start p)]⟩
    (Newton.start_good (R1.env realOps p (newtonSolve L n) tol) (R1.start p)) ?_ ?_
  · obtain ⟨y, hy, hs⟩ := this
    unfold R1.solveSigma at h
    injection h with h1 h2
    have e : Newton.lastEvaluated (Newton.newton (R1.env realOps p (newtonSolve L n) tol) N M (R1.start p)).trace = some y := hy
    rw [e, Option.map_some] at h2
    injection h2 with h2
    rw [← h2]
    exact sigma_odd hp hs
  · rintro i x hx ⟨d, hd⟩ k j h0 hj
    have hs := direction hE hp hx hd
    simp only [R1.env, newtonSolve]
    rw [hd, Option.getD_some, hx j h0 hj, hs j h0 hj]
    ring
  · intro j h0 hj
    simp only [R1.start]
    rw [if_neg (by rw [mirror_eq_zero hj]; omega), if_neg (by omega), hp.sigma0, neg_zero]
  · intro x hx
    have := ht x hx
    simpa [Option.isNone_iff_eq_none, Option.ne_none_iff_exists'] using this

/-- What is even and odd in the solution of first order. -/
structure SymFirst (n : Nat) (p : R1.Cfg ℝ) (r : R1.R1 ℝ) : Prop where
  X1s : Odd n r.X1s
  X1c : Even n r.X1c
  Y1s : Even n r.Y1s
  Y1c : Odd n r.Y1c
  elongation : Even n r.elongation
  dX1c : Odd n r.dX1c
  dY1s : Odd n r.dY1s
  dY1c : Even n r.dY1c

theorem symFirst (hp : SymCfg n p) {st : R1.Stored ℝ} (hs : Odd n st.sigma) :
    SymFirst n p (R1.diagnostics realOps p st) := by
  have hX : Even n (R1.diagnostics realOps p st).X1c := fun j hj => by
    simp only [R1.diagnostics, hp.curvature j hj]
  have hYs : Even n (R1.diagnostics realOps p st).Y1s := fun j hj => by
    simp only [R1.diagnostics, hp.curvature j hj]
  have hYc : Odd n (R1.diagnostics realOps p st).Y1c := fun j hj => by
    simp only [R1.diagnostics, hp.curvature j hj, hs j hj]; ring
  have hD := hp.D
  refine ⟨fun j hj => by simp [R1.diagnostics], hX, hYs, hYc, fun j hj => ?_, ?_, ?_, ?_⟩
  · simp only [R1.diagnostics, hp.curvature j hj, hs j hj, zero_mul, mul_neg, neg_mul, neg_neg]
  · have := hD.even hX; rw [← hp.nphi] at this ⊢; exact this
  · have := hD.even hYs; rw [← hp.nphi] at this ⊢; exact this
  · have := hD.odd hYc; rw [← hp.nphi] at this ⊢; exact this

/-- Elements of the gradient of the field with as many components along the normal as across. -/
theorem gradB_parity (hp : SymCfg n p) {r : R1.R1 ℝ} (hr : SymFirst n p r) (i k : Nat) :
    ((i = 0 ↔ k = 0) → Odd n fun j => R1.gradB p r j i k) ∧ (¬ (i = 0 ↔ k = 0) → Even n fun j => R1.gradB p r j i k) := by
  constructor
  · intro h j hj
    match i, k with
    | 0, 0 =>
      simp only [R1.gradB]
      rw [hr.dX1c j hj, hr.Y1s j hj, hr.X1c j hj, hr.Y1c j hj]; ring
    | 1, 1 =>
      simp only [R1.gradB]
      rw [hr.dY1s j hj, hr.X1c j hj, hr.Y1c j hj]; ring
    | 0, k + 1 => simp at h
    | i + 1, 0 => simp at h
    | 1, k + 2 => simp [R1.gradB]
    | i + 2, k + 1 => simp [R1.gradB]
  · intro h j hj
    match i, k with
    | 0, 0 => simp at h
    | 0, 1 =>
      simp only [R1.gradB]
      rw [hr.dY1c j hj, hr.Y1s j hj, hr.dY1s j hj, hr.Y1c j hj, hp.torsion j hj]; ring
    | 0, 2 => simp only [R1.gradB]; rw [hp.curvature j hj]
    | 0, k + 3 => simp [R1.gradB]
    | 1, 0 =>
      simp only [R1.gradB]
      rw [hr.X1c j hj, hp.torsion j hj]
    | 2, 0 => simp only [R1.gradB]; rw [hp.curvature j hj]
    | i + 3, 0 => simp [R1.gradB]
    | i + 1, k + 1 => simp at h

theorem LgradB_even (hp : SymCfg n p) {r : R1.R1 ℝ} (hr : SymFirst n p r) : Even n (R1.LgradB realOps p r) := by
  intro j hj
  have h1 : ∀ i k, (i = 0 ↔ k = 0) → R1.gradB p r (mirror n j) i k = -R1.gradB p r j i k :=
    fun i k h => (gradB_parity hp hr i k).1 h j hj
  have h2 : ∀ i k, ¬ (i = 0 ↔ k = 0) → R1.gradB p r (mirror n j) i k = R1.gradB p r j i k :=
    fun i k h => (gradB_parity hp hr i k).2 h j hj
  simp only [R1.LgradB]
  rw [h2 2 0 (by simp), h2 0 2 (by simp), h1 1 1 (by simp), h1 0 0 (by simp), h2 1 0 (by simp), h2 0 1 (by simp)]
  simp only [mul_neg, neg_mul, neg_neg]

end Qsc.Symmetry
