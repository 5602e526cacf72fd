import Verif.Lemmas.ScalingRun
import Verif.Spec.Nested

/-!
# Lemmas on runs of different orders
-/

namespace Qsc.Nested
open Qsc.Single Qsc.Toml Qsc.Spec.Nested

/-- What is left of the second order. -/
def cutSecond (ord : Setup.Order) (d : Second ℝ) : Second ℝ := { d with third := if ord.r2p1 then d.third else none }

/-- What is left of a result. -/
def cut (ord : Setup.Order) (r : Result ℝ) : Result ℝ :=
  { r with second := if ord.atLeastR2 then r.second.map (cutSecond ord) else none }

/-- The inputs of the first order are the same. -/
structure InputRel (q q' : QscIn ℝ) : Prop where
  coeffs : coeffs q' = coeffs q
  nfp : q'.nfp = q.nfp
  sG : q'.sG = q.sG
  spsi : q'.spsi = q.spsi
  B0 : q'.B0 = q.B0
  etaBar : q'.eta_bar = q.eta_bar
  sigma0 : q'.sigma0 = q.sigma0
  I2 : q'.I2 = q.I2
  tol : q'.newton_tolerance = q.newton_tolerance
  N : q'.max_newton_iterations = q.max_newton_iterations
  M : q'.max_linesearch_iterations = q.max_linesearch_iterations
  nphi : q'.nphi = q.nphi

theorem inputRel {q q' : QscIn ℝ} (h : Lower q q') : InputRel q q' := by
  have e := h.rest
  exact ⟨(congrArg coeffs e :), (congrArg QscIn.nfp e :), (congrArg QscIn.sG e :), (congrArg QscIn.spsi e :),
    (congrArg QscIn.B0 e :), (congrArg QscIn.eta_bar e :), (congrArg QscIn.sigma0 e :), (congrArg QscIn.I2 e :),
    (congrArg QscIn.newton_tolerance e :), (congrArg QscIn.max_newton_iterations e :),
    (congrArg QscIn.max_linesearch_iterations e :), (congrArg QscIn.nphi e :)⟩

theorem second_cut {L : Lib ℝ} {i : R2.In ℝ} {a : Axis.Axis ℝ} {ord ord' : Setup.Order}
    (h3 : ord'.r2p1 = true → ord.r2p1 = true) {d : Second ℝ} (h : second L i a ord.r2p1 = .ok d) :
    second L i a ord'.r2p1 = .ok (cutSecond ord' d) := by
  unfold second at h ⊢
  split at h
  · cases h
  · dsimp only at h ⊢
    split at h
    · cases h
    · injection h with h
      subst h
      cases hb : ord'.r2p1
      · simp [cutSecond, hb]
      · simp [cutSecond, hb, h3 hb]

theorem calculate_cut {L : Lib ℝ} {q q' : QscIn ℝ} (I : InputRel q q') {n : Nat} {ord ord' : Setup.Order}
    (h2 : ord'.atLeastR2 = true → ord.atLeastR2 = true ∧ q'.p2 = q.p2 ∧ q'.B2c = q.B2c ∧ q'.B2s = q.B2s)
    (h3 : ord'.r2p1 = true → ord.r2p1 = true) {r : Result ℝ} (hr : calculate L q n ord = .ok r) :
    calculate L q' n ord' = .ok (cut ord' r) := by
  unfold calculate at hr ⊢
  rw [I.coeffs, I.sG, I.spsi, I.B0, I.nfp, I.etaBar, I.sigma0, I.I2, I.tol, I.N, I.M]
  split at hr
  · cases hr
  · dsimp only at hr ⊢
    split at hr
    · cases hr
    · rename_i ht
      rw [if_neg ht]
      split at hr
      · cases hr
      · cases hb : ord'.atLeastR2
        · simp only [Bool.false_eq_true, if_false]
          split at hr
          · split at hr
            · cases hr
            · injection hr with hr
              subst hr
              simp [cut, hb]
          · injection hr with hr
            subst hr
            simp [cut, hb]
        · obtain ⟨k1, k2, k3, k4⟩ := h2 hb
          rw [if_pos k1] at hr
          simp only [if_true]
          rw [k2, k3, k4]
          split at hr
          · cases hr
          · rename_i d hd
            injection hr with hr
            subst hr
            rw [second_cut h3 hd]
            simp [cut, hb]

end Qsc.Nested
