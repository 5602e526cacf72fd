import Verif.Lemmas.OptLoop
import Verif.Props.OptEvals

/-!
# Lemmas: after an optimization the results in `q` are those of its configuration and grid
-/

namespace Qsc.OptLoop

open Qsc.OptState Qsc.Spec.OptState Qsc.Spec.OptLoop

variable {K P : Type}

/-- The results in memory are those of the configuration in memory. -/
def Current (e : Env K P) (st : St K P) : Prop := ∃ ph, e.calculate st.q st.nphi = .ok ph

/-- The last record is of step `j`. -/
def LastStep (j : Nat) (st : St K P) : Prop := ∃ c, st.log.getLast? = some c ∧ c.step = j

theorem evalAt_current {e : Env K P} {x : List K} {st : St K P} {r : St K P × P} (h : evalAt e x st = .ok r) :
    r.1.nphi = st.nphi ∧ r.1.log = st.log ∧ Current e r.1 := by
  unfold evalAt at h
  obtain ⟨q, -, h⟩ := bind_ok h
  obtain ⟨ph, hp, h⟩ := bind_ok h
  split at h
  · cases h
    refine ⟨rfl, rfl, ph, ?_⟩
    dsimp only
    cases hc : e.calculate q st.nphi with
    | error m => rw [hc] at hp; cases hp
    | ok a => rw [hc] at hp; cases hp; rfl
  · cases h

theorem evalAll_current {e : Env K P} (xs : List (List K)) {st st' : St K P} (h : evalAll e xs st = .ok st') :
    st'.nphi = st.nphi ∧ st'.log = st.log ∧ (Current e st → Current e st') := by
  induction xs generalizing st with
  | nil => cases h; exact ⟨rfl, rfl, id⟩
  | cons x xs ih =>
    obtain ⟨s, hs, h⟩ := bind_ok h
    obtain ⟨r, hr, hs⟩ := bind_ok hs
    cases hs
    obtain ⟨a1, a2, a3⟩ := evalAt_current hr
    obtain ⟨b1, b2, b3⟩ := ih h
    exact ⟨b1.trans a1, b2.trans a2, fun _ => b3 a3⟩

theorem callback_current {e : Env K P} {rows j : Nat} {x : List K} {st st' : St K P}
    (h : callback e rows j x st = .ok st') : st'.nphi = st.nphi ∧ LastStep j st' ∧ Current e st' := by
  obtain ⟨r, hr, h⟩ := bind_ok h
  obtain ⟨a1, a2, a3⟩ := evalAt_current hr
  dsimp only at h
  split at h
  · cases h
    exact ⟨a1, ⟨⟨j, x, r.1.q, r.2⟩, by simp, rfl⟩, a3⟩
  · cases h

theorem iterate_current {e : Env K P} {rows j p : Nat} (g : Gsl K p) (left i : Nat) {st st' : St K P}
    (h : iterate e rows j g left i st = .ok st') (h1 : LastStep j st) (h2 : Current e st) :
    st'.nphi = st.nphi ∧ LastStep j st' ∧ Current e st' := by
  induction left generalizing i st with
  | zero =>
    rw [iterate.eq_def] at h
    obtain ⟨s, hs, h⟩ := bind_ok h
    obtain ⟨a1, a2, a3⟩ := evalAll_current _ hs
    split at h
    · cases h
      exact ⟨a1, by unfold LastStep; rw [a2]; exact h1, a3 h2⟩
    · obtain ⟨s', hs', h⟩ := bind_ok h
      obtain ⟨b1, b2, b3⟩ := callback_current hs'
      cases h
      exact ⟨b1.trans a1, b2, b3⟩
  | succ left ih =>
    rw [iterate.eq_def] at h
    obtain ⟨s, hs, h⟩ := bind_ok h
    obtain ⟨a1, a2, a3⟩ := evalAll_current _ hs
    split at h
    · cases h
      exact ⟨a1, by unfold LastStep; rw [a2]; exact h1, a3 h2⟩
    · obtain ⟨s', hs', h⟩ := bind_ok h
      obtain ⟨b1, b2, b3⟩ := callback_current hs'
      dsimp only at h
      split at h
      · obtain ⟨c1, c2, c3⟩ := ih _ h b2 b3
        exact ⟨c1.trans (b1.trans a1), c2, c3⟩
      · cases h
        exact ⟨b1.trans a1, b2, b3⟩

theorem drive_current {e : Env K P} {rows j p : Nat} {g : Gsl K p} {maxiter : Nat} {x0 : List K} {st st' : St K P}
    (h : drive e rows j g maxiter x0 st = .ok st') : st'.nphi = st.nphi ∧ LastStep j st' ∧ Current e st' := by
  obtain ⟨s, hs, h⟩ := bind_ok h
  obtain ⟨s', hs', h⟩ := bind_ok h
  obtain ⟨b1, b2, b3⟩ := callback_current hs'
  obtain ⟨c1, c2, c3⟩ := iterate_current g _ _ h b2 b3
  exact ⟨c1.trans (b1.trans (evalAll_current _ hs).1), c2, c3⟩

/-- What holds between the steps of the refinement. -/
structure Between (e : Env K P) (order : String) (nphis : List Nat) (nphi : Nat) (st : St K P) : Prop where
  odd : ∃ m, st.nphi = Setup.oddNphi m
  same : nphis = [] → st.nphi = Setup.oddNphi nphi
  cur : st.log = [] ∨ ((∃ o, Setup.validate order = .ok o ∧ o.r2p1 = true) ∧
    (∃ c, st.log.getLast? = some c ∧ st.nphi = gridAt nphis nphi c.step) ∧ Current e st)

theorem oddNphi_idem (n : Nat) : Setup.oddNphi (Setup.oddNphi n) = Setup.oddNphi n := by
  have hg : ∀ n, Setup.oddNphi n = if n % 2 = 0 then n + 1 else n := fun n => rfl
  rw [hg (Setup.oddNphi n), hg n]
  grind

theorem enable_same {oldsize j : Nat} {st st' : St K P} (h : enable oldsize j st = .ok st') :
    st'.nphi = st.nphi ∧ st'.log = st.log := by
  unfold enable at h
  split at h
  · obtain ⟨r, -, h⟩ := bind_ok h
    obtain ⟨z, -, h⟩ := bind_ok h
    cases h
    exact ⟨rfl, rfl⟩
  · cases h
    exact ⟨rfl, rfl⟩

theorem countTerms_same {e : Env K P} {st st' : St K P} (h : countTerms e st = .ok st') :
    st'.nphi = st.nphi ∧ st'.log = st.log := by
  unfold countTerms at h
  split at h
  · cases h
  · cases h; exact ⟨rfl, rfl⟩

theorem chooseNphi_grid {e : Env K P} {nphis : List Nat} {nphi j : Nat} {st st' : St K P}
    (hs : nphis = [] → st.nphi = Setup.oddNphi nphi) (h : chooseNphi e nphis j st = .ok st') :
    Setup.oddNphi st'.nphi = gridAt nphis nphi j ∧ st'.log = st.log := by
  have hg : ∀ n, Setup.oddNphi n = if n % 2 = 0 then n + 1 else n := fun n => rfl
  unfold chooseNphi at h
  split at h
  · rename_i hl
    have hne : nphis ≠ [] := List.length_pos_iff.mp hl
    split at h
    · cases h
    · rename_i n hn
      obtain ⟨h1, h2⟩ := countTerms_same h
      refine ⟨?_, h2⟩
      rw [h1, oddNphi_idem]
      unfold gridAt
      simp only [if_neg hne, List.getD, hn, Option.getD_some]
      exact hg n
  · rename_i hl
    have hne : nphis = [] := by
      rcases nphis with _ | _
      · rfl
      · simp at hl
    have hgr : Setup.oddNphi st.nphi = gridAt nphis nphi j := by
      rw [hs hne, oddNphi_idem]
      unfold gridAt
      rw [if_pos hne]
      exact hg nphi
    split at h
    · obtain ⟨h1, h2⟩ := countTerms_same h
      exact ⟨by rw [h1]; exact hgr, h2⟩
    · cases h
      exact ⟨hgr, rfl⟩

theorem refineLoop_current [Zero K] {e : Env K P} {order : String} {rows oldsize maxIter : Nat} {nphis : List Nat}
    {nphi : Nat} (left j : Nat) {st st' : St K P} (hb : Between e order nphis nphi st)
    (h : refineLoop e order rows oldsize maxIter nphis left j st = .ok st') : Between e order nphis nphi st' := by
  have one : ∀ j (st : St K P), Between e order nphis nphi st → ∀ s1 s2 np r,
      enable oldsize j st = .ok s1 → chooseNphi e nphis j s1 = .ok s2 →
      initQ order { s2 with nParams := np } = .ok r →
      r.2.log = st.log ∧ r.2.nphi = gridAt nphis nphi j ∧ (∃ m, r.2.nphi = Setup.oddNphi m) ∧
        (nphis = [] → r.2.nphi = Setup.oddNphi nphi) ∧
        ∃ o, Setup.validate order = .ok o ∧ o.r2p1 = r.1 := by
    intro j st hb s1 s2 np r h1 h2 h3
    obtain ⟨a1, a2⟩ := enable_same h1
    obtain ⟨b1, b2⟩ := chooseNphi_grid (fun hn => a1.trans (hb.same hn)) h2
    unfold initQ at h3
    obtain ⟨o, ho, h3⟩ := bind_ok h3
    cases h3
    refine ⟨b2.trans a2, b1, ⟨_, rfl⟩, fun hn => ?_, o, ho, rfl⟩
    refine b1.trans ?_
    unfold gridAt
    rw [if_pos hn]
    rfl
  induction left generalizing j st with
  | zero =>
    rw [refineLoop.eq_def] at h
    dsimp only at h
    split at h
    · cases h; exact hb
    · obtain ⟨s1, h1, h⟩ := bind_ok h
      obtain ⟨s2, h2, h⟩ := bind_ok h
      obtain ⟨np, -, h⟩ := bind_ok h
      obtain ⟨r, h3, h⟩ := bind_ok h
      obtain ⟨o1, o2, o3, o4, o, o5, o6⟩ := one j st hb s1 s2 np.1 r h1 h2 h3
      split at h
      · rename_i hr
        cases h
        refine ⟨o3, o4, Or.inl ?_⟩
        rw [o1]
        rcases hb.cur with hc | ⟨⟨o', c1, c2⟩, -⟩
        · exact hc
        · rw [o5] at c1
          cases c1
          rw [c2] at o6
          exact absurd o6.symm hr
      · rename_i hr
        split at h
        · cases h
        · obtain ⟨x0, -, h⟩ := bind_ok h
          obtain ⟨s3, h4, h⟩ := bind_ok h
          obtain ⟨d1, ⟨c, d2, d3⟩, d4⟩ := drive_current h4
          cases h
          refine ⟨d1.symm ▸ o3, fun hn => d1.trans (o4 hn), Or.inr ⟨⟨o, o5, ?_⟩, ⟨c, d2, ?_⟩, d4⟩⟩
          · rw [o6]; simpa using hr
          · rw [d1, o2, d3]
  | succ left ih =>
    rw [refineLoop.eq_def] at h
    dsimp only at h
    split at h
    · cases h; exact hb
    · obtain ⟨s1, h1, h⟩ := bind_ok h
      obtain ⟨s2, h2, h⟩ := bind_ok h
      obtain ⟨np, -, h⟩ := bind_ok h
      obtain ⟨r, h3, h⟩ := bind_ok h
      obtain ⟨o1, o2, o3, o4, o, o5, o6⟩ := one j st hb s1 s2 np.1 r h1 h2 h3
      split at h
      · rename_i hr
        cases h
        refine ⟨o3, o4, Or.inl ?_⟩
        rw [o1]
        rcases hb.cur with hc | ⟨⟨o', c1, c2⟩, -⟩
        · exact hc
        · rw [o5] at c1
          cases c1
          rw [c2] at o6
          exact absurd o6.symm hr
      · rename_i hr
        split at h
        · cases h
        · obtain ⟨x0, -, h⟩ := bind_ok h
          obtain ⟨s3, h4, h⟩ := bind_ok h
          obtain ⟨d1, ⟨c, d2, d3⟩, d4⟩ := drive_current h4
          refine ih (j + 1) ⟨d1.symm ▸ o3, fun hn => d1.trans (o4 hn), Or.inr ⟨⟨o, o5, ?_⟩, ⟨c, d2, ?_⟩, d4⟩⟩ h
          · rw [o6]; simpa using hr
          · rw [d1, o2, d3]

/-- At the end the results in memory are those of the configuration in memory, on the grid of the last step. -/
theorem optimize_current [Zero K] {e : Env K P} {s : Settings} {order : String} {q : Config K} {nphi : Nat}
    {st : St K P} (h : optimize e s order q nphi = .ok st) : Between e order s.nphis nphi st := by
  unfold optimize at h
  dsimp only at h
  split at h
  · cases h
  split at h
  · cases h
  split at h
  · cases h
  split at h
  · cases h
  obtain ⟨_, -, h⟩ := bind_ok h
  obtain ⟨_, -, h⟩ := bind_ok h
  obtain ⟨_, -, h⟩ := bind_ok h
  obtain ⟨_, -, h⟩ := bind_ok h
  obtain ⟨_, -, h⟩ := bind_ok h
  obtain ⟨_, -, h⟩ := bind_ok h
  obtain ⟨_, -, h⟩ := bind_ok h
  obtain ⟨_, -, h⟩ := bind_ok h
  exact refineLoop_current _ _ ⟨⟨nphi, rfl⟩, fun _ => rfl, Or.inl rfl⟩ h

end Qsc.OptLoop
