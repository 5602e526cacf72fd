import Verif.Model.OptLoop

/-!
# Property C55: the counted evaluations are those of the library

For every run that ends, `n_evals` is the number of points the library evaluated, in all refinement
steps together; the callbacks are not counted, although each evaluates the physics as well.  A run that ends is shown in `Props/OptLoop`.
-/

namespace Qsc.OptLoop

open Qsc.OptState

variable {K P : Type}

theorem bind_ok {α β : Type} {x : Except Err α} {f : α → Except Err β} {b : β}
    (h : x.bind f = .ok b) : ∃ a, x = .ok a ∧ f a = .ok b := by
  cases x with
  | ok a => exact ⟨a, rfl, h⟩
  | error e => cases h

theorem evalAt_keeps {e : Env K P} {x : List K} {st : St K P} {r : St K P × P}
    (h : evalAt e x st = .ok r) : r.1.nEvals = st.nEvals ∧ r.1.log = st.log := by
  obtain ⟨q, _, h⟩ := bind_ok h
  obtain ⟨ph, _, h⟩ := bind_ok h
  by_cases hn : e.terms st.nphi = st.nTerms
  · rw [if_pos hn] at h; cases h; exact ⟨rfl, rfl⟩
  · rw [if_neg hn] at h; cases h

theorem evalAll_count {e : Env K P} {xs : List (List K)} {st st' : St K P}
    (h : evalAll e xs st = .ok st') : st'.nEvals = st.nEvals + xs.length ∧ st'.log = st.log := by
  induction xs generalizing st with
  | nil => cases h; exact ⟨rfl, rfl⟩
  | cons x xs ih =>
    obtain ⟨s1, h1, h⟩ := bind_ok h
    obtain ⟨r, h2, h1⟩ := bind_ok h1
    cases h1
    obtain ⟨a, b⟩ := ih h
    obtain ⟨c, d⟩ := evalAt_keeps h2
    rw [a, b]
    dsimp only
    rw [c, d, List.length_cons]
    exact ⟨by omega, rfl⟩

theorem callback_count {e : Env K P} {rows j : Nat} {x : List K} {st st' : St K P}
    (h : callback e rows j x st = .ok st') :
    st'.nEvals = st.nEvals ∧ st'.log.length = st.log.length + 1 := by
  obtain ⟨r, h1, h⟩ := bind_ok h
  obtain ⟨c, d⟩ := evalAt_keeps h1
  dsimp only at h
  split at h
  · cases h
    exact ⟨c, by simp [d]⟩
  · cases h

/-- The number of points evaluated in iterations `i, i + 1, ..., i + m - 1`. -/
def pointsIn {p : Nat} (g : Gsl K p) (i m : Nat) : Nat :=
  ((List.range m).map fun k => (g.iters (i + k)).evals.length).sum

theorem pointsIn_succ {p : Nat} (g : Gsl K p) (i m : Nat) :
    pointsIn g i (m + 1) = (g.iters i).evals.length + pointsIn g (i + 1) m := by
  unfold pointsIn
  rw [List.range_succ_eq_map, List.map_cons, List.sum_cons, List.map_map]
  congr 2
  apply List.map_congr_left
  intro k _
  simp only [Function.comp, Nat.succ_eq_add_one]
  rw [show i + (k + 1) = i + 1 + k by omega]

theorem iterate_count {e : Env K P} {rows j : Nat} {p : Nat} {g : Gsl K p} {left i : Nat}
    {st st' : St K P} (h : iterate e rows j g left i st = .ok st') :
    ∃ m, 1 ≤ m ∧ m ≤ left + 1 ∧ st'.nEvals = st.nEvals + pointsIn g i m ∧
      ((st'.log.length = st.log.length + m) ∨
        (i = 0 ∧ m = 1 ∧ (g.iters 0).noProgress = true ∧ st'.log.length = st.log.length)) := by
  induction left generalizing i st with
  | zero =>
    rw [iterate] at h
    obtain ⟨s1, h1, h⟩ := bind_ok h
    obtain ⟨a, b⟩ := evalAll_count h1
    have hp : pointsIn g i 1 = (g.iters i).evals.length := by simp [pointsIn]
    rw [List.length_map] at a
    refine ⟨1, le_refl _, le_refl _, ?_⟩
    by_cases hn : (g.iters i).noProgress = true ∧ i = 0
    · rw [if_pos hn] at h
      cases h
      rw [hp]
      exact ⟨a, Or.inr ⟨hn.2, rfl, hn.2 ▸ hn.1, by rw [b]⟩⟩
    · rw [if_neg hn] at h
      obtain ⟨s2, h2, h⟩ := bind_ok h
      obtain ⟨c, d⟩ := callback_count h2
      cases h
      rw [hp]
      exact ⟨by omega, Or.inl (by rw [d, b])⟩
  | succ left ih =>
    rw [iterate] at h
    obtain ⟨s1, h1, h⟩ := bind_ok h
    obtain ⟨a, b⟩ := evalAll_count h1
    have hp : pointsIn g i 1 = (g.iters i).evals.length := by simp [pointsIn]
    rw [List.length_map] at a
    by_cases hn : (g.iters i).noProgress = true ∧ i = 0
    · rw [if_pos hn] at h
      cases h
      refine ⟨1, le_refl _, by omega, ?_⟩
      rw [hp]
      exact ⟨a, Or.inr ⟨hn.2, rfl, hn.2 ▸ hn.1, by rw [b]⟩⟩
    · rw [if_neg hn] at h
      obtain ⟨s2, h2, h⟩ := bind_ok h
      obtain ⟨c, d⟩ := callback_count h2
      dsimp only at h
      by_cases hc : (g.iters i).continue' = true
      · rw [if_pos hc] at h
        obtain ⟨m, m1, m2, m3, m4⟩ := ih h
        refine ⟨m + 1, by omega, by omega, ?_, ?_⟩
        · rw [pointsIn_succ]; omega
        · rcases m4 with m4 | m4
          · left; rw [m4, d, b]; omega
          · omega
      · rw [if_neg hc] at h
        cases h
        refine ⟨1, le_refl _, by omega, ?_⟩
        rw [hp]
        exact ⟨by omega, Or.inl (by rw [d, b])⟩

/-- One refinement step: its number, its number of parameters, its number of iterations. -/
structure StepRun where
  step : Nat
  nParams : Nat
  iters : Nat

/-- Points evaluated and records made in one step. -/
def StepRun.points (e : Env K P) (s : StepRun) : Nat :=
  (e.gsl s.step s.nParams).initEvals.length + pointsIn (e.gsl s.step s.nParams) 0 s.iters

def StepRun.records (e : Env K P) (s : StepRun) : Nat → Prop := fun r =>
  r = 1 + s.iters ∨ (s.iters = 1 ∧ ((e.gsl s.step s.nParams).iters 0).noProgress = true ∧ r = 1)

theorem drive_count {e : Env K P} {rows j p M : Nat} {x0 : List K} {st st' : St K P}
    (h : drive e rows j (e.gsl j p) M x0 st = .ok st') :
    ∃ m, 1 ≤ m ∧ m ≤ M - 1 + 1 ∧ st'.nEvals = st.nEvals + StepRun.points e ⟨j, p, m⟩ ∧
      ∃ r, StepRun.records e ⟨j, p, m⟩ r ∧ st'.log.length = st.log.length + r := by
  obtain ⟨s1, h1, h⟩ := bind_ok h
  obtain ⟨s2, h2, h⟩ := bind_ok h
  obtain ⟨a, b⟩ := evalAll_count h1
  obtain ⟨c, d⟩ := callback_count h2
  obtain ⟨m, m1, m2, m3, m4⟩ := iterate_count h
  rw [List.length_map] at a
  refine ⟨m, m1, m2, ?_, ?_⟩
  · unfold StepRun.points; dsimp only; omega
  · rcases m4 with m4 | ⟨_, m4, m5, m6⟩
    · exact ⟨1 + m, Or.inl rfl, by rw [m4, d, b]; omega⟩
    · exact ⟨1, Or.inr ⟨m4, m5, rfl⟩, by rw [m6, d, b]⟩

theorem enable_count {oldsize j : Nat} {st st' : St K P} (h : enable oldsize j st = .ok st') :
    st'.nEvals = st.nEvals ∧ st'.log = st.log := by
  unfold enable at h
  split at h
  · obtain ⟨_, _, h⟩ := bind_ok h
    obtain ⟨_, _, h⟩ := bind_ok h
    cases h; exact ⟨rfl, rfl⟩
  · cases h; exact ⟨rfl, rfl⟩

theorem countTerms_count {e : Env K P} {st st' : St K P} (h : countTerms e st = .ok st') :
    st'.nEvals = st.nEvals ∧ st'.log = st.log := by
  unfold countTerms at h
  split at h
  · cases h
  · cases h; exact ⟨rfl, rfl⟩

theorem chooseNphi_count {e : Env K P} {nphis : List Nat} {j : Nat} {st st' : St K P}
    (h : chooseNphi e nphis j st = .ok st') : st'.nEvals = st.nEvals ∧ st'.log = st.log := by
  unfold chooseNphi at h
  split at h
  · split at h
    · cases h
    · have := countTerms_count h
      exact this
  · split at h
    · exact countTerms_count h
    · cases h; exact ⟨rfl, rfl⟩

theorem refineLoop_count [Zero K] {e : Env K P} {order : String} {rows oldsize maxIter : Nat}
    {nphis : List Nat} {left j : Nat} {st st' : St K P}
    (h : refineLoop e order rows oldsize maxIter nphis left j st = .ok st') :
    ∃ ss : List StepRun, ss.length ≤ left + 1 ∧
      (∀ k (hk : k < ss.length), ss[k].step = j + k) ∧
      (∀ s ∈ ss, 1 ≤ s.iters) ∧
      st'.nEvals = st.nEvals + (ss.map (StepRun.points e)).sum ∧
      ∃ rs : List Nat, List.Forall₂ (StepRun.records e) ss rs ∧
        st'.log.length = st.log.length + rs.sum := by
  induction left generalizing j st with
  | zero =>
    rw [refineLoop] at h
    split at h
    · cases h; exact ⟨[], by simp, by simp, by simp, by simp, [], .nil, by simp⟩
    · obtain ⟨s1, h1, h⟩ := bind_ok h
      obtain ⟨s2, h2, h⟩ := bind_ok h
      obtain ⟨np, _, h⟩ := bind_ok h
      obtain ⟨r, h4, h⟩ := bind_ok h
      obtain ⟨o, _, h4⟩ := bind_ok h4
      cases h4
      obtain ⟨a1, b1⟩ := enable_count h1
      obtain ⟨a2, b2⟩ := chooseNphi_count h2
      dsimp only at h
      split at h
      · cases h
        exact ⟨[], by simp, by simp, by simp, by simp [a1, a2], [], .nil, by simp [b1, b2]⟩
      · split at h
        · cases h
        · obtain ⟨x0, _, h⟩ := bind_ok h
          obtain ⟨s5, h5, h⟩ := bind_ok h
          cases h
          obtain ⟨m, m1, m2, m3, rr, m4, m5⟩ := drive_count h5
          dsimp only at m3 m5
          refine ⟨[⟨j, np.1, m⟩], by simp, by simp, by simp [m1], ?_, [rr], .cons m4 .nil, ?_⟩
          · simp only [List.map_cons, List.map_nil, List.sum_cons, List.sum_nil]; omega
          · rw [m5, b2, b1]; simp
  | succ left ih =>
    rw [refineLoop] at h
    split at h
    · cases h; exact ⟨[], by simp, by simp, by simp, by simp, [], .nil, by simp⟩
    · obtain ⟨s1, h1, h⟩ := bind_ok h
      obtain ⟨s2, h2, h⟩ := bind_ok h
      obtain ⟨np, _, h⟩ := bind_ok h
      obtain ⟨r, h4, h⟩ := bind_ok h
      obtain ⟨o, _, h4⟩ := bind_ok h4
      cases h4
      obtain ⟨a1, b1⟩ := enable_count h1
      obtain ⟨a2, b2⟩ := chooseNphi_count h2
      dsimp only at h
      split at h
      · cases h
        exact ⟨[], by simp, by simp, by simp, by simp [a1, a2], [], .nil, by simp [b1, b2]⟩
      · split at h
        · cases h
        · obtain ⟨x0, _, h⟩ := bind_ok h
          obtain ⟨s5, h5, h⟩ := bind_ok h
          obtain ⟨m, m1, m2, m3, rr, m4, m5⟩ := drive_count h5
          dsimp only at m3 m5
          obtain ⟨ss, g1, g2, g3, g4, rs, g5, g6⟩ := ih h
          refine ⟨⟨j, np.1, m⟩ :: ss, by simp; omega, ?_, ?_, ?_, rr :: rs, .cons m4 g5, ?_⟩
          · intro k hk
            cases k with
            | zero => rfl
            | succ k =>
              rw [List.getElem_cons_succ, g2 k (by simpa using hk)]
              omega
          · intro s hs
            rcases List.mem_cons.1 hs with rfl | hs
            · exact m1
            · exact g3 s hs
          · rw [g4, List.map_cons, List.sum_cons]; omega
          · rw [g6, m5, b2, b1, List.sum_cons]; omega

/-- **C55.** Whenever an optimization ends, it went through refinement steps `0, 1, ..` (at most
`fourier_refine + 1`), the recorded number of evaluations is the number of points the library
evaluated in them, and each step left one record for its start and one per iteration (none for a
first iteration without progress). -/
theorem evaluations [Zero K] (e : Env K P) (s : Settings) (order : String) (q : Config K)
    (nphi : Nat) (st : St K P) (h : optimize e s order q nphi = .ok st) :
    ∃ ss : List StepRun, ss.length ≤ s.extra + 1 ∧
      (∀ k (hk : k < ss.length), ss[k].step = k) ∧ (∀ r ∈ ss, 1 ≤ r.iters) ∧
      st.nEvals = (ss.map (StepRun.points e)).sum ∧
      ∃ rs : List Nat, List.Forall₂ (StepRun.records e) ss rs ∧ st.log.length = rs.sum := by
  unfold optimize at h
  dsimp only at h
  split at h
  · cases h
  split at h
  · cases h
  split at h
  · cases h
  split at h
  · cases h
  obtain ⟨_, _, h⟩ := bind_ok h
  obtain ⟨_, _, h⟩ := bind_ok h
  obtain ⟨_, _, h⟩ := bind_ok h
  obtain ⟨_, _, h⟩ := bind_ok h
  obtain ⟨_, _, h⟩ := bind_ok h
  obtain ⟨_, _, h⟩ := bind_ok h
  obtain ⟨_, _, h⟩ := bind_ok h
  obtain ⟨_, _, h⟩ := bind_ok h
  obtain ⟨ss, h1, h2, h3, h4, rs, h5, h6⟩ := refineLoop_count h
  refine ⟨ss, h1, fun k hk => by rw [h2 k hk]; omega, h3, by rw [h4]; simp, rs, h5, by rw [h6]; simp⟩

end Qsc.OptLoop
