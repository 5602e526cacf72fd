import Verif.Spec.Newton
import Mathlib.Order.Defs.LinearOrder
import Mathlib.Algebra.Field.Rat
import Mathlib.Algebra.Order.Ring.Rat

/-!
# Properties C25 to C27 and C51: Newton's method
-/

namespace Qsc.Newton

variable {X R D K : Type}

theorem lastEvaluated_append (a b : List (Event X)) :
    lastEvaluated (a ++ b) = (lastEvaluated b).or (lastEvaluated a) := by
  induction a with
  | nil => simp [lastEvaluated]
  | cons h t ih =>
    cases h with
    | res x => simp [lastEvaluated, ih, Option.or_assoc]
    | jac x => simp [lastEvaluated, ih]
    | solve => simp [lastEvaluated, ih]

/-- Everything known about the loop variables: the residual and its norm belong to the state, which
is the one evaluated last. -/
structure Good (e : Env X R D K) (c : Cur X R K) : Prop where
  r : c.r = e.res c.x
  n : c.n = e.nrm c.r
  seen : lastEvaluated c.trace = some c.x

/-- What the line search does: it appends evaluations; with passes left it ends in a trial. -/
theorem lineSearch_good (e : Env X R D K) (x0 : X) (d : D) (last : K) (f k : Nat) (c : Cur X R K)
    (h : Good e c) : Good e (lineSearch e x0 d last f k c) := by
  induction f generalizing k c with
  | zero => exact h
  | succ f ih =>
    rw [lineSearch]
    have h' : Good e ⟨e.move x0 d k, e.res (e.move x0 d k), e.nrm (e.res (e.move x0 d k)),
        c.trace ++ [.res (e.move x0 d k)]⟩ :=
      ⟨rfl, rfl, by rw [lastEvaluated_append]; rfl⟩
    split
    · exact h'
    · exact ih _ _ h'

theorem Good.restart {e : Env X R D K} {c : Cur X R K} (h : Good e c) :
    Good e ⟨c.x, c.r, c.n, c.trace ++ [.jac c.x, .solve]⟩ :=
  ⟨h.r, h.n, by rw [lastEvaluated_append]; simp [lastEvaluated, h.seen]⟩

/-- A property of the loop by induction: it holds of the result if it holds of both exits. -/
theorem loop_induct (e : Env X R D K) (L : Nat) (I : Cur X R K → Prop) (P : Out X R → Prop)
    (hstep : ∀ j c, I c → e.lt c.n e.tolSq = false →
      e.lt c.n (lineSearch e c.x (e.dir j c.x c.r) c.n L 0
        ⟨c.x, c.r, c.n, c.trace ++ [.jac c.x, .solve]⟩).n = false →
      I (lineSearch e c.x (e.dir j c.x c.r) c.n L 0
        ⟨c.x, c.r, c.n, c.trace ++ [.jac c.x, .solve]⟩))
    (hconv : ∀ c, I c → e.lt c.n e.tolSq = true → P ⟨.converged, c.x, c.r, c.trace⟩)
    (hmax : ∀ c, I c → e.lt c.n e.tolSq = false → P ⟨.maxIterations, c.x, c.r, c.trace⟩)
    (hfail : ∀ j c, I c → e.lt c.n e.tolSq = false →
      e.lt c.n (lineSearch e c.x (e.dir j c.x c.r) c.n L 0
        ⟨c.x, c.r, c.n, c.trace ++ [.jac c.x, .solve]⟩).n = true →
      P ⟨.linesearchFailed, c.x, (lineSearch e c.x (e.dir j c.x c.r) c.n L 0
        ⟨c.x, c.r, c.n, c.trace ++ [.jac c.x, .solve]⟩).r,
        (lineSearch e c.x (e.dir j c.x c.r) c.n L 0
        ⟨c.x, c.r, c.n, c.trace ++ [.jac c.x, .solve]⟩).trace⟩)
    (f j : Nat) (c : Cur X R K) (h : I c) : P (loop e L f j c) := by
  induction f generalizing j c with
  | zero =>
    rw [loop]
    cases hb : e.lt c.n e.tolSq with
    | true => exact hconv c h hb
    | false => exact hmax c h hb
  | succ f ih =>
    rw [loop]
    dsimp only
    cases hb : e.lt c.n e.tolSq with
    | true => exact hconv c h hb
    | false =>
      simp only [Bool.false_eq_true, if_false]
      cases hl : e.lt c.n (lineSearch e c.x (e.dir j c.x c.r) c.n L 0
          ⟨c.x, c.r, c.n, c.trace ++ [.jac c.x, .solve]⟩).n with
      | true => exact hfail j c h hb hl
      | false =>
        simp only [Bool.false_eq_true, if_false]
        exact ih _ _ (hstep j c h hb hl)

theorem start_good (e : Env X R D K) (x : X) :
    Good e ⟨x, e.res x, e.nrm (e.res x), [.res x]⟩ := ⟨rfl, rfl, rfl⟩

/-- **C25 (converged), C26.** Whatever the residual function, the solver and the comparison (so NaN
included): if the solver reports convergence, the squared norm of the residual of the returned
state compares below the squared tolerance and the returned residual is that of the returned state;
if it reports the iteration limit, the returned residual is that of the returned state and its norm
does not compare below the tolerance. -/
theorem converged_correct (e : Env X R D K) (N L : Int) (x : X) :
    ((newton e N L x).status = .converged →
      e.lt (e.nrm (e.res (newton e N L x).state)) e.tolSq = true ∧
      (newton e N L x).residual = e.res (newton e N L x).state) ∧
    ((newton e N L x).status = .maxIterations →
      e.lt (e.nrm (e.res (newton e N L x).state)) e.tolSq = false ∧
      (newton e N L x).residual = e.res (newton e N L x).state) := by
  unfold newton
  refine loop_induct e L.toNat (Good e) (fun o => (o.status = .converged →
      e.lt (e.nrm (e.res o.state)) e.tolSq = true ∧ o.residual = e.res o.state) ∧
    (o.status = .maxIterations →
      e.lt (e.nrm (e.res o.state)) e.tolSq = false ∧ o.residual = e.res o.state))
    ?_ ?_ ?_ ?_ _ _ _ (start_good e x)
  · intro j c h _ _
    exact lineSearch_good _ _ _ _ _ _ _ h.restart
  · intro c h hb
    refine ⟨fun _ => ⟨?_, h.r⟩, by simp⟩
    rw [h.n, h.r] at hb; exact hb
  · intro c h hb
    refine ⟨by simp, fun _ => ⟨?_, h.r⟩⟩
    rw [h.n, h.r] at hb; exact hb
  · intro j c h _ _
    exact ⟨by simp, by simp⟩

/-- **C25 (monotone).** With ordered norms the norm of the residual at the returned state is at most
that at the initial guess, whatever the exit. -/
theorem norm_not_increased [LinearOrder K] (e : Env X R D K)
    (hlt : ∀ a b, e.lt a b = decide (a < b)) (N L : Int) (x : X) :
    e.nrm (e.res (newton e N L x).state) ≤ e.nrm (e.res x) := by
  unfold newton
  refine loop_induct e L.toNat (fun c => Good e c ∧ c.n ≤ e.nrm (e.res x))
    (fun o => e.nrm (e.res o.state) ≤ e.nrm (e.res x)) ?_ ?_ ?_ ?_ _ _ _
    ⟨start_good e x, le_refl _⟩
  · rintro j c ⟨h, hn⟩ _ hl
    refine ⟨lineSearch_good _ _ _ _ _ _ _ h.restart, ?_⟩
    rw [hlt, decide_eq_false_iff_not, not_lt] at hl
    exact le_trans hl hn
  · rintro c ⟨h, hn⟩ _
    dsimp only
    rw [← h.r, ← h.n]; exact hn
  · rintro c ⟨h, hn⟩ _
    dsimp only
    rw [← h.r, ← h.n]; exact hn
  · rintro j c ⟨h, hn⟩ _ _
    dsimp only
    rw [← h.r, ← h.n]; exact hn

/-- **C26 (failure).** If the line search fails, the residual that is returned is that of the last
trial, whose norm is larger than that of the returned state: the documented "on exit, the residuals
at the solution" is false on this exit, always. -/
theorem failed_residual [LinearOrder K] (e : Env X R D K)
    (hlt : ∀ a b, e.lt a b = decide (a < b)) (N L : Int) (x : X)
    (hf : (newton e N L x).status = .linesearchFailed) :
    e.nrm (e.res (newton e N L x).state) < e.nrm (newton e N L x).residual ∧
    (newton e N L x).residual ≠ e.res (newton e N L x).state := by
  have key : (newton e N L x).status = .linesearchFailed →
      e.nrm (e.res (newton e N L x).state) < e.nrm (newton e N L x).residual := by
    unfold newton
    refine loop_induct e L.toNat (Good e) (fun o => o.status = .linesearchFailed →
      e.nrm (e.res o.state) < e.nrm o.residual) ?_ ?_ ?_ ?_ _ _ _ (start_good e x)
    · intro j c h _ _
      exact lineSearch_good _ _ _ _ _ _ _ h.restart
    · simp
    · simp
    · intro j c h _ hl _
      dsimp only
      have h' := lineSearch_good e c.x (e.dir j c.x c.r) c.n L.toNat 0 _ h.restart
      rw [← h.r, ← h.n, ← h'.n]
      rw [hlt, decide_eq_true_iff] at hl
      exact hl
  refine ⟨key hf, fun h => ?_⟩
  have := key hf
  rw [h] at this
  exact lt_irrefl _ this

/-- **C51.** The state evaluated last, from which the configuration takes `iota` and `sigma`, is the
returned state on the other two exits; after a line search failure it is the rejected trial, with a
residual larger than the state the solver returns. -/
theorem seen_state [LinearOrder K] (e : Env X R D K)
    (hlt : ∀ a b, e.lt a b = decide (a < b)) (N L : Int) (x : X) :
    ∃ y, lastEvaluated (newton e N L x).trace = some y ∧ (newton e N L x).residual = e.res y ∧
      ((newton e N L x).status ≠ .linesearchFailed → y = (newton e N L x).state) ∧
      ((newton e N L x).status = .linesearchFailed →
        e.nrm (e.res (newton e N L x).state) < e.nrm (e.res y)) := by
  unfold newton
  refine loop_induct e L.toNat (Good e) (fun o => ∃ y, lastEvaluated o.trace = some y ∧
      o.residual = e.res y ∧ (o.status ≠ .linesearchFailed → y = o.state) ∧
      (o.status = .linesearchFailed → e.nrm (e.res o.state) < e.nrm (e.res y)))
    ?_ ?_ ?_ ?_ _ _ _ (start_good e x)
  · intro j c h _ _
    exact lineSearch_good _ _ _ _ _ _ _ h.restart
  · intro c h _
    exact ⟨c.x, h.seen, h.r, fun _ => rfl, by simp⟩
  · intro c h _
    exact ⟨c.x, h.seen, h.r, fun _ => rfl, by simp⟩
  · intro j c h _ hl
    have h' := lineSearch_good e c.x (e.dir j c.x c.r) c.n L.toNat 0 _ h.restart
    refine ⟨_, h'.seen, h'.r, by simp, fun _ => ?_⟩
    dsimp only
    rw [← h.r, ← h'.r, ← h.n, ← h'.n]
    rw [hlt, decide_eq_true_iff] at hl
    exact hl

/-! ## Work -/

/-- Numbers of calls. -/
def nRes (t : List (Event X)) : Nat := t.countP fun | .res _ => true | _ => false
def nJac (t : List (Event X)) : Nat := t.countP fun | .jac _ => true | _ => false
def nSolve (t : List (Event X)) : Nat := t.countP fun | .solve => true | _ => false

/-- Every Jacobian is evaluated at the state of the most recent residual evaluation. -/
def JacAfterRes (t : List (Event X)) : Prop :=
  ∀ a x b, t = a ++ .jac x :: b → lastEvaluated a = some x

theorem jacAfterRes_res {t : List (Event X)} (h : JacAfterRes t) (y : X) :
    JacAfterRes (t ++ [.res y]) := by
  intro a x b hab
  rcases List.eq_nil_or_concat b with rfl | ⟨b', z, rfl⟩
  · have := congrArg List.getLast? hab
    simp at this
  · rw [List.concat_eq_append, ← List.cons_append, ← List.append_assoc] at hab
    exact h a x b' (List.append_inj_left' hab rfl)

theorem jacAfterRes_jac {t : List (Event X)} (h : JacAfterRes t) (y : X)
    (hy : lastEvaluated t = some y) : JacAfterRes (t ++ [.jac y, .solve]) := by
  intro a x b hab
  rcases List.eq_nil_or_concat b with rfl | ⟨b', z, rfl⟩
  · have := congrArg List.getLast? hab
    simp at this
  · rw [List.concat_eq_append, ← List.cons_append, ← List.append_assoc,
      show t ++ [Event.jac y, .solve] = (t ++ [.jac y]) ++ [.solve] by simp] at hab
    have hab := List.append_inj_left' hab rfl
    rcases List.eq_nil_or_concat b' with rfl | ⟨b'', z', rfl⟩
    · obtain ⟨h1, h2⟩ := List.append_inj' hab rfl
      cases h2
      rw [← h1]; exact hy
    · rw [List.concat_eq_append, ← List.cons_append, ← List.append_assoc] at hab
      exact h a x b'' (List.append_inj_left' hab rfl)

theorem lineSearch_work (e : Env X R D K) (x0 : X) (d : D) (last : K) (f k : Nat) (c : Cur X R K)
    (h : JacAfterRes c.trace) :
    nRes (lineSearch e x0 d last f k c).trace ≤ nRes c.trace + f ∧
    nJac (lineSearch e x0 d last f k c).trace = nJac c.trace ∧
    nSolve (lineSearch e x0 d last f k c).trace = nSolve c.trace ∧
    JacAfterRes (lineSearch e x0 d last f k c).trace := by
  induction f generalizing k c with
  | zero => exact ⟨by simp [lineSearch], rfl, rfl, h⟩
  | succ f ih =>
    rw [lineSearch]
    have e1 : nRes (c.trace ++ [.res (e.move x0 d k)]) = nRes c.trace + 1 := by simp [nRes]
    have e2 : nJac (c.trace ++ [.res (e.move x0 d k)]) = nJac c.trace := by simp [nJac]
    have e3 : nSolve (c.trace ++ [.res (e.move x0 d k)]) = nSolve c.trace := by simp [nSolve]
    split
    · exact ⟨by dsimp only; omega, e2, e3, jacAfterRes_res h _⟩
    · obtain ⟨a1, a2, a3, a4⟩ := ih (k + 1) ⟨e.move x0 d k, e.res (e.move x0 d k),
        e.nrm (e.res (e.move x0 d k)), c.trace ++ [.res (e.move x0 d k)]⟩ (jacAfterRes_res h _)
      dsimp only at a1 a2 a3
      exact ⟨by omega, by omega, by omega, a4⟩

theorem loop_work (e : Env X R D K) (L f j : Nat) (c : Cur X R K) (h : Good e c)
    (hj : JacAfterRes c.trace) :
    nRes (loop e L f j c).trace ≤ nRes c.trace + f * L ∧
    nJac (loop e L f j c).trace ≤ nJac c.trace + f ∧
    nSolve (loop e L f j c).trace ≤ nSolve c.trace + f ∧
    JacAfterRes (loop e L f j c).trace := by
  induction f generalizing j c with
  | zero => rw [loop]; exact ⟨by simp, by simp, by simp, hj⟩
  | succ f ih =>
    rw [loop]
    dsimp only
    have hL : (f + 1) * L = f * L + L := Nat.succ_mul f L
    split
    · exact ⟨by dsimp only; omega, by dsimp only; omega, by dsimp only; omega, hj⟩
    · have e1 : nRes (c.trace ++ [.jac c.x, .solve]) = nRes c.trace := by simp [nRes]
      have e2 : nJac (c.trace ++ [.jac c.x, .solve]) = nJac c.trace + 1 := by simp [nJac]
      have e3 : nSolve (c.trace ++ [.jac c.x, .solve]) = nSolve c.trace + 1 := by simp [nSolve]
      obtain ⟨a1, a2, a3, a4⟩ := lineSearch_work e c.x (e.dir j c.x c.r) c.n L 0
        ⟨c.x, c.r, c.n, c.trace ++ [.jac c.x, .solve]⟩ (jacAfterRes_jac hj _ h.seen)
      have h' := lineSearch_good e c.x (e.dir j c.x c.r) c.n L 0 _ h.restart
      dsimp only at a1 a2 a3
      split
      · exact ⟨by dsimp only; omega, by dsimp only; omega, by dsimp only; omega, a4⟩
      · obtain ⟨b1, b2, b3, b4⟩ := ih (j + 1) _ h' a4
        exact ⟨by omega, by omega, by omega, b4⟩

/-- **C27.** For all limits and all behaviours of the functions that are called. -/
theorem bounded_work (e : Env X R D K) (N L : Int) (x : X) :
    nRes (newton e N L x).trace ≤ 1 + N.toNat * L.toNat ∧
    nJac (newton e N L x).trace ≤ N.toNat ∧ nSolve (newton e N L x).trace ≤ N.toNat ∧
    JacAfterRes (newton e N L x).trace := by
  have h0 : JacAfterRes [Event.res x] := by
    intro a y b hab
    rcases a with _ | ⟨a, as⟩ <;> simp at hab
  obtain ⟨h1, h2, h3, h4⟩ := loop_work e L.toNat N.toNat 0
    ⟨x, e.res x, e.nrm (e.res x), [.res x]⟩ (start_good e x) h0
  have e1 : nRes [Event.res x] = 1 := rfl
  have e2 : nJac [Event.res x] = 0 := rfl
  have e3 : nSolve [Event.res x] = 0 := rfl
  dsimp only at h1 h2 h3
  exact ⟨by unfold newton; dsimp only; omega, by unfold newton; dsimp only; omega,
    by unfold newton; dsimp only; omega, h4⟩

/-! ## The path -/

open Qsc.Spec.Newton in
/-- The line search from trial `k` on ends at the first decreasing trial or at the last one. -/
theorem lineSearch_path (e : Env X R D K) (j : Nat) (x : X) (f k : Nat) (c : Cur X R K)
    (hb : NoneBefore e j x k) :
    let c' := lineSearch e x (e.dir j x (e.res x)) (size e x) f k c
    (f = 0 ∧ c' = c) ∨
    (∃ i, k ≤ i ∧ i < k + f ∧ NoneBefore e j x i ∧ c'.x = trial e j x i ∧
      e.lt (size e (trial e j x i)) (size e x) = true) ∨
    (0 < f ∧ NoneBefore e j x (k + f) ∧ c'.x = trial e j x (k + f - 1)) := by
  induction f generalizing k c with
  | zero => exact Or.inl ⟨rfl, rfl⟩
  | succ f ih =>
    dsimp only
    rw [lineSearch]
    by_cases hd : e.lt (size e (trial e j x k)) (size e x) = true
    · refine Or.inr (Or.inl ⟨k, le_refl _, by omega, hb, ?_, hd⟩)
      rw [if_pos (show e.lt (e.nrm (e.res (e.move x (e.dir j x (e.res x)) k))) (size e x) = true
        from hd)]
      rfl
    · rw [if_neg (show ¬ e.lt (e.nrm (e.res (e.move x (e.dir j x (e.res x)) k))) (size e x) = true
        from hd)]
      have hb' : NoneBefore e j x (k + 1) := by
        intro i hi
        rcases Nat.lt_succ_iff_lt_or_eq.1 hi with h | rfl
        · exact hb i h
        · simpa using hd
      rcases ih (k + 1) ⟨trial e j x k, e.res (trial e j x k), size e (trial e j x k),
        c.trace ++ [.res (trial e j x k)]⟩ hb' with ⟨rfl, h⟩ | ⟨i, h1, h2, h3, h4, h5⟩ | ⟨h1, h2, h3⟩
      · exact Or.inr (Or.inr ⟨by omega, hb', by rw [lineSearch]; rfl⟩)
      · exact Or.inr (Or.inl ⟨i, by omega, by omega, h3, h4, h5⟩)
      · refine Or.inr (Or.inr ⟨by omega, ?_, ?_⟩)
        · rw [show k + (f + 1) = k + 1 + f by omega]; exact h2
        · rw [show k + (f + 1) - 1 = k + 1 + f - 1 by omega]; exact h3

open Qsc.Spec.Newton in
theorem loop_path (e : Env X R D K) (hlt : ∀ a b, e.lt a b = true → e.lt b a = false) (L f j : Nat)
    (c : Cur X R K) (h : Good e c) :
    Run e L f j c.x (loop e L f j c).status (loop e L f j c).state := by
  have irr : ∀ a, e.lt a a = false := fun a => by
    cases ha : e.lt a a with
    | true => have := hlt a a ha; rw [ha] at this; exact this
    | false => rfl
  induction f generalizing j c with
  | zero =>
    rw [loop]
    have hn : c.n = size e c.x := by rw [h.n, h.r]; rfl
    cases hb : e.lt c.n e.tolSq with
    | true => exact .converged (hn ▸ hb)
    | false => exact .limit (hn ▸ hb)
  | succ f ih =>
    have hn : c.n = size e c.x := by rw [h.n, h.r]; rfl
    rw [loop]
    dsimp only
    cases hb : e.lt c.n e.tolSq with
    | true => exact .converged (hn ▸ hb)
    | false =>
      simp only [Bool.false_eq_true, if_false]
      have hls := lineSearch_good e c.x (e.dir j c.x c.r) c.n L 0 _ h.restart
      have hp := lineSearch_path e j c.x L 0 ⟨c.x, c.r, c.n, c.trace ++ [.jac c.x, .solve]⟩
        (fun i hi => absurd hi (Nat.not_lt_zero i))
      rw [← h.r, ← hn] at hp
      generalize lineSearch e c.x (e.dir j c.x c.r) c.n L 0
        ⟨c.x, c.r, c.n, c.trace ++ [.jac c.x, .solve]⟩ = c' at hls hp ⊢
      have hn' : c'.n = size e c'.x := by rw [hls.n, hls.r]; rfl
      have hb' : e.lt (size e c.x) e.tolSq = false := hn ▸ hb
      have next : e.lt c.n c'.n = false → Next e L j c.x c'.x →
          Run e L (f + 1) j c.x (if e.lt c.n c'.n = true then
            (⟨.linesearchFailed, c.x, c'.r, c'.trace⟩ : Out X R) else loop e L f (j + 1) c').status
          (if e.lt c.n c'.n = true then
            (⟨.linesearchFailed, c.x, c'.r, c'.trace⟩ : Out X R)
            else loop e L f (j + 1) c').state := by
        intro hl hx
        rw [hl]
        exact .step hb' hx (ih (j + 1) c' hls)
      rcases hp with ⟨h0, hc⟩ | ⟨i, _, h2, h3, h4, h5⟩ | ⟨h1, h2, h3⟩
      · refine next ?_ ?_
        · rw [hc]; exact irr _
        · rw [hc]; exact .none h0
      · refine next ?_ ?_
        · rw [hn', h4]
          exact hlt _ _ (hn ▸ h5)
        · rw [h4]
          exact .decrease i (by omega) h3 (hn ▸ h5)
      · simp only [Nat.zero_add] at h2 h3
        have hL : L = L - 1 + 1 := by omega
        cases hl : e.lt c.n c'.n with
        | true =>
          rw [hn, hn', h3] at hl
          exact .failed (L - 1) hb' hL h2 hl
        | false =>
          rw [hl] at next
          refine next rfl ?_
          rw [h3]
          rw [hn, hn', h3] at hl
          exact .stall (L - 1) hL h2 hl

/-- **C54.** The exit and the returned state are those of the step rule, for every comparison that is
asymmetric (IEEE comparisons are, NaN included), every residual function and linear solver. -/
theorem follows_rule (e : Env X R D K) (hlt : ∀ a b, e.lt a b = true → e.lt b a = false)
    (N L : Int) (x : X) :
    Spec.Newton.Run e L.toNat N.toNat 0 x (newton e N L x).status (newton e N L x).state :=
  loop_path e hlt _ _ _ _ (start_good e x)

open Qsc.Spec.Newton in
theorem next_unique (e : Env X R D K) (hlt : ∀ a b, e.lt a b = true → e.lt b a = false)
    {L j : Nat} {x y y' : X} (h : Next e L j x y) (h' : Next e L j x y') : y = y' := by
  cases h with
  | decrease k h1 h2 h3 =>
    cases h' with
    | decrease k' g1 g2 g3 =>
      rcases Nat.lt_trichotomy k k' with hk | rfl | hk
      · rw [g2 k hk] at h3; cases h3
      · rfl
      · rw [h2 k' hk] at g3; cases g3
    | stall k' g1 g2 g3 => rw [g2 k h1] at h3; cases h3
    | none g => omega
  | stall k h1 h2 h3 =>
    cases h' with
    | decrease k' g1 g2 g3 => rw [h2 k' g1] at g3; cases g3
    | stall k' g1 g2 g3 => rw [show k = k' by omega]
    | none g => omega
  | none h =>
    cases h' with
    | decrease k' g1 => omega
    | stall k' g1 => omega
    | none _ => rfl

open Qsc.Spec.Newton in
theorem run_unique (e : Env X R D K) (hlt : ∀ a b, e.lt a b = true → e.lt b a = false)
    {L f j : Nat} {x : X} {s s' : Status} {z z' : X} (h : Run e L f j x s z)
    (h' : Run e L f j x s' z') : s = s' ∧ z = z' := by
  induction h generalizing s' z' with
  | converged h1 =>
    cases h' with
    | converged _ => exact ⟨rfl, rfl⟩
    | limit g => rw [g] at h1; cases h1
    | failed k g => rw [g] at h1; cases h1
    | step g => rw [g] at h1; cases h1
  | limit h1 =>
    cases h' with
    | converged g => rw [g] at h1; cases h1
    | limit _ => exact ⟨rfl, rfl⟩
  | failed k h1 h2 h3 h4 =>
    cases h' with
    | converged g => rw [g] at h1; cases h1
    | failed _ _ => exact ⟨rfl, rfl⟩
    | step g1 g2 g3 =>
      cases g2 with
      | decrease i a1 a2 a3 => rw [h3 i a1] at a3; cases a3
      | stall i a1 a2 a3 => rw [show k = i by omega, a3] at h4; cases h4
      | none a => omega
  | step h1 h2 h3 ih =>
    cases h' with
    | converged g => rw [g] at h1; cases h1
    | failed k g1 g2 g3 g4 =>
      cases h2 with
      | decrease i a1 a2 a3 => rw [g3 i a1] at a3; cases a3
      | stall i a1 a2 a3 => rw [show i = k by omega, g4] at a3; cases a3
      | none a => omega
    | step g1 g2 g3 =>
      cases next_unique e hlt h2 g2
      exact ih g3

/-- **C54 (exactness).** The step rule allows only what the solver does. -/
theorem rule_iff (e : Env X R D K) (hlt : ∀ a b, e.lt a b = true → e.lt b a = false)
    (N L : Int) (x : X) (s : Status) (z : X) :
    Spec.Newton.Run e L.toNat N.toNat 0 x s z ↔
      (newton e N L x).status = s ∧ (newton e N L x).state = z :=
  ⟨fun h => run_unique e hlt (follows_rule e hlt N L x) h,
    fun ⟨h1, h2⟩ => h1 ▸ h2 ▸ follows_rule e hlt N L x⟩

/-! ## Instances -/

/-- The comparison of the rational instances below is asymmetric. -/
example (p q : ℚ) : decide (p < q) = true → decide (q < p) = false := by
  simp only [decide_eq_true_eq, decide_eq_false_iff_not, not_lt]
  exact le_of_lt

/-- A quadratic equation over the rationals with the exact Newton direction. -/
def quad (a b c tol : ℚ) : Env ℚ ℚ ℚ ℚ where
  res x := a * x * x + b * x + c
  nrm r := r * r
  lt p q := decide (p < q)
  tolSq := tol * tol
  dir _ x r := -r / (2 * a * x + b)
  move x d k := x + d / 2 ^ k

/-- `x^2 - 2 = 0` reaches tolerance 1/100 from 1 at `17/12`. -/
example : (newton (quad 1 0 (-2) (1 / 100)) 10 4 1).status = .converged ∧
    (newton (quad 1 0 (-2) (1 / 100)) 10 4 1).state = 17 / 12 := by decide +kernel

/-- A line search failure with the exact Newton direction: `x^2/20 + x/10 + 1 = 0` has no solution;
the returned state is 0 with residual 1, the returned residual is 5. -/
example : (newton (quad (1 / 20) (1 / 10) 1 (1 / 100)) 12 1 0).status = .linesearchFailed ∧
    (newton (quad (1 / 20) (1 / 10) 1 (1 / 100)) 12 1 0).state = 0 ∧
    (newton (quad (1 / 20) (1 / 10) 1 (1 / 100)) 12 1 0).residual = 5 := by decide +kernel

end Qsc.Newton
