import Verif.Lemmas.SingleRun
import Verif.Spec.SingleLib

/-!
# Lemmas for a single run: a library that fails less often
-/

namespace Qsc.Newton
variable {X R D K : Type}

theorem lineSearch_res (e : Env X R D K) (x0 : X) (d : D) (last : K) (f k : Nat) (c : Cur X R K) (h : c.r = e.res c.x) :
    (lineSearch e x0 d last f k c).r = e.res (lineSearch e x0 d last f k c).x ∧
      c.trace <+: (lineSearch e x0 d last f k c).trace := by
  induction f generalizing k c with
  | zero => exact ⟨h, List.prefix_refl _⟩
  | succ f ih =>
    rw [lineSearch.eq_def]
    dsimp only
    split
    · exact ⟨rfl, List.prefix_append _ _⟩
    · obtain ⟨h1, h2⟩ := ih (k + 1) ⟨e.move x0 d k, e.res (e.move x0 d k), e.nrm (e.res (e.move x0 d k)),
        c.trace ++ [.res (e.move x0 d k)]⟩ rfl
      exact ⟨h1, (List.prefix_append _ _).trans h2⟩

theorem lineSearch_dir (e : Env X R D K) (dir : Nat → X → R → D) (x0 : X) (d : D) (last : K) (f k : Nat) (c : Cur X R K) :
    lineSearch { e with dir := dir } x0 d last f k c = lineSearch e x0 d last f k c := by
  induction f generalizing k c with
  | zero => rfl
  | succ f ih =>
    rw [lineSearch.eq_def, lineSearch.eq_def e]
    dsimp only
    rw [ih]

theorem loop_trace (e : Env X R D K) (L f j : Nat) (c : Cur X R K) (h : c.r = e.res c.x) :
    c.trace <+: (loop e L f j c).trace := by
  induction f generalizing j c with
  | zero => exact List.prefix_refl _
  | succ f ih =>
    rw [loop.eq_def]
    dsimp only
    obtain ⟨h1, h2⟩ := lineSearch_res e c.x (e.dir j c.x c.r) c.n L 0
      ⟨c.x, c.r, c.n, c.trace ++ [.jac c.x, .solve]⟩ h
    split
    · exact List.prefix_refl _
    · split
      · exact (List.prefix_append _ _).trans h2
      · exact (List.prefix_append _ _).trans (h2.trans (ih _ _ h1))

/-- The directions matter only where the Jacobian was asked for. -/
theorem loop_dir (e : Env X R D K) (dir : Nat → X → R → D) (L f j : Nat) (c : Cur X R K) (h : c.r = e.res c.x)
    (hd : ∀ i x, Event.jac x ∈ (loop e L f j c).trace → dir i x (e.res x) = e.dir i x (e.res x)) :
    loop { e with dir := dir } L f j c = loop e L f j c := by
  induction f generalizing j c with
  | zero => rfl
  | succ f ih =>
    rw [loop.eq_def] at hd
    rw [loop.eq_def, loop.eq_def e]
    dsimp only at hd ⊢
    split
    · rfl
    · rename_i hc
      rw [if_neg hc] at hd
      obtain ⟨h1, h2⟩ := lineSearch_res e c.x (e.dir j c.x c.r) c.n L 0
        ⟨c.x, c.r, c.n, c.trace ++ [.jac c.x, .solve]⟩ h
      have hj : dir j c.x c.r = e.dir j c.x c.r := by
        have hm : Event.jac c.x ∈ c.trace ++ [.jac c.x, .solve] := by simp
        rw [h]
        refine hd j c.x ?_
        split
        · exact h2.subset hm
        · exact ((loop_trace e L f (j + 1) _ h1).subset) (h2.subset hm)
      simp only [lineSearch_dir, hj]
      split
      · rfl
      · rename_i hl
        rw [if_neg hl] at hd
        exact ih _ _ h1 hd

theorem newton_dir (e : Env X R D K) (dir : Nat → X → R → D) (N L : Int) (x : X)
    (hd : ∀ i y, Event.jac y ∈ (newton e N L x).trace → dir i y (e.res y) = e.dir i y (e.res y)) :
    newton { e with dir := dir } N L x = newton e N L x :=
  loop_dir e dir _ _ _ _ rfl hd

end Qsc.Newton

namespace Qsc.RSing
variable {K : Type} [Field K] [DecidableEq K]

theorem calculate_mono (o : Ops K) (t : Tol K) {geev geev' : Quartic.Geev K} (hg : ∀ m x, geev m = some x → geev' m = some x)
    {i : R2.In K} {r : R2.R2 K} {s : Out K} (h : calculate o t geev i r = .ok s) : calculate o t geev' i r = .ok s := by
  have h1 : ∀ g x, gridPoint o t geev g = .ok x → gridPoint o t geev' g = .ok x := by
    intro g x h
    unfold gridPoint at h ⊢
    split
    · rename_i hk; rw [if_pos hk] at h; exact h
    · rename_i hk
      rw [if_neg hk] at h
      dsimp only at h ⊢
      unfold Quartic.roots at h ⊢
      cases hl : geev (Quartic.companion (coefficients (scaled g))) with
      | none => rw [hl] at h; cases h
      | some x => rw [hl] at h; rw [hg _ _ hl]; exact h
  have h2 : ∀ n g f, profile o t geev n g = .ok f → profile o t geev' n g = .ok f := by
    intro n g
    induction n with
    | zero => exact fun f h => h
    | succ n ih =>
      intro f h
      change profileStep o t geev g n (profile o t geev n g) = .ok f at h
      change profileStep o t geev' g n (profile o t geev' n g) = .ok f
      cases hn : profile o t geev n g with
      | error e => rw [hn] at h; cases h
      | ok f' =>
        rw [hn] at h
        rw [ih _ hn]
        unfold profileStep at h ⊢
        dsimp only at h ⊢
        cases hq : gridPoint o t geev (g n) with
        | error e => rw [hq] at h; cases h
        | ok x => rw [hq] at h; rw [h1 _ _ hq]; exact h
  unfold calculate at h ⊢
  cases hp : profile o t geev i.cfg.nphi (jac i r) with
  | error e => rw [hp] at h; cases h
  | ok f => rw [hp] at h; rw [h2 _ _ _ hp]; exact h

end Qsc.RSing

namespace Qsc.Single
open Qsc.Spec.Single
variable {K : Type} [Field K] [DecidableEq K]

omit [Field K] [DecidableEq K] in
theorem mem_jacStates {X : Type} {l : List (Newton.Event X)} {x : X} : x ∈ jacStates l ↔ Newton.Event.jac x ∈ l := by
  induction l with
  | nil => simp [jacStates]
  | cons a l ih => cases a <;> simp [jacStates, ih]

theorem second_mono {L L' : Lib K} (hL : Extends L L') {i : R2.In K} {a : Axis.Axis K} {b : Bool} {d : Second K}
    (h : second L i a b = .ok d) : second L' i a b = .ok d := by
  unfold second at h ⊢
  cases hg : L.gesv (2 * i.cfg.nphi) (R2.matrix i fun _ _ => 0) (R2.rhs i) with
  | none => rw [hg] at h; cases h
  | some x =>
    rw [hg] at h
    rw [hL.gesv _ _ _ _ hg, hL.ops, hL.single]
    dsimp only at h ⊢
    cases hr : RSing.calculate L.ops (if L.single then RSing.tolSingle else RSing.tolDouble) L.geev i
        (R2.finish L.ops i x) with
    | error e => rw [hr] at h; cases h
    | ok s => rw [hr] at h; rw [RSing.calculate_mono _ _ hL.geev hr]; exact h

theorem calculate_mono {L L' : Lib K} (hL : Extends L L') {q : Toml.QscIn K} {n : Nat} {ord : Setup.Order} {r : Result K}
    (h : calculate L q n ord = .ok r) : calculate L' q n ord = .ok r := by
  unfold calculate at h ⊢
  rw [hL.ops]
  cases ha : Axis.initAxis L.ops (coeffs q) n q.sG q.spsi q.B0 with
  | error e => rw [ha] at h; cases h
  | ok a =>
    rw [ha] at h
    dsimp only at h ⊢
    generalize hp : R1.Cfg.ofAxis a n q.nfp.toNat q.sG q.spsi q.eta_bar q.sigma0 q.I2 q.B0 = p at h ⊢
    have hpn : p.nphi = n := by rw [← hp]; rfl
    by_cases ht : newtonThrows L p q.newton_tolerance q.max_newton_iterations q.max_linesearch_iterations = true
    · rw [if_pos ht] at h; cases h
    · rw [if_neg ht] at h
      have hs : ∀ y, Newton.Event.jac y ∈ (Newton.newton (R1.env L.ops p (newtonSolve L n) q.newton_tolerance)
          q.max_newton_iterations q.max_linesearch_iterations (R1.start p)).trace →
          ∃ x, L.gesv n (R1.jacobian p (R1.store p y)) (fun j => -R1.residual p y j) = some x := by
        intro y hy
        unfold newtonThrows at ht
        rw [hpn] at ht
        simp only [List.any_eq_true, not_exists, not_and] at ht
        have := ht y (mem_jacStates.2 hy)
        cases hx : L.gesv n (R1.jacobian p (R1.store p y)) (fun j => -R1.residual p y j) with
        | none => rw [hx] at this; simp at this
        | some x => exact ⟨x, rfl⟩
      have hN : Newton.newton (R1.env L.ops p (newtonSolve L' n) q.newton_tolerance) q.max_newton_iterations
          q.max_linesearch_iterations (R1.start p) = Newton.newton (R1.env L.ops p (newtonSolve L n) q.newton_tolerance)
          q.max_newton_iterations q.max_linesearch_iterations (R1.start p) := by
        refine Newton.newton_dir (R1.env L.ops p (newtonSolve L n) q.newton_tolerance)
          (R1.env L.ops p (newtonSolve L' n) q.newton_tolerance).dir _ _ _ ?_
        intro i y hy
        obtain ⟨x, hx⟩ := hs y hy
        simp only [R1.env, newtonSolve, hx, hL.gesv _ _ _ _ hx]
      have ht' : ¬ newtonThrows L' p q.newton_tolerance q.max_newton_iterations q.max_linesearch_iterations = true := by
        unfold newtonThrows
        rw [hpn, hL.ops, hN]
        simp only [List.any_eq_true, not_exists, not_and]
        intro y hy
        obtain ⟨x, hx⟩ := hs y (mem_jacStates.1 hy)
        rw [hL.gesv _ _ _ _ hx]
        simp
      rw [if_neg ht']
      have hS : R1.solveSigma L.ops p (newtonSolve L' n) q.newton_tolerance q.max_newton_iterations
          q.max_linesearch_iterations = R1.solveSigma L.ops p (newtonSolve L n) q.newton_tolerance
          q.max_newton_iterations q.max_linesearch_iterations := by
        unfold R1.solveSigma
        rw [hN]
      rw [hS]
      generalize R1.solveSigma L.ops p (newtonSolve L n) q.newton_tolerance q.max_newton_iterations
        q.max_linesearch_iterations = z at h ⊢
      rcases z with ⟨s, _ | st⟩
      · cases h
      · dsimp only at h ⊢
        split
        · rename_i hb
          rw [if_pos hb] at h
          cases hd : second L (R2.In.of a p st (R1.diagnostics L.ops p st) (mu0 L.ops) q.p2 q.B2s q.B2c) a ord.r2p1 with
          | error e => rw [hd] at h; cases h
          | ok d => rw [hd] at h; rw [second_mono hL hd]; exact h
        · rename_i hb
          rw [if_neg hb] at h
          exact h

end Qsc.Single
