import Verif.Lemmas.ScanRunAll
import Verif.Lemmas.SingleRun

/-!
Helper lemmas for `Verif.Props.ScanRun`: how a process can end.
-/

namespace Qsc.ScanRun

open Qsc.Scan Qsc.ScanDraws Qsc.Spec.Scan Qsc.Spec.ScanPipeline Qsc.Spec.ScanRun Qsc.Spec.Sections Qsc.Spec.Single
open Qsc.ScanPipeline (Proc)
open Qsc.Single (LapackFails)

/-- An attempt comes through unless LAPACK fails. -/
theorem attempt_ends {e : Env} (ho : e.L.ops = Qsc.realOps) (hodd : e.n % 2 = 1) {rows : Nat} (hr : 0 < rows)
    {d : Drawn} (hs : Sized rows d) (s : Local ℝ) (m : Members) :
    (∃ x, attempt e d s m = .ok x) ∨ ∃ er, attempt e d s m = .error er ∧ LapackFails e.L er := by
  obtain ⟨M, hM⟩ : ∃ M, e.n = 2 * M + 1 := ⟨e.n / 2, by omega⟩
  have hw : (Single.coeffs (atDraw e.q d e.n)).WellSized := by
    obtain ⟨h1, h2, h3, h4⟩ := hs
    refine ⟨?_, ?_, ?_, ?_⟩
    · change 0 < d.R0c.length; omega
    · change d.R0s.length = d.R0c.length; omega
    · change d.Z0c.length = d.R0c.length; omega
    · change d.Z0s.length = d.R0c.length; omega
  obtain ⟨a, ha⟩ := Axis.init_ok (Single.coeffs (atDraw e.q d e.n)) hw M e.q.sG e.q.spsi e.q.B0
  rw [← hM, ← ho] at ha
  unfold attempt
  dsimp only
  split
  · exact Or.inl ⟨_, rfl⟩
  erw [ha]
  dsimp only
  split
  · exact Or.inl ⟨_, rfl⟩
  split
  · exact Or.inl ⟨_, rfl⟩
  split
  · exact Or.inl ⟨_, rfl⟩
  rw [first_eq]
  dsimp only
  split
  · next h =>
    refine Or.inr ⟨_, rfl, Or.inl ⟨rfl, ?_⟩⟩
    unfold Single.newtonThrows at h
    obtain ⟨x, -, hx⟩ := List.any_eq_true.mp h
    exact ⟨_, _, _, Option.isNone_iff_eq_none.mp hx⟩
  obtain ⟨st, hst, -⟩ := R1.solve_spec (cfgAt e d a)
    (Single.newtonSolve e.L e.n) e.q.newton_tolerance e.q.max_newton_iterations e.q.max_linesearch_iterations
  rw [← ho] at hst
  rw [hst]
  dsimp only
  split
  · exact Or.inl ⟨_, rfl⟩
  split
  · exact Or.inl ⟨_, rfl⟩
  split
  · exact Or.inl ⟨_, rfl⟩
  split
  swap
  · exact Or.inl ⟨_, rfl⟩
  generalize inAt e d a st = i
  unfold beyond
  dsimp only
  cases hg : e.L.gesv (2 * i.cfg.nphi) (R2.matrix i m.matrix) (R2.rhs i) with
  | none => exact Or.inr ⟨_, rfl, Or.inl ⟨rfl, _, _, _, hg⟩⟩
  | some x =>
    dsimp only
    split
    · exact Or.inl ⟨_, rfl⟩
    split
    · exact Or.inl ⟨_, rfl⟩
    split
    · exact Or.inl ⟨_, rfl⟩
    split
    · exact Or.inl ⟨_, rfl⟩
    cases hs : RSing.calculate e.L.ops (if e.L.single then RSing.tolSingle else RSing.tolDouble) e.L.geev i
      (R2.finish e.L.ops i x) with
    | error msg =>
      rw [ho] at hs
      obtain ⟨rfl, hm⟩ := RSing.calculate_error (Single.tol_nonneg e.L.single) hs
      exact Or.inr ⟨_, rfl, Or.inr ⟨rfl, hm⟩⟩
    | ok sing =>
      dsimp only
      split
      · exact Or.inl ⟨_, rfl⟩
      split
      · exact Or.inl ⟨_, rfl⟩
      exact Or.inl ⟨_, rfl⟩

theorem loop_ends {e : Env} (ho : e.L.ops = Qsc.realOps) (hodd : e.n % 2 = 1) {rows : Nat} (hr : 0 < rows)
    (m0 : Members) (l : List ((Bool × Bool) × Drawn)) (hs : ∀ d ∈ l.map (·.2), Sized rows d) :
    (∃ t, loop e m0 l = .ok t) ∨ ∃ er, loop e m0 l = .error er ∧ LapackFails e.L er := by
  induction l using List.reverseRecOn with
  | nil => exact Or.inl ⟨_, rfl⟩
  | append_singleton l x ih =>
    rw [loop_concat]
    rcases ih fun d hd => hs d (by rw [List.map_append]; exact List.mem_append_left _ hd) with ⟨t, ht⟩ | ⟨er, h1, h2⟩
    swap
    · rw [h1]; exact Or.inr ⟨er, rfl, h2⟩
    rw [ht]
    dsimp only
    have key := fun s => attempt_ends ho hodd hr (hs x.2 (by simp)) s t.mem
    unfold iter
    split
    swap
    · exact Or.inl ⟨_, rfl⟩
    dsimp only
    repeat' split
    all_goals first
      | exact Or.inl ⟨_, rfl⟩
      | (next h9 =>
          rcases key _ with ⟨y, hy⟩ | ⟨er, h1, h2⟩
          · rw [hy] at h9
            cases h9
          · rw [h1] at h9
            cases h9
            exact Or.inr ⟨_, rfl, h2⟩)

/-- Without checkpoints there is one collection. -/
theorem loop_snaps {e : Env} (m0 : Members) (l : List ((Bool × Bool) × Drawn)) (h : ∀ x ∈ l.map (·.1), x.2 = false) :
    ∀ t, loop e m0 l = .ok t → t.snaps = [] := by
  induction l using List.reverseRecOn with
  | nil => intro t ht; cases ht; rfl
  | append_singleton l x ih =>
    intro t' h'
    rw [loop_concat] at h'
    cases hl : loop e m0 l with
    | error er => rw [hl] at h'; cases h'
    | ok t =>
      rw [hl] at h'
      dsimp only at h'
      have hx : x.1.2 = false := h x.1 (by simp)
      have ht := ih (fun x hx => h x (by rw [List.map_append]; exact List.mem_append_left _ hx)) t hl
      unfold iter at h'
      rw [hx] at h'
      dsimp only at h'
      simp only [Bool.false_eq_true, if_false] at h'
      repeat' split at h'
      all_goals first
        | (cases h'; exact ht)
        | cases h'

/-- The loop goes on only if the clock has not said that time is up. -/
theorem running_clock {F : Type} (o : Scan.Ops F) (cfg : Cfg F) (env : List (Scan.Step F)) :
    (Scan.run o cfg env).status = .running → ∀ s ∈ env, s.timeUp = false := by
  induction env using List.reverseRecOn with
  | nil => intro _ s hs; cases hs
  | append_singleton l x ih =>
    rw [Scan.run_concat]
    unfold Scan.iter
    intro h
    split at h
    swap
    · next hn => exact absurd h hn
    next hr =>
    dsimp only at h
    intro s hs
    rcases List.mem_append.1 hs with hs | hs
    · exact ih hr s hs
    rw [List.mem_singleton] at hs
    subst hs
    by_contra ht
    rw [Bool.not_eq_false] at ht
    simp only [ht, Bool.not_true, ite_self, Bool.false_eq_true, if_false] at h
    repeat' split at h
    all_goals first
      | exact absurd h (by simp)
      | (next hx => rw [hx] at h; cases h)

section
variable {L : Single.Lib ℝ} {left : (Nat → Nat → ℝ) → Nat → Nat → ℝ} {l0 : ℝ} {c0 : Cand ℝ} {r : Sections.ScanObj ℝ}
  {modes rank : Nat} {p : Proc}

theorem prepare_ends (l0 : ℝ) (ht : Typed scanDoc r.mem) (hn : ModeCount r.mem modes)
    (hk : ∀ k, r.mem "max_keep_per_proc" = some (.int k) → 0 ≤ k) (rank : Nat) (p : Proc) :
    (Startable r.mem r.q.order_r_option modes ∧ ∃ v, ScanPipeline.prepare l0 r rank p = .ok v) ∨
    ¬ Startable r.mem r.q.order_r_option modes ∧ ∃ e, ScanPipeline.prepare l0 r rank p = .error e := by
  obtain ⟨c, cfg', h1, h2, h2', h3⟩ := prepare_eq l0 ht hn hk
  rw [h3]
  have hs := ScanPipeline.startable_iff h1 l0 p.u rank
  cases hg : start l0 p.u c rank with
  | error e => exact Or.inr ⟨(fun h => by obtain ⟨⟨g, hg'⟩, -⟩ := hs.1 h; rw [hg] at hg'; cases hg'), _, rfl⟩
  | ok g =>
    cases hv : Setup.validate r.q.order_r_option with
    | error e => exact Or.inr ⟨(fun h => by obtain ⟨-, o, ho⟩ := hs.1 h; rw [hv] at ho; cases ho), _, rfl⟩
    | ok o => exact Or.inl ⟨hs.2 ⟨⟨g, hg⟩, o, hv⟩, _, rfl⟩

/-- The outcomes of a process. -/
theorem process_ends (ho : L.ops = Qsc.realOps) (hu : ∀ k, 0 ≤ p.u k ∧ p.u k ≤ 1) (ht : Typed scanDoc r.mem)
    (hn : ModeCount r.mem modes) (h0 : 0 < modes) (hk : ∀ k, r.mem "max_keep_per_proc" = some (.int k) → 1 ≤ k)
    (hs : Startable r.mem r.q.order_r_option modes) (h1 : 0 ≤ r.q.nphi) (h2 : 0 < r.q.nfp) :
    (∃ ord sn, Setup.validate r.q.order_r_option = .ok ord ∧
      process L left l0 c0 r rank p = .ok (Setup.oddNphi r.q.nphi.toNat, ord, sn) ∧
      ((∀ x ∈ p.clock, x.2 = false) → sn.length = 1)) ∨
    (process L left l0 c0 r rank p = .error .running ∧ ∀ x ∈ p.clock, x.1 = false) ∨
    ∃ e, process L left l0 c0 r rank p = .error (.single e) ∧ LapackFails L e := by
  rcases prepare_ends l0 ht hn (fun k e => le_trans zero_le_one (hk k e)) rank p with ⟨-, ⟨cfg, ord, l⟩, hp⟩ | ⟨h, -⟩
  swap
  · exact absurd hs h
  have P := prepare_ok ht hn (fun k e => le_trans zero_le_one (hk k e)) hu hp
  have hk0 : 1 ≤ cfg.maxKeep := hk _ P.isCfg.maxKeep
  unfold process
  rw [hp]
  dsimp only
  rw [if_neg (not_lt.2 h1), if_neg (not_le.2 h2)]
  rcases loop_ends (e := ⟨L, left, r.q, Setup.oddNphi r.q.nphi.toNat, cfg⟩) ho (odd_points h1).2 h0 (members0 c0) l
    (fun d hd => sized_of_inBounds (P.bounds d hd)) with ⟨t, hl⟩ | ⟨er, hl, hf⟩
  swap
  · rw [hl]; exact Or.inr (Or.inr ⟨er, rfl, hf⟩)
  rw [hl]
  have I := loop_inv hk0 c0 l hl
  have J := Scan.inv_run ScanPipeline.realOps cfg hk0 (stepsOf ⟨L, left, r.q, Setup.oddNphi r.q.nphi.toNat, cfg⟩ c0 l)
  have hloc := I.loc
  dsimp only at hloc ⊢
  cases hst : t.loc.status with
  | ub => rw [hloc] at hst; exact absurd hst J.no_ub
  | finished =>
    refine Or.inl ⟨ord, _, P.valid, rfl, fun hc => ?_⟩
    rw [loop_snaps _ _ (by rw [P.clock]; exact hc) t hl]
    rfl
  | running =>
    refine Or.inr (Or.inl ⟨rfl, fun x hx => ?_⟩)
    rw [hloc] at hst
    rw [← P.clock] at hx
    obtain ⟨y, hy, rfl⟩ := List.mem_map.1 hx
    exact running_clock _ _ _ hst ⟨y.1.1, y.1.2, candOf ⟨L, left, r.q, Setup.oddNphi r.q.nphi.toNat, cfg⟩ c0 y.2⟩
      (List.mem_map.2 ⟨y, hy, rfl⟩)

end

end Qsc.ScanRun
