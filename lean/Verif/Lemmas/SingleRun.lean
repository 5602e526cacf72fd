import Verif.Lemmas.SingleVars
import Verif.Props.Axis
import Verif.Props.R1
import Verif.Props.RSing
import Verif.Props.Outfile

/-!
# Lemmas for a single run: when the calculation ends, and independence of uninitialised memory
-/

namespace Qsc.RSing

variable {geev : Quartic.Geev ℝ}

/-- The only exception is that of the eigenvalue routine. -/
theorem calculate_error {t : Tol ℝ} (ht : 0 ≤ t.sc) {i : R2.In ℝ} {r : R2.R2 ℝ} {e : String}
    (h : calculate realOps t geev i r = .error e) : e = "LAPACK error in *geev" ∧ ∃ m, geev m = none := by
  have hg : ∀ g e, gridPoint realOps t geev g = .error e → e = "LAPACK error in *geev" ∧ ∃ m, geev m = none := by
    intro g e h
    by_cases hl : geev (Quartic.companion (coefficients (scaled g))) = none
    · refine ⟨?_, _, hl⟩
      by_cases hk : (unscaled g).K4c = 0
      · rw [gridPoint, if_pos hk] at h; cases h
      · rw [gridPoint, if_neg hk] at h
        simp only [Quartic.roots, hl] at h
        cases h
        rfl
    · obtain ⟨x, hx, -⟩ := reported_sound ht g geev hl
      rw [hx] at h; cases h
  have hp : ∀ n g e, profile realOps t geev n g = .error e → e = "LAPACK error in *geev" ∧ ∃ m, geev m = none := by
    intro n g
    induction n with
    | zero => intro e h; cases h
    | succ n ih =>
      intro e h
      change profileStep realOps t geev g n (profile realOps t geev n g) = .error e at h
      cases hn : profile realOps t geev n g with
      | error e' =>
        rw [hn] at h
        cases h
        exact ih _ hn
      | ok f =>
        rw [hn] at h
        simp only [profileStep] at h
        cases hq : gridPoint realOps t geev (g n) with
        | error e' => rw [hq] at h; cases h; exact hg _ _ hq
        | ok x => rw [hq] at h; cases h
  unfold calculate at h
  split at h
  · rename_i e' he
    cases h
    exact hp _ _ _ he
  · cases h

end Qsc.RSing

namespace Qsc.Single
open Qsc.Netcdf Qsc.Spec.Netcdf Qsc.Spec.Output Qsc.Output Qsc.Toml Qsc.Spec.Single

/-- One of the LAPACK routines failed, and the exception that follows. -/
def LapackFails {K : Type} (L : Lib K) (e : Err) : Prop :=
  (e = .throw "LAPACK error in *gesv" ∧ ∃ n m b, L.gesv n m b = none) ∨
  (e = .throw "LAPACK error in *geev" ∧ ∃ m, L.geev m = none)

theorem tol_nonneg (b : Bool) : 0 ≤ (if b then (RSing.tolSingle : RSing.Tol ℝ) else RSing.tolDouble).sc := by
  cases b <;> simp [RSing.tolSingle, RSing.tolDouble]

theorem second_ends {L : Lib ℝ} (ho : L.ops = realOps) (i : R2.In ℝ) (a : Axis.Axis ℝ) (b : Bool) :
    (∃ d, second L i a b = .ok d) ∨ ∃ e, second L i a b = .error e ∧ LapackFails L e := by
  unfold second
  cases h : L.gesv (2 * i.cfg.nphi) (R2.matrix i fun _ _ => 0) (R2.rhs i) with
  | none => exact Or.inr ⟨_, rfl, Or.inl ⟨rfl, _, _, _, h⟩⟩
  | some x =>
    dsimp only
    rw [ho]
    cases h' : RSing.calculate realOps (if L.single then RSing.tolSingle else RSing.tolDouble) L.geev i
        (R2.finish realOps i x) with
    | error e =>
      obtain ⟨rfl, hm⟩ := RSing.calculate_error (tol_nonneg L.single) h'
      exact Or.inr ⟨_, rfl, Or.inr ⟨rfl, hm⟩⟩
    | ok s => exact Or.inl ⟨_, rfl⟩

theorem calculate_ends {L : Lib ℝ} (ho : L.ops = realOps) (q : QscIn ℝ) (hc : (coeffs q).WellSized) (M : Nat)
    (ord : Setup.Order) :
    (∃ r, calculate L q (2 * M + 1) ord = .ok r) ∨
      ∃ e, calculate L q (2 * M + 1) ord = .error e ∧ LapackFails L e := by
  obtain ⟨a, ha⟩ := Axis.init_ok (coeffs q) hc M q.sG q.spsi q.B0
  unfold calculate
  rw [ho, ha]
  dsimp only
  split
  · rename_i h
    refine Or.inr ⟨_, rfl, Or.inl ⟨rfl, ?_⟩⟩
    unfold newtonThrows at h
    obtain ⟨x, -, hx⟩ := List.any_eq_true.mp h
    exact ⟨_, _, _, Option.isNone_iff_eq_none.mp hx⟩
  · obtain ⟨st, hst, -⟩ := R1.solve_spec (R1.Cfg.ofAxis a (2 * M + 1) q.nfp.toNat q.sG q.spsi q.eta_bar q.sigma0 q.I2 q.B0)
      (newtonSolve L (2 * M + 1)) q.newton_tolerance q.max_newton_iterations q.max_linesearch_iterations
    rcases hs : R1.solveSigma realOps (R1.Cfg.ofAxis a (2 * M + 1) q.nfp.toNat q.sG q.spsi q.eta_bar q.sigma0 q.I2 q.B0)
      (newtonSolve L (2 * M + 1)) q.newton_tolerance q.max_newton_iterations q.max_linesearch_iterations with ⟨s, o⟩
    rw [hs] at hst
    obtain rfl : o = some st := hst
    dsimp only
    split
    · rcases second_ends ho (R2.In.of a (R1.Cfg.ofAxis a (2 * M + 1) q.nfp.toNat q.sG q.spsi q.eta_bar q.sigma0 q.I2 q.B0)
        st (R1.diagnostics realOps (R1.Cfg.ofAxis a (2 * M + 1) q.nfp.toNat q.sG q.spsi q.eta_bar q.sigma0 q.I2 q.B0) st)
        (mu0 realOps) q.p2 q.B2s q.B2c) a ord.r2p1 with ⟨d, hd⟩ | ⟨e, he, hl⟩
      · rw [hd]; exact Or.inl ⟨_, rfl⟩
      · rw [he]; exact Or.inr ⟨_, rfl, hl⟩
    · exact Or.inl ⟨_, rfl⟩

theorem calculate_empty {L : Lib ℝ} (ho : L.ops = realOps) (q : QscIn ℝ) (h : q.R0c = []) (n : Nat) (ord : Setup.Order) :
    calculate L q n ord = .error (.run (.undefined "axis array")) := by
  unfold calculate
  rw [ho, Axis.short_array_undefined (coeffs q) n q.sG q.spsi q.B0 (Or.inl h)]

/-! ## Uninitialised memory -/

section
variable {K : Type} [Field K]

theorem foldl_set_congr {α : Type} (l : List α) (g : α → String) (v : α → Data K) {m m' : Mem K} {b : String}
    (h : b ∈ l.map g ∨ m b = m' b) :
    l.foldl (fun m a => Output.set m (g a) (v a)) m b = l.foldl (fun m a => Output.set m (g a) (v a)) m' b := by
  induction l generalizing m m' with
  | nil => exact h.resolve_left (by simp)
  | cons a l ih =>
    refine ih ?_
    by_cases e : b = g a
    · subst e
      exact Or.inr (by beta_reduce; rw [set_eq, set_eq])
    · rcases h with h | h
      · exact Or.inl ((List.mem_cons.mp h).resolve_left e)
      · exact Or.inr (by beta_reduce; rw [set_ne _ _ e, set_ne _ _ e, h])

theorem final_congr (o : Ops K) (m0 m0' : Mem K) (q : QscIn K) (ord : Setup.Order) (n : Nat) (r : Result K) {b : String}
    (h : b ∈ (resultShapes (isSecond r) (isThird r)).map (·.1) ∨ b ∈ allocNames (flags ord) ∨
      b ∈ "nphi" :: inputShapes.map (·.1)) :
    final o m0 q ord n r b = final o m0' q ord n r b := by
  unfold final
  refine foldl_set_congr (results o n r) Prod.fst Prod.snd ?_
  rw [results_names]
  rcases h with h | h | h
  · exact Or.inl h
  · right
    rw [allocNames_eq (flags ord) n] at h
    unfold allocated
    rcases List.mem_append.mp h with h | h
    · exact foldl_set_congr _ Prod.fst _ (Or.inr (foldl_set_congr _ Prod.fst _ (Or.inl h)))
    · exact foldl_set_congr _ Prod.fst _ (Or.inl h)
  · right
    unfold allocated
    refine foldl_set_congr _ Prod.fst _ (Or.inr (foldl_set_congr _ Prod.fst _ (Or.inr ?_)))
    by_cases e : b = "nphi"
    · subst e
      rw [set_eq, set_eq]
    · rw [set_ne _ _ e, set_ne _ _ e]
      exact foldl_set_congr (inputMembers q) Prod.fst Prod.snd (Or.inl (by rw [inputMembers_names]; exact h))

theorem call_addrs : ∀ fl ∈ orders, (qscCalls fl).all (fun c => decide
    (c.addr ∈ ["general_option", "at_least_order_r2_int", "order_r2p1_int", "order_r3_int"] ∨
      c.addr ∈ (resultShapes fl.r2 fl.r2p1).map (·.1) ∨ c.addr ∈ allocNames fl ∨
      c.addr ∈ "nphi" :: inputShapes.map (·.1)) && (match c with | .op _ => true | .big _ _ => false)) = true := by
  decide +kernel

theorem withLocals_congr {m m' : Mem K} {l : List (String × Data K)} {a : String} (h : a ∈ l.map (·.1) ∨ m a = m' a) :
    withLocals m l a = withLocals m' l a := by
  unfold withLocals
  cases hl : l.lookup a with
  | some d => rfl
  | none =>
    rcases h with h | h
    · rw [List.lookup_eq_none_iff] at hl
      obtain ⟨p, hp, rfl⟩ := List.mem_map.mp h
      have := hl p hp
      simp at this
    · simp [h]

theorem written_congr (toF : Nat → K) (o : Ops K) (m0 m0' : Mem K) (q : QscIn K) (ord : Setup.Order) (n : Nat)
    (r : Result K) (hd : Done ord r) :
    writeQsc toF ⟨flags ord, final o m0 q ord n r⟩ = writeQsc toF ⟨flags ord, final o m0' q ord n r⟩ := by
  have e0 : final o m0 q ord n r "R0c" = final o m0' q ord n r "R0c" :=
    final_congr o m0 m0' q ord n r (Or.inr (Or.inr (by decide +kernel)))
  unfold writeQsc
  simp only [intMember, final_nphi, vectorSize, e0]
  split
  · rfl
  · rfl
  · split
    · rfl
    · refine run_congr toF _ _ ?_
      intro op hop a ha
      rw [qscScope_eq, qscScope_eq]
      rcases List.mem_append.mp hop with h | h
      · simp only [List.mem_cons, List.not_mem_nil, or_false] at h
        rcases h with rfl | rfl | rfl <;> cases ha
      · obtain ⟨c, hc, rfl⟩ := List.mem_map.mp h
        have h' := List.all_eq_true.mp (call_addrs _ (orders_of hd)) c hc
        simp only [Bool.and_eq_true, decide_eq_true_eq] at h'
        obtain ⟨h1, h2⟩ := h'
        have hca : c.addr = a := by
          cases c with
          | op op =>
            cases op <;> simp only [Call.toOp, Op.addr?, Option.some.injEq, reduceCtorEq] at ha <;> exact ha
          | big _ _ => cases h2
        rw [hca] at h1
        refine withLocals_congr ?_
        rcases h1 with h1 | h1
        · exact Or.inl h1
        · refine Or.inr (final_congr o m0 m0' q ord n r ?_)
          rw [hd.2.1, hd.2.2]
          exact h1

end

end Qsc.Single
