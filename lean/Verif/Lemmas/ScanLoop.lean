import Verif.Model.ScanLoop
import Verif.Spec.ScanLoop
import Mathlib.Data.List.Basic
import Mathlib.Data.List.Induction
import Mathlib.Tactic.Linarith

/-! Helper lemmas for `Verif.Props.ScanLoop`. -/

namespace Qsc.Scan
open Qsc.Spec.Scan

variable {F : Type}

/-- Increment of each counter by one attempt. -/
def inc (o : Ops F) (cfg : Cfg F) (c : Cand F) (k : Counter) : Nat :=
  match k with
  | .attempts => 1
  | .kept => 0
  | .nSigma => if beforeSigma.any (Rejects o cfg c) then 0 else 1
  | .nR2 => if cfg.r2 && !((beforeSigma ++ beforeR2).any (Rejects o cfg c)) then 1 else 0
  | k => if charged o cfg c = some k then 1 else 0

theorem natAbs_bne_one (h : Int) : (h.natAbs != 1) = (h != 1 && h != -1) := by
  rw [Bool.eq_iff_iff]
  simp only [bne_iff_ne, ne_eq, Bool.and_eq_true]
  omega

theorem bump_attempts (k : Counter) (s : Local F) :
    bump k s = { s with filters := fun c => s.filters c + if c = k then 1 else 0 } := by
  unfold bump
  congr 1
  funext c
  split <;> simp

theorem Passes_eq (o : Ops F) (cfg : Cfg F) (c : Cand F) :
    Passes o cfg c = (charged o cfg c).isNone := by
  unfold Passes charged
  rw [Bool.eq_iff_iff, Option.isNone_iff_eq_none, List.find?_eq_none, Bool.not_eq_true',
    List.any_eq_false]
  constructor
  · intro h k _
    exact h k (by cases k <;> decide)
  · intro h k _
    cases k
    case attempts => simp [Rejects]
    case kept => simp [Rejects]
    case nSigma => simp [Rejects]
    case nR2 => simp [Rejects]
    all_goals exact h _ (by decide)

/-- One attempt: counters move by `inc`, the candidate is saved iff it passes. -/
theorem attempt_eq (o : Ops F) (cfg : Cfg F) (c : Cand F) (s : Local F) :
    attempt o cfg c s =
      (let s' : Local F := { s with filters := fun k => s.filters k + inc o cfg c k }
       if Passes o cfg c then save c s' else s') := by
  have hcong : ∀ (f g : Counter → Nat), (∀ k, f k = g k) →
      ({ s with filters := f } : Local F) = { s with filters := g } := by
    intro f g h; congr 1; funext k; exact h k
  have hel := natAbs_bne_one c.helicity
  dsimp only
  rw [Passes_eq]
  unfold attempt
  dsimp only
  rw [hel]
  simp only [← Bool.and_assoc (cfg.helicityToKeep == 1)]
  change (if Rejects o cfg c .r0Crude then _ else if Rejects o cfg c .r0 then _
    else if Rejects o cfg c .helicity then _ else if Rejects o cfg c .curvature then _
    else if Rejects o cfg c .iota then _ else if Rejects o cfg c .elongation then _
    else if Rejects o cfg c .lGradB then _ else _) = _
  simp only [bump_attempts]
  by_cases h1 : Rejects o cfg c .r0Crude
  · have hc : charged o cfg c = some .r0Crude := by simp [charged, order, beforeSigma, h1]
    simp only [h1, if_true, hc, Option.isNone_some, Bool.false_eq_true, if_false]
    apply hcong
    intro k
    cases k <;> simp [inc, hc, beforeSigma, h1]
  by_cases h2 : Rejects o cfg c .r0
  · have hc : charged o cfg c = some .r0 := by simp [charged, order, beforeSigma, h1, h2]
    simp only [h1, h2, if_true, hc, Option.isNone_some, Bool.false_eq_true, if_false]
    apply hcong
    intro k
    cases k <;> simp [inc, hc, beforeSigma, h1, h2]
  by_cases h3 : Rejects o cfg c .helicity
  · have hc : charged o cfg c = some .helicity := by simp [charged, order, beforeSigma, h1, h2, h3]
    simp only [h1, h2, h3, if_true, hc, Option.isNone_some, Bool.false_eq_true, if_false]
    apply hcong
    intro k
    cases k <;> simp [inc, hc, beforeSigma, h1, h2, h3]
  by_cases h4 : Rejects o cfg c .curvature
  · have hc : charged o cfg c = some .curvature := by
      simp [charged, order, beforeSigma, h1, h2, h3, h4]
    simp only [h1, h2, h3, h4, if_true, hc, Option.isNone_some, Bool.false_eq_true, if_false]
    apply hcong
    intro k
    cases k <;> simp [inc, hc, beforeSigma, h1, h2, h3, h4]
  by_cases h5 : Rejects o cfg c .iota
  · have hc : charged o cfg c = some .iota := by
      simp [charged, order, beforeSigma, beforeR2, h1, h2, h3, h4, h5]
    simp only [h1, h2, h3, h4, h5, if_true, hc, Option.isNone_some, Bool.false_eq_true, if_false]
    apply hcong
    intro k
    cases k <;> simp [inc, hc, beforeSigma, beforeR2, h1, h2, h3, h4, h5]
  by_cases h6 : Rejects o cfg c .elongation
  · have hc : charged o cfg c = some .elongation := by
      simp [charged, order, beforeSigma, beforeR2, h1, h2, h3, h4, h5, h6]
    simp only [h1, h2, h3, h4, h5, h6, if_true, hc, Option.isNone_some, Bool.false_eq_true,
      if_false]
    apply hcong
    intro k
    cases k <;> simp [inc, hc, beforeSigma, beforeR2, h1, h2, h3, h4, h5, h6]
  by_cases h7 : Rejects o cfg c .lGradB
  · have hc : charged o cfg c = some .lGradB := by
      simp [charged, order, beforeSigma, beforeR2, h1, h2, h3, h4, h5, h6, h7]
    simp only [h1, h2, h3, h4, h5, h6, h7, if_true, hc, Option.isNone_some, Bool.false_eq_true,
      if_false]
    apply hcong
    intro k
    cases k <;> simp [inc, hc, beforeSigma, beforeR2, h1, h2, h3, h4, h5, h6, h7]
  simp only [h1, h2, h3, h4, h5, h6, h7, Bool.false_eq_true, if_false]
  by_cases hr : cfg.r2
  swap
  · have hr' : cfg.r2 = false := by simpa using hr
    have hc : charged o cfg c = none := by
      simp [charged, order, beforeSigma, beforeR2, afterR2, h1, h2, h3, h4, h5, h6, h7]
      simp [Rejects, hr']
    simp only [hr', Bool.false_eq_true, if_false, hc, Option.isNone_none, if_true]
    congr 1
    apply hcong
    intro k
    cases k <;> simp [inc, hc, beforeSigma, beforeR2, h1, h2, h3, h4, h5, h6, h7, hr']
  simp only [hr, if_true]
  have e8 : (!cfg.keepAll && o.lt cfg.maxB20Variation c.b20Variation)
      = Rejects o cfg c .b20Variation := by simp [Rejects, hr]
  have e9 : (!cfg.keepAll && o.lt cfg.maxD2Volume c.d2Volume)
      = Rejects o cfg c .d2Volume := by simp [Rejects, hr]
  have e10 : (!cfg.keepAll && o.lt c.dMerc cfg.minDMerc)
      = Rejects o cfg c .dMerc := by simp [Rejects, hr]
  have e11 : (!cfg.keepAll && o.lt c.gridMinLGradGradB cfg.minLGradGradB)
      = Rejects o cfg c .lGradGradB := by simp [Rejects, hr]
  have e12 : (!cfg.keepAll && o.lt c.rSingularity cfg.minRSingularity)
      = Rejects o cfg c .rSingularity := by simp [Rejects, hr]
  have e13 : (!cfg.keepAll && o.lt c.beta cfg.minBeta)
      = Rejects o cfg c .beta := by simp [Rejects, hr]
  simp only [e8, e9, e10, e11, e12, e13]
  have base : ∀ X, charged o cfg c = X ↔ afterR2.find? (Rejects o cfg c) = X := by
    intro X
    simp [charged, order, beforeSigma, beforeR2, h1, h2, h3, h4, h5, h6, h7]
  by_cases h8 : Rejects o cfg c .b20Variation
  · have hc : charged o cfg c = some .b20Variation := by simp [base, afterR2, h8]
    simp only [h8, if_true, hc, Option.isNone_some, Bool.false_eq_true, if_false]
    apply hcong
    intro k
    cases k <;> simp [inc, hc, beforeSigma, beforeR2, hr, h1, h2, h3, h4, h5, h6, h7]
  by_cases h9 : Rejects o cfg c .d2Volume
  · have hc : charged o cfg c = some .d2Volume := by simp [base, afterR2, h8, h9]
    simp only [h8, h9, if_true, hc, Option.isNone_some, Bool.false_eq_true, if_false]
    apply hcong
    intro k
    cases k <;> simp [inc, hc, beforeSigma, beforeR2, hr, h1, h2, h3, h4, h5, h6, h7]
  by_cases h10 : Rejects o cfg c .dMerc
  · have hc : charged o cfg c = some .dMerc := by simp [base, afterR2, h8, h9, h10]
    simp only [h8, h9, h10, if_true, hc, Option.isNone_some, Bool.false_eq_true, if_false]
    apply hcong
    intro k
    cases k <;> simp [inc, hc, beforeSigma, beforeR2, hr, h1, h2, h3, h4, h5, h6, h7]
  by_cases h11 : Rejects o cfg c .lGradGradB
  · have hc : charged o cfg c = some .lGradGradB := by simp [base, afterR2, h8, h9, h10, h11]
    simp only [h8, h9, h10, h11, if_true, hc, Option.isNone_some, Bool.false_eq_true, if_false]
    apply hcong
    intro k
    cases k <;> simp [inc, hc, beforeSigma, beforeR2, hr, h1, h2, h3, h4, h5, h6, h7]
  by_cases h12 : Rejects o cfg c .rSingularity
  · have hc : charged o cfg c = some .rSingularity := by
      simp [base, afterR2, h8, h9, h10, h11, h12]
    simp only [h8, h9, h10, h11, h12, if_true, hc, Option.isNone_some, Bool.false_eq_true,
      if_false]
    apply hcong
    intro k
    cases k <;> simp [inc, hc, beforeSigma, beforeR2, hr, h1, h2, h3, h4, h5, h6, h7]
  by_cases h13 : Rejects o cfg c .beta
  · have hc : charged o cfg c = some .beta := by
      simp [base, afterR2, h8, h9, h10, h11, h12, h13]
    simp only [h8, h9, h10, h11, h12, h13, if_true, hc, Option.isNone_some, Bool.false_eq_true,
      if_false]
    apply hcong
    intro k
    cases k <;> simp [inc, hc, beforeSigma, beforeR2, hr, h1, h2, h3, h4, h5, h6, h7]
  · have hc : charged o cfg c = none := by
      simp [base, afterR2, h8, h9, h10, h11, h12, h13]
    simp only [h8, h9, h10, h11, h12, h13, if_true, hc, Option.isNone_none, Bool.false_eq_true,
      if_false]
    congr 1
    apply hcong
    intro k
    cases k <;> simp [inc, hc, beforeSigma, beforeR2, hr, h1, h2, h3, h4, h5, h6, h7]

end Qsc.Scan

namespace Qsc.Scan
open Qsc.Spec.Scan

variable {F : Type}

/-- The candidates of the first `n` passes. -/
def firstCands (env : List (Step F)) (n : Nat) : List (Cand F) := (env.take n).map Step.cand

/-- Loop invariant. -/
structure Inv (o : Ops F) (cfg : Cfg F) (env : List (Step F)) (s : Local F) : Prop where
  le_len : s.filters .attempts ≤ env.length
  counts : ∀ k, s.filters k = ((firstCands env (s.filters .attempts)).map (inc o cfg · k)).sum
  saved : s.jScan = ((firstCands env (s.filters .attempts)).filter (Passes o cfg)).length
  cols : s.cols = ((firstCands env (s.filters .attempts)).filter (Passes o cfg)).map
      (fun c => some c.column) ++ List.replicate (cfg.maxKeep.toNat - s.jScan) none
  cap : s.jScan ≤ cfg.maxKeep.toNat
  no_ub : s.status ≠ .ub
  running : s.status = .running →
    s.filters .attempts = env.length ∧ s.jScan < cfg.maxKeep.toNat
  limit : cfg.maxAttempts > 0 → (s.filters .attempts : Int) ≤ cfg.maxAttempts

theorem run_concat (o : Ops F) (cfg : Cfg F) (env : List (Step F)) (e : Step F) :
    run o cfg (env ++ [e]) = iter o cfg (run o cfg env) e := by
  simp [run]

theorem firstCands_of_le (env : List (Step F)) (e : Step F) {n : Nat} (h : n ≤ env.length) :
    firstCands (env ++ [e]) n = firstCands env n := by
  unfold firstCands
  rw [List.take_append_of_le_length h]

theorem firstCands_all (env : List (Step F)) (e : Step F) :
    firstCands (env ++ [e]) (env.length + 1) = firstCands env env.length ++ [e.cand] := by
  unfold firstCands
  rw [List.take_of_length_le (by simp), List.take_of_length_le le_rfl]
  simp

theorem inv_run (o : Ops F) (cfg : Cfg F) (hk : 1 ≤ cfg.maxKeep) (env : List (Step F)) :
    Inv o cfg env (run o cfg env) := by
  induction env using List.reverseRecOn with
  | nil =>
    refine ⟨by simp [run, init], ?_, ?_, ?_, ?_, ?_, ?_, ?_⟩
    all_goals simp [run, init, firstCands]
    all_goals omega
  | append_singleton env e ih =>
    rw [run_concat]
    generalize run o cfg env = s at ih
    -- states that do not attempt
    have keep : ∀ s' : Local F, s'.filters = s.filters → s'.jScan = s.jScan → s'.cols = s.cols →
        s'.status = .finished → Inv o cfg (env ++ [e]) s' := by
      intro s' h1 h2 h3 h4
      have hle := ih.le_len
      constructor
      · rw [h1]; simp; omega
      · intro k; rw [h1, firstCands_of_le env e hle]; exact ih.counts k
      · rw [h1, h2, firstCands_of_le env e hle]; exact ih.saved
      · rw [h1, h2, h3, firstCands_of_le env e hle]; exact ih.cols
      · rw [h2]; exact ih.cap
      · rw [h4]; decide
      · rw [h4]; intro h; cases h
      · intro h; rw [h1]; exact ih.limit h
    by_cases hrun : s.status = .running
    swap
    · have hfin : s.status = .finished := by
        have := ih.no_ub
        cases hs : s.status <;> simp_all
      unfold iter
      rw [if_neg hrun]
      exact keep s rfl rfl rfl hfin
    obtain ⟨hlen, hcap⟩ := ih.running hrun
    unfold iter
    rw [if_pos hrun]
    dsimp only
    -- replace the state by the one with the checkpoint recorded
    obtain ⟨t, ht, ht1, ht2, ht3, ht4⟩ : ∃ t : Local F,
        t = (if e.checkpointDue = true then
          { s with checkpoints := s.checkpoints ++ [s.jScan] } else s) ∧
        t.filters = s.filters ∧ t.jScan = s.jScan ∧ t.cols = s.cols ∧ t.status = s.status := by
      refine ⟨_, rfl, ?_⟩
      split <;> simp
    rw [← ht]
    split
    · exact keep _ ht1 ht2 ht3 rfl
    · rename_i hlim
      rw [attempt_eq]
      dsimp only
      -- facts about the state after the attempt
      have hcolslen : s.cols.length = cfg.maxKeep.toNat := by
        rw [ih.cols, List.length_append, List.length_map, List.length_replicate, ← ih.saved]
        omega
      have hatt : t.filters .attempts + inc o cfg e.cand .attempts = env.length + 1 := by
        rw [ht1, hlen]; rfl
      have hcounts : ∀ k, t.filters k + inc o cfg e.cand k
          = ((firstCands (env ++ [e]) (env.length + 1)).map (inc o cfg · k)).sum := by
        intro k
        rw [ht1, firstCands_all, List.map_append, List.sum_append, ih.counts k, hlen]
        simp
      have hlimit : cfg.maxAttempts > 0 → ((env.length + 1 : Nat) : Int) ≤ cfg.maxAttempts := by
        intro h
        simp only [ht1, hlen, Bool.and_eq_true, decide_eq_true_eq, not_and] at hlim
        have := hlim h
        push_cast; omega
      by_cases hp : Passes o cfg e.cand
      · have hsv : s.jScan + 1
            = ((firstCands (env ++ [e]) (env.length + 1)).filter (Passes o cfg)).length := by
          rw [firstCands_all, List.filter_append, List.length_append, ih.saved, hlen]
          simp [hp]
        have hcl : s.cols.set s.jScan (some e.cand.column)
            = ((firstCands (env ++ [e]) (env.length + 1)).filter (Passes o cfg)).map
              (fun c => some c.column)
              ++ List.replicate (cfg.maxKeep.toNat - (s.jScan + 1)) none := by
          rw [firstCands_all, List.filter_append, List.map_append, ih.cols, hlen]
          have hj : s.jScan = ((List.filter (Passes o cfg) (firstCands env env.length)).map
              (fun c => some c.column)).length := by
            rw [List.length_map, ih.saved, hlen]
          rw [List.set_append_right _ _ hj.ge, ← hj, Nat.sub_self,
            show cfg.maxKeep.toNat - s.jScan = (cfg.maxKeep.toNat - (s.jScan + 1)) + 1 by omega,
            List.replicate_succ]
          simp [hp]
        have hsave : save e.cand { t with filters := fun k => t.filters k + inc o cfg e.cand k }
            = { t with
                filters := fun k => t.filters k + inc o cfg e.cand k
                cols := t.cols.set t.jScan (some e.cand.column)
                jScan := t.jScan + 1 } := by
          unfold save
          rw [if_pos]
          rw [ht2, ht3, hcolslen]; exact hcap
        simp only [hp, if_true]
        rw [hsave]
        dsimp only
        rw [if_neg (by rw [ht4, hrun]; decide)]
        obtain ⟨b, hb⟩ : ∃ b, b = (if t.jScan + 1 ≠ t.jScan ∧
            ((t.jScan + 1 : Nat) : Int) ≥ cfg.maxKeep then false else !e.timeUp) := ⟨_, rfl⟩
        rw [← hb]
        constructor
        · split <;> (dsimp only; rw [hatt]; simp)
        · intro k; split <;> (dsimp only; rw [hatt]; exact hcounts k)
        · split <;> (dsimp only; rw [hatt, ht2]; exact hsv)
        · split <;> (dsimp only; rw [hatt, ht2, ht3]; exact hcl)
        · split <;> (dsimp only; rw [ht2]; omega)
        · split
          · dsimp only; rw [ht4, hrun]; decide
          · simp
        · split
          · rename_i hkg
            intro _
            dsimp only
            refine ⟨by rw [hatt]; simp, ?_⟩
            rw [ht2] at hb ⊢
            by_contra hge
            rw [if_pos ⟨by omega, by omega⟩] at hb
            rw [hb] at hkg
            cases hkg
          · intro h; cases h
        · intro h
          split <;> (dsimp only; rw [hatt]; exact hlimit h)
      · have hsv : s.jScan
            = ((firstCands (env ++ [e]) (env.length + 1)).filter (Passes o cfg)).length := by
          rw [firstCands_all, List.filter_append, List.length_append, ih.saved, hlen]
          simp [hp]
        have hcl : s.cols
            = ((firstCands (env ++ [e]) (env.length + 1)).filter (Passes o cfg)).map
              (fun c => some c.column) ++ List.replicate (cfg.maxKeep.toNat - s.jScan) none := by
          rw [firstCands_all, List.filter_append, List.map_append]
          have := ih.cols
          rw [hlen] at this
          simpa [hp] using this
        simp only [if_neg hp]
        rw [if_neg (by rw [ht4, hrun]; decide)]
        generalize (if t.jScan ≠ t.jScan ∧ (t.jScan : Int) ≥ cfg.maxKeep then false
          else !e.timeUp) = b
        constructor
        · split <;> (dsimp only; rw [hatt]; simp)
        · intro k; split <;> (dsimp only; rw [hatt]; exact hcounts k)
        · split <;> (dsimp only; rw [hatt, ht2]; exact hsv)
        · split <;> (dsimp only; rw [hatt, ht2, ht3]; exact hcl)
        · split <;> (dsimp only; rw [ht2]; omega)
        · split
          · dsimp only; rw [ht4, hrun]; decide
          · simp
        · split
          · intro _
            dsimp only
            exact ⟨by rw [hatt]; simp, by rw [ht2]; exact hcap⟩
          · intro h; cases h
        · intro h
          split <;> (dsimp only; rw [hatt]; exact hlimit h)

end Qsc.Scan
