import Verif.Lemmas.ScanLoop
import Mathlib.Algebra.Order.Field.Basic
import Mathlib.Algebra.BigOperators.Intervals
import Mathlib.Algebra.Order.Ring.Rat
import Mathlib.Tactic.Ring

/-!
# Properties C11, C12, C13, C14: the random scan on one process
-/

namespace Qsc.Scan
open Qsc.Spec.Scan

variable {F : Type}

/-! ## A concrete scan used by the examples -/

/-- Exact operations of an ordered field. -/
def exactOps (F : Type) [Field F] [LinearOrder F] : Ops F where
  lt x y := decide (x < y)
  le x y := decide (x ≤ y)
  zero := 0
  add := (· + ·)
  sub := (· - ·)
  abs x := |x|
  inv x := 1 / x

/-- A candidate with the given axis, iota and elongation; everything else is harmless. -/
def exCand (R0c : List ℚ) (iota elong : ℚ) : Cand ℚ where
  etaBar := 1
  sigma0 := 0
  B2c := 0
  B2s := 0
  p2 := 0
  axisLength := 6
  gridMinR0 := 1
  gridMaxCurvature := 1
  iota := iota
  gridMaxElongation := elong
  gridMinLGradB := 1
  gridMinLGradGradB := 1
  rSingularity := 1
  d2Volume := 0
  dMerc := 1
  b20Variation := 1
  b20Residual := 1
  sdR := 0
  sdZ := 0
  beta := 1
  helicity := 1
  R0c := R0c
  R0s := R0c.map fun _ => 0
  Z0c := R0c.map fun _ => 0
  Z0s := R0c.map fun _ => 0

/-- Filter settings of the examples: second order, at most two kept. -/
def exCfg : Cfg ℚ where
  keepAll := false
  r2 := true
  helicityToKeep := 1
  minR0 := 1 / 2
  minIota := 1 / 5
  maxElongation := 10
  minLGradB := 1 / 5
  minLGradGradB := 1 / 5
  maxB20Variation := 5
  minRSingularity := 1 / 10
  maxD2Volume := 100
  minDMerc := 0
  minBeta := 0
  maxKeep := 2
  maxAttempts := 5

/-- A run: crude reject, keep, iota reject (with a checkpoint), keep, (stopped). -/
def exEnv : List (Step ℚ) :=
  [⟨false, false, exCand [1, 2] 1 1⟩, ⟨false, false, exCand [1, 1 / 10] 1 2⟩,
   ⟨false, true, exCand [1, 1 / 10] (1 / 10) 1⟩, ⟨false, false, exCand [1] (-1) 3⟩,
   ⟨false, false, exCand [1] 1 1⟩]

/-! ## C11: bookkeeping -/

/-- The rejection counters: positions 2 to 14 of the `enum`. -/
def rejections : List Counter := Counter.all.filter fun k => 2 ≤ k.index && k.index < 15

theorem charged_mem_order {o : Ops F} {cfg : Cfg F} {c : Cand F} {k : Counter}
    (h : charged o cfg c = some k) : k ∈ order := List.mem_of_find?_eq_some h

theorem inc_partition (o : Ops F) (cfg : Cfg F) (c : Cand F) :
    (if Passes o cfg c then 1 else 0) + (rejections.map (inc o cfg c)).sum = 1 := by
  rw [Passes_eq]
  cases h : charged o cfg c with
  | none => simp [rejections, Counter.all, Counter.index, inc, h]
  | some k =>
    have hk := charged_mem_order h
    simp only [order, beforeSigma, beforeR2, afterR2, List.cons_append, List.nil_append,
      List.mem_cons, List.not_mem_nil, or_false] at hk
    rcases hk with rfl | rfl | rfl | rfl | rfl | rfl | rfl | rfl | rfl | rfl | rfl | rfl | rfl <;>
      simp [rejections, Counter.all, Counter.index, inc, h]

theorem find_split {p : Counter → Bool} {l m : List Counter} {k : Counter}
    (h : (l ++ m).find? p = some k) :
    (l.any p = true ∧ l.find? p = some k) ∨ (l.any p = false ∧ m.find? p = some k) := by
  rw [List.find?_append] at h
  cases hl : l.find? p with
  | none =>
    right
    rw [hl] at h
    refine ⟨?_, by simpa using h⟩
    rw [List.any_eq_false]
    exact List.find?_eq_none.mp hl
  | some j =>
    left
    rw [hl] at h
    refine ⟨List.any_eq_true.mpr ⟨j, List.mem_of_find?_eq_some hl, List.find?_some hl⟩, ?_⟩
    simpa using h

theorem inc_sigma (o : Ops F) (cfg : Cfg F) (c : Cand F) :
    inc o cfg c .nSigma + (beforeSigma.map (inc o cfg c)).sum = 1 := by
  cases h : charged o cfg c with
  | none =>
    have : beforeSigma.any (Rejects o cfg c) = false := by
      rw [List.any_eq_false]
      intro k hk
      exact List.find?_eq_none.mp h k (by simp [order, hk])
    simp [inc, this, h, beforeSigma]
    simpa [beforeSigma] using this
  | some k =>
    have h' := h
    unfold charged order at h'
    rw [List.append_assoc] at h'
    rcases find_split h' with ⟨h1, h2⟩ | ⟨h1, h2⟩
    · have hk := List.mem_of_find?_eq_some h2
      have e : inc o cfg c .nSigma = 0 := by simp [inc, h1]
      rw [e]
      simp only [beforeSigma, List.mem_cons, List.not_mem_nil, or_false] at hk
      rcases hk with rfl | rfl | rfl | rfl <;> simp [inc, h, beforeSigma]
    · have hk := List.mem_of_find?_eq_some h2
      have e : inc o cfg c .nSigma = 1 := by simp [inc, h1]
      rw [e]
      simp only [beforeR2, afterR2, List.cons_append, List.nil_append, List.mem_cons,
        List.not_mem_nil, or_false] at hk
      rcases hk with rfl | rfl | rfl | rfl | rfl | rfl | rfl | rfl | rfl <;>
        simp [inc, h, beforeSigma]

theorem inc_r2 (o : Ops F) (cfg : Cfg F) (c : Cand F) (hr : cfg.r2 = true) :
    inc o cfg c .nR2 + ((beforeSigma ++ beforeR2).map (inc o cfg c)).sum = 1 := by
  cases h : charged o cfg c with
  | none =>
    have : (beforeSigma ++ beforeR2).any (Rejects o cfg c) = false := by
      rw [List.any_eq_false]
      intro k hk
      exact List.find?_eq_none.mp h k (by unfold order; exact List.mem_append_left _ hk)
    have e : inc o cfg c .nR2 = 1 := by
      show (if cfg.r2 && !_ then 1 else 0) = 1
      rw [this, hr]; rfl
    rw [e]
    simp [inc, h, beforeSigma, beforeR2]
  | some k =>
    have h' := h
    unfold charged order at h'
    rcases find_split h' with ⟨h1, h2⟩ | ⟨h1, h2⟩
    · have hk := List.mem_of_find?_eq_some h2
      have e : inc o cfg c .nR2 = 0 := by
        show (if cfg.r2 && !_ then 1 else 0) = 0
        rw [h1]; simp
      rw [e]
      simp only [beforeSigma, beforeR2, List.cons_append, List.nil_append, List.mem_cons,
        List.not_mem_nil, or_false] at hk
      rcases hk with rfl | rfl | rfl | rfl | rfl | rfl | rfl <;>
        simp [inc, h, beforeSigma, beforeR2]
    · have hk := List.mem_of_find?_eq_some h2
      have e : inc o cfg c .nR2 = 1 := by
        show (if cfg.r2 && !_ then 1 else 0) = 1
        rw [h1, hr]; rfl
      rw [e]
      simp only [afterR2, List.mem_cons, List.not_mem_nil, or_false] at hk
      rcases hk with rfl | rfl | rfl | rfl | rfl | rfl <;> simp [inc, h, beforeSigma, beforeR2]

theorem sum_swap (cs : List (Cand F)) (ks : List Counter) (f : Cand F → Counter → Nat) :
    (ks.map fun k => (cs.map (f · k)).sum).sum = (cs.map fun c => (ks.map (f c)).sum).sum := by
  induction cs with
  | nil => simp
  | cons c cs ih =>
    simp only [List.map_cons, List.sum_cons]
    rw [← ih]
    clear ih
    induction ks with
    | nil => simp
    | cons k ks ihk => simp only [List.map_cons, List.sum_cons]; omega

theorem filter_length_eq_sum (p : Cand F → Bool) (cs : List (Cand F)) :
    (cs.filter p).length = (cs.map fun c => if p c then 1 else 0).sum := by
  induction cs with
  | nil => rfl
  | cons c cs ih =>
    rw [List.filter_cons]
    split
    · rename_i h; simp [h, ih]; omega
    · rename_i h; simp [h, ih]

theorem sum_const_one (cs : List (Cand F)) (g : Cand F → Nat) (h : ∀ c, g c = 1) :
    (cs.map g).sum = cs.length := by
  induction cs with
  | nil => rfl
  | cons c cs ih => simp [ih, h c]; omega

/-- **C11.** Between any two attempts (after any number of passes, under any clock and any
candidates): attempts = kept + all rejections; sigma solves = attempts minus those rejected
before the solve; second order solves = attempts minus those rejected before it (none at first
order); kept = number of saved columns. -/
theorem scan_bookkeeping (o : Ops F) (cfg : Cfg F) (hk : 1 ≤ cfg.maxKeep) (env : List (Step F)) :
    let s := run o cfg env
    s.filters .attempts = s.jScan + (rejections.map s.filters).sum ∧
    s.filters .nSigma + (beforeSigma.map s.filters).sum = s.filters .attempts ∧
    (cfg.r2 = true →
      s.filters .nR2 + ((beforeSigma ++ beforeR2).map s.filters).sum = s.filters .attempts) ∧
    (cfg.r2 = false → s.filters .nR2 = 0) ∧
    s.jScan = (s.cols.filterMap id).length := by
  intro s
  have inv : Inv o cfg env s := inv_run o cfg hk env
  have hlen : (firstCands env (s.filters .attempts)).length = s.filters .attempts := by
    unfold firstCands
    rw [List.length_map, List.length_take]
    exact min_eq_left inv.le_len
  have hsum : ∀ ks : List Counter, (ks.map s.filters).sum
      = ((firstCands env (s.filters .attempts)).map fun c => (ks.map (inc o cfg c)).sum).sum := by
    intro ks
    rw [← sum_swap]
    congr 1
    exact List.map_congr_left fun k _ => inv.counts k
  have hadd : ∀ f g : Cand F → Nat, (∀ c, f c + g c = 1) →
      ((firstCands env (s.filters .attempts)).map f).sum
        + ((firstCands env (s.filters .attempts)).map g).sum = s.filters .attempts := by
    intro f g h
    conv_rhs => rw [← hlen]
    rw [← sum_const_one _ (fun c => f c + g c) h, List.sum_map_add]
  refine ⟨?_, ?_, ?_, ?_, ?_⟩
  · rw [inv.saved, filter_length_eq_sum, hsum]
    exact (hadd _ _ (inc_partition o cfg)).symm
  · rw [hsum, inv.counts .nSigma]
    exact hadd _ _ (inc_sigma o cfg)
  · intro hr
    rw [hsum, inv.counts .nR2]
    exact hadd _ _ (fun c => inc_r2 o cfg c hr)
  · intro hr
    rw [inv.counts .nR2]
    have : ∀ c : Cand F, inc o cfg c .nR2 = 0 := by
      intro c
      show (if cfg.r2 && !_ then 1 else 0) = 0
      rw [hr]; simp
    simp [this]
  · rw [inv.cols, inv.saved]
    simp only [List.filterMap_append, List.filterMap_map, List.length_append]
    have h2 : ∀ n, (List.replicate n (none : Option (Column F))).filterMap id = [] := by
      intro n
      induction n with
      | zero => rfl
      | succ n ih => simp [List.replicate_succ]
    rw [h2]
    simp [Function.comp_def]

/-- Non-vacuity: the example run makes 4 attempts, keeps 2, rejects one crudely and one for
iota; 3 sigma solves, 2 second order solves. -/
example : let s := run (exactOps ℚ) exCfg exEnv
    s.filters .attempts = 4 ∧ s.jScan = 2 ∧ s.filters .r0Crude = 1 ∧ s.filters .iota = 1 ∧
      s.filters .nSigma = 3 ∧ s.filters .nR2 = 2 ∧ s.status = .finished ∧
      s.checkpoints = [1] := by
  decide +kernel

/-! ## C12: exactly the passing candidates are saved -/

/-- **C12.** After any run: the attempted candidates are the first `n` offered, the saved
columns are exactly those of the passing ones, in order and nothing else; every rejection
counter is the number of attempted candidates whose first applicable rule (in the documented
order) is that one; while the loop runs no candidate has been skipped. -/
theorem scan_saves_exactly (o : Ops F) (cfg : Cfg F) (hk : 1 ≤ cfg.maxKeep)
    (env : List (Step F)) :
    let s := run o cfg env
    ∃ n, n = s.filters .attempts ∧ n ≤ env.length ∧
      s.cols.filterMap id
        = (((env.take n).map Step.cand).filter (Passes o cfg)).map Cand.column ∧
      (∀ k, k ∈ rejections → s.filters k
        = howMany (fun c => decide (charged o cfg c = some k)) ((env.take n).map Step.cand)) ∧
      (s.status = .running → n = env.length) := by
  intro s
  have inv : Inv o cfg env s := inv_run o cfg hk env
  refine ⟨_, rfl, inv.le_len, ?_, ?_, fun h => (inv.running h).1⟩
  · have h2 : ∀ n, (List.replicate n (none : Option (Column F))).filterMap id = [] := by
      intro n
      induction n with
      | zero => rfl
      | succ n ih => simp [List.replicate_succ]
    rw [inv.cols, List.filterMap_append, h2, List.append_nil, List.filterMap_map]
    unfold firstCands
    simp [Function.comp_def]
  · intro k hk'
    rw [inv.counts k]
    unfold howMany
    rw [filter_length_eq_sum]
    unfold firstCands
    congr 1
    apply List.map_congr_left
    intro c _
    simp only [decide_eq_true_eq]
    have hmem : k ∈ order := by revert hk'; cases k <;> decide
    simp only [order, beforeSigma, beforeR2, afterR2, List.cons_append, List.nil_append,
      List.mem_cons, List.not_mem_nil, or_false] at hmem
    rcases hmem with rfl | rfl | rfl | rfl | rfl | rfl | rfl | rfl | rfl | rfl | rfl | rfl | rfl <;>
      rfl

/-- Non-vacuity: in the example the second and fourth candidates are saved, in that order. -/
example : ((run (exactOps ℚ) exCfg exEnv).cols.filterMap id).map
      (fun c : Column ℚ => (c.params[(8 : ℕ)]?, c.fourier))
    = [(some (1 : ℚ), [1, 1 / 10, 0, 0, 0, 0, 0, 0]), (some (-1), [1, 0, 0, 0])] := by
  decide +kernel

/-- The crude sums are the axis radius at toroidal angle 0 and at half a period. -/
theorem r0At0_exact [Field F] [LinearOrder F] (R0c : List F) :
    r0At0 (exactOps F) R0c = ∑ j ∈ Finset.range R0c.length, R0c.getD j 0 := by
  unfold r0At0
  have : ∀ n ≤ R0c.length, forLoop n
      (fun j acc => match R0c[j]? with
        | some v => (exactOps F).add acc v
        | none => acc) (exactOps F).zero = ∑ j ∈ Finset.range n, R0c.getD j 0 := by
    intro n hn
    induction n with
    | zero => simp [exactOps]
    | succ n ih =>
      rw [forLoop_succ, ih (by omega), Finset.sum_range_succ,
        List.getElem?_eq_getElem (show n < R0c.length by omega)]
      simp [exactOps, List.getElem?_eq_getElem (show n < R0c.length by omega)]
  exact this _ le_rfl

theorem r0AtHalfPeriod_exact [Field F] [LinearOrder F] (R0c : List F) :
    r0AtHalfPeriod (exactOps F) R0c
      = ∑ j ∈ Finset.range R0c.length, (-1) ^ j * R0c.getD j 0 := by
  unfold r0AtHalfPeriod
  have : ∀ n ≤ R0c.length, forLoop n
      (fun j acc => match R0c[j]? with
        | some v => if j % 2 = 0 then (exactOps F).add acc v else (exactOps F).sub acc v
        | none => acc) (exactOps F).zero
      = ∑ j ∈ Finset.range n, (-1) ^ j * R0c.getD j 0 := by
    intro n hn
    induction n with
    | zero => simp [exactOps]
    | succ n ih =>
      rw [forLoop_succ, ih (by omega), Finset.sum_range_succ,
        List.getElem?_eq_getElem (show n < R0c.length by omega)]
      dsimp only
      by_cases h : n % 2 = 0
      · rw [if_pos h, Even.neg_one_pow (Nat.even_iff.mpr h)]
        simp [exactOps, List.getElem?_eq_getElem (show n < R0c.length by omega)]
      · rw [if_neg h, Odd.neg_one_pow (Nat.odd_iff.mpr (by omega))]
        simp [exactOps, List.getElem?_eq_getElem (show n < R0c.length by omega), sub_eq_add_neg]
  exact this _ le_rfl

/-- **C12 (thresholds, finite values).** With ordinary ordered numbers a candidate passes iff
its axis radius is positive at angle 0 and at half a period and either `keep_all` is set or
every enabled threshold is met. -/
theorem passes_iff [Field F] [LinearOrder F] (cfg : Cfg F) (c : Cand F) :
    Passes (exactOps F) cfg c = true ↔
      0 < ∑ j ∈ Finset.range c.R0c.length, c.R0c.getD j 0 ∧
      0 < ∑ j ∈ Finset.range c.R0c.length, (-1) ^ j * c.R0c.getD j 0 ∧
      (cfg.keepAll = true ∨
        (cfg.minR0 ≤ c.gridMinR0 ∧
         (cfg.helicityToKeep = 0 → c.helicity = 0) ∧
         (cfg.helicityToKeep = 1 → c.helicity = 1 ∨ c.helicity = -1) ∧
         cfg.minLGradB ≤ 1 / c.gridMaxCurvature ∧
         cfg.minIota ≤ |c.iota| ∧ c.gridMaxElongation ≤ cfg.maxElongation ∧
         cfg.minLGradB ≤ c.gridMinLGradB ∧
         (cfg.r2 = true → c.b20Variation ≤ cfg.maxB20Variation ∧ c.d2Volume ≤ cfg.maxD2Volume ∧
           cfg.minDMerc ≤ c.dMerc ∧ cfg.minLGradGradB ≤ c.gridMinLGradGradB ∧
           cfg.minRSingularity ≤ c.rSingularity ∧ cfg.minBeta ≤ c.beta))) := by
  have e1 : Rejects (exactOps F) cfg c .r0Crude = false ↔
      0 < ∑ j ∈ Finset.range c.R0c.length, c.R0c.getD j 0 ∧
      0 < ∑ j ∈ Finset.range c.R0c.length, (-1) ^ j * c.R0c.getD j 0 := by
    simp only [Rejects, r0At0_exact, r0AtHalfPeriod_exact]
    simp [exactOps]
  have key : Passes (exactOps F) cfg c = true ↔ ∀ k, Rejects (exactOps F) cfg c k = false := by
    unfold Passes
    rw [Bool.not_eq_true', List.any_eq_false]
    constructor
    · intro h k
      have := h k (by cases k <;> decide)
      simpa using this
    · intro h k _; simp [h k]
  rw [key]
  constructor
  · intro h
    obtain ⟨a, b⟩ := e1.mp (h .r0Crude)
    refine ⟨a, b, ?_⟩
    cases hka : cfg.keepAll
    · right
      have g1 := h .r0
      have g2 := h .helicity
      have g3 := h .curvature
      have g4 := h .iota
      have g5 := h .elongation
      have g6 := h .lGradB
      have g7 := h .b20Variation
      have g8 := h .d2Volume
      have g9 := h .dMerc
      have g10 := h .lGradGradB
      have g11 := h .rSingularity
      have g12 := h .beta
      simp only [Rejects, hka, exactOps, Bool.not_false, Bool.true_and, Bool.and_true,
        decide_eq_false_iff_not, not_lt, Bool.and_eq_false_iff] at g1 g3 g4 g5 g6 g7 g8 g9 g10 g11 g12
      simp [Rejects, hka] at g2
      refine ⟨g1, ?_, ?_, g3, g4, g5, g6, fun hr => ?_⟩
      · exact g2.1
      · intro h1
        by_contra hc
        rw [not_or] at hc
        exact hc.2 (g2.2 h1 hc.1)
      · simp only [hr, Bool.true_eq_false, false_or] at g7 g8 g9 g10 g11 g12
        exact ⟨g7, g8, g9, g10, g11, g12⟩
    · exact .inl rfl
  · rintro ⟨a, b, h⟩ k
    rcases h with h | ⟨g1, g2, g2', g3, g4, g5, g6, g7⟩
    · cases k
      case r0Crude => exact e1.mpr ⟨a, b⟩
      all_goals simp [Rejects, h]
    · cases k
      case r0Crude => exact e1.mpr ⟨a, b⟩
      case helicity =>
        simp only [Rejects]
        by_cases h0 : cfg.helicityToKeep = 0
        · simp [h0, g2 h0]
        · by_cases h1 : cfg.helicityToKeep = 1
          · rcases g2' h1 with h | h <;> simp [h1, h]
          · simp [h0, h1]
      case attempts => rfl
      case kept => rfl
      case nSigma => rfl
      case nR2 => rfl
      case r0 => simp [Rejects, exactOps, g1]
      case curvature =>
        simp only [Rejects, exactOps, decide_eq_false (not_lt.mpr g3), Bool.and_false]
      case iota => simp only [Rejects, exactOps, decide_eq_false (not_lt.mpr g4), Bool.and_false]
      case elongation => simp [Rejects, exactOps, g5]
      case lGradB => simp [Rejects, exactOps, g6]
      all_goals
        cases hr : cfg.r2
        · simp [Rejects, hr]
        · obtain ⟨q1, q2, q3, q4, q5, q6⟩ := g7 hr
          simp [Rejects, exactOps, q1, q2, q3, q4, q5, q6]

/-- Non-vacuity: the second example candidate passes, the third does not. -/
example : Passes (exactOps ℚ) exCfg (exCand [1, 1 / 10] 1 2) = true ∧
    Passes (exactOps ℚ) exCfg (exCand [1, 1 / 10] (1 / 10) 1) = false := by
  decide +kernel

/-! ## C13: NaN -/

/-- `x` behaves like an IEEE NaN: every comparison with it is false. -/
def IsNaN (o : Ops F) (x : F) : Prop :=
  ∀ y, o.lt x y = false ∧ o.lt y x = false ∧ o.le x y = false ∧ o.le y x = false

/-- **C13 (the expectation is false).** Whatever the thresholds, a candidate whose diagnostics
are all NaN is saved: no filter rejects it (the only non floating point filter, helicity, must
of course be passed). -/
theorem nan_candidate_passes (o : Ops F) (cfg : Cfg F) (c : Cand F)
    (hel : Rejects o cfg c .helicity = false)
    (h0 : IsNaN o (r0At0 o c.R0c)) (h1 : IsNaN o (r0AtHalfPeriod o c.R0c))
    (h2 : IsNaN o c.gridMinR0) (h3 : IsNaN o (o.inv c.gridMaxCurvature))
    (h4 : IsNaN o (o.abs c.iota)) (h5 : IsNaN o c.gridMaxElongation)
    (h6 : IsNaN o c.gridMinLGradB) (h7 : IsNaN o c.b20Variation) (h8 : IsNaN o c.d2Volume)
    (h9 : IsNaN o c.dMerc) (h10 : IsNaN o c.gridMinLGradGradB) (h11 : IsNaN o c.rSingularity)
    (h12 : IsNaN o c.beta) :
    Passes o cfg c = true := by
  unfold Passes
  rw [Bool.not_eq_true', List.any_eq_false]
  intro k _
  cases k
  case helicity => simp [hel]
  all_goals
    simp [Rejects, (h0 _).2.2.1, (h1 _).2.2.1, (h2 _).1, (h3 _).1, (h4 _).1, (h5 _).2.1, (h6 _).1,
      (h7 _).2.1, (h8 _).2.1, (h9 _).1, (h10 _).1, (h11 _).1, (h12 _).1]

/-- Rational numbers extended by one NaN, with IEEE comparisons. -/
def nanOps : Ops (Option ℚ) where
  lt x y := match x, y with
    | some a, some b => decide (a < b)
    | _, _ => false
  le x y := match x, y with
    | some a, some b => decide (a ≤ b)
    | _, _ => false
  zero := some 0
  add x y := match x, y with
    | some a, some b => some (a + b)
    | _, _ => none
  sub x y := match x, y with
    | some a, some b => some (a - b)
    | _, _ => none
  abs x := x.map fun a => |a|
  inv x := x.map fun a => 1 / a

/-- A candidate with a good axis whose solve produced NaN everywhere. -/
def nanCand : Cand (Option ℚ) where
  etaBar := some 1
  sigma0 := some 0
  B2c := some 0
  B2s := some 0
  p2 := some 0
  axisLength := some 6
  gridMinR0 := some 1
  gridMaxCurvature := some 1
  iota := none
  gridMaxElongation := none
  gridMinLGradB := none
  gridMinLGradGradB := none
  rSingularity := none
  d2Volume := none
  dMerc := none
  b20Variation := none
  b20Residual := none
  sdR := some 0
  sdZ := some 0
  beta := none
  helicity := 1
  R0c := [some 1]
  R0s := [some 0]
  Z0c := [some 0]
  Z0s := [some 0]

/-- **C13 (witness).** A filtered scan (`keep_all` off, all filters on, however strict the
thresholds on the solve results are) saves a configuration whose iota is NaN. -/
theorem nan_is_saved (minIota maxElongation minLGradGradB maxB20 minRSing maxD2 minDMerc minBeta : ℚ) :
    let cfg : Cfg (Option ℚ) :=
      { keepAll := false, r2 := true, helicityToKeep := 1, minR0 := some (1 / 2)
        minIota := some minIota, maxElongation := some maxElongation
        minLGradB := some (1 / 5), minLGradGradB := some minLGradGradB
        maxB20Variation := some maxB20, minRSingularity := some minRSing
        maxD2Volume := some maxD2, minDMerc := some minDMerc, minBeta := some minBeta
        maxKeep := 1, maxAttempts := 0 }
    ((run nanOps cfg [⟨false, false, nanCand⟩]).cols.filterMap id).map (fun c => c.params[8]?)
      = [some none] := by
  intro cfg
  have hp : Passes nanOps cfg nanCand = true := by
    unfold Passes
    rw [Bool.not_eq_true', List.any_eq_false]
    intro k _
    cases k
    case r0Crude =>
      show ¬ (nanOps.le (r0At0 nanOps nanCand.R0c) nanOps.zero
        || nanOps.le (r0AtHalfPeriod nanOps nanCand.R0c) nanOps.zero) = true
      decide +kernel
    case r0 => simp [Rejects, cfg, nanCand, nanOps]; norm_num
    case helicity => simp [Rejects, cfg, nanCand]
    case curvature => simp [Rejects, cfg, nanCand, nanOps]; norm_num
    all_goals simp [Rejects, nanCand, nanOps]
  obtain ⟨n, hn, hle, hcols, _, _⟩ := scan_saves_exactly nanOps cfg (le_refl (1 : Int))
    [⟨false, false, nanCand⟩]
  have hn1 : n = 1 := by
    have hm : cfg.maxAttempts = 0 := rfl
    have hk : cfg.maxKeep = 1 := rfl
    rw [hn]
    clear hcols hle hn
    clear_value cfg
    simp only [run, List.foldl_cons, List.foldl_nil, iter, init, if_true]
    rw [attempt_eq]
    simp [hp, hm, hk, save, inc]
  rw [hcols, hn1]
  simp only [List.take_succ_cons, List.take_zero, List.map_cons, List.map_nil, List.filter_cons,
    List.filter_nil, hp, if_true]
  rfl

/-! ## C14: limits -/

/-- **C14 (no overrun).** With room for at least one configuration, no run writes outside the
local arrays, saves more than `max_keep_per_proc`, or (with a positive limit) attempts more than
`max_attempts_per_proc`. -/
theorem scan_within_limits (o : Ops F) (cfg : Cfg F) (hk : 1 ≤ cfg.maxKeep)
    (env : List (Step F)) :
    let s := run o cfg env
    s.status ≠ .ub ∧ (s.jScan : Int) ≤ cfg.maxKeep ∧
      s.cols.length = cfg.maxKeep.toNat ∧
      (0 < cfg.maxAttempts → (s.filters .attempts : Int) ≤ cfg.maxAttempts) := by
  intro s
  have inv : Inv o cfg env s := inv_run o cfg hk env
  refine ⟨inv.no_ub, by have := inv.cap; omega, ?_, fun h => inv.limit h⟩
  rw [inv.cols, List.length_append, List.length_map, List.length_replicate, ← inv.saved]
  have := inv.cap
  omega

theorem stop_status (u : Local F) (b : Bool) (h : u.status = .running) :
    (if b = true then u else { u with status := .finished }).status = .finished ↔ b = false := by
  cases b <;> simp [h]

theorem stop_attempts (u : Local F) (b : Bool) :
    (if b = true then u else { u with status := .finished }).filters .attempts
      = u.filters .attempts := by
  cases b <;> rfl

theorem stop_jScan (u : Local F) (b : Bool) :
    (if b = true then u else { u with status := .finished }).jScan = u.jScan := by
  cases b <;> rfl

/-- **C14 (when it stops).** From a running state one more pass stops the loop iff the attempt
limit was already reached, or the clock says time is up, or the pass filled the last column; it
attempts exactly one candidate, unless the limit was reached, in which case none. -/
theorem scan_stops_iff (o : Ops F) (cfg : Cfg F) (hk : 1 ≤ cfg.maxKeep) (env : List (Step F))
    (e : Step F) (hrun : (run o cfg env).status = .running) :
    ((run o cfg (env ++ [e])).status = .finished ↔
      ((0 < cfg.maxAttempts ∧ cfg.maxAttempts ≤ ((run o cfg env).filters .attempts : Int)) ∨
        e.timeUp = true ∨ ((run o cfg (env ++ [e])).jScan : Int) = cfg.maxKeep)) ∧
    (run o cfg (env ++ [e])).filters .attempts = (run o cfg env).filters .attempts
      + (if 0 < cfg.maxAttempts ∧ cfg.maxAttempts ≤ ((run o cfg env).filters .attempts : Int)
          then 0 else 1) := by
  have inv := inv_run o cfg hk env
  have hcap := (inv.running hrun).2
  have hcolslen : (run o cfg env).cols.length = cfg.maxKeep.toNat := by
    rw [inv.cols, List.length_append, List.length_map, List.length_replicate, ← inv.saved]
    omega
  rw [run_concat]
  generalize run o cfg env = s at *
  unfold iter
  rw [if_pos hrun]
  dsimp only
  obtain ⟨t, ht, ht1, ht2, ht3, ht4⟩ : ∃ t : Local F,
      t = (if e.checkpointDue = true then
        { s with checkpoints := s.checkpoints ++ [s.jScan] } else s) ∧
      t.filters = s.filters ∧ t.jScan = s.jScan ∧ t.cols = s.cols ∧ t.status = s.status := by
    refine ⟨_, rfl, ?_⟩
    split <;> simp
  rw [← ht, ← ht1]
  have hdec : (decide (cfg.maxAttempts > 0) && decide ((t.filters .attempts : Int) ≥ cfg.maxAttempts))
      = true ↔ (0 < cfg.maxAttempts ∧ cfg.maxAttempts ≤ (t.filters .attempts : Int)) := by
    simp
  by_cases hl : 0 < cfg.maxAttempts ∧ cfg.maxAttempts ≤ (t.filters .attempts : Int)
  · rw [if_pos (hdec.mpr hl), if_pos hl]
    simp [hl]
  · rw [if_neg (fun h => hl (hdec.mp h)), if_neg hl, attempt_eq]
    dsimp only
    by_cases hp : Passes o cfg e.cand
    · have hsave : save e.cand { t with filters := fun k => t.filters k + inc o cfg e.cand k }
          = { t with
              filters := fun k => t.filters k + inc o cfg e.cand k
              cols := t.cols.set t.jScan (some e.cand.column)
              jScan := t.jScan + 1 } := by
        unfold save
        rw [if_pos]
        rw [ht2, ht3, hcolslen]; exact hcap
      simp only [if_pos hp]
      rw [hsave]
      dsimp only
      rw [if_neg (by rw [ht4, hrun]; decide)]
      refine ⟨?_, by rw [stop_attempts]; rfl⟩
      rw [stop_status _ _ (by rw [← hrun, ← ht4]), stop_jScan]
      dsimp only
      rw [ht2]
      by_cases hj : ((s.jScan + 1 : Nat) : Int) ≥ cfg.maxKeep
      · rw [if_pos ⟨by omega, hj⟩]
        exact ⟨fun _ => .inr (.inr (by omega)), fun _ => rfl⟩
      · rw [if_neg (fun h => hj h.2)]
        constructor
        · intro h; right; left; simpa using h
        · rintro (h | h | h)
          · exact absurd h hl
          · simp [h]
          · omega
    · simp only [if_neg hp]
      rw [if_neg (by rw [ht4, hrun]; decide)]
      have hne : ¬(t.jScan ≠ t.jScan ∧ (t.jScan : Int) ≥ cfg.maxKeep) := fun h => h.1 rfl
      simp only [if_neg hne]
      refine ⟨?_, by rw [stop_attempts]; rfl⟩
      rw [stop_status _ _ (by rw [← hrun, ← ht4]), stop_jScan]
      dsimp only
      rw [ht2]
      constructor
      · intro h; right; left; simpa using h
      · rintro (h | h | h)
        · exact absurd h hl
        · simp [h]
        · omega

/-- **C14 (nothing after the stop).** Once stopped, further passes change nothing. -/
theorem scan_stopped_is_final (o : Ops F) (cfg : Cfg F) (env more : List (Step F))
    (h : (run o cfg env).status ≠ .running) : run o cfg (env ++ more) = run o cfg env := by
  unfold run at *
  rw [List.foldl_append]
  generalize List.foldl (iter o cfg) (init cfg) env = s at *
  induction more with
  | nil => rfl
  | cons e more ih =>
    rw [List.foldl_cons]
    have : iter o cfg s e = s := by unfold iter; rw [if_neg h]
    rw [this]
    exact ih

/-- **C14 (time limit).** Once the clock test has been positive in one pass, at most that pass's
single attempt is still made, whatever follows. -/
theorem scan_time_limit (o : Ops F) (cfg : Cfg F) (hk : 1 ≤ cfg.maxKeep)
    (env more : List (Step F)) (e : Step F) (he : e.timeUp = true) :
    (run o cfg (env ++ e :: more)).filters .attempts ≤ (run o cfg env).filters .attempts + 1 := by
  rw [List.append_cons]
  by_cases hrun : (run o cfg env).status = .running
  · obtain ⟨h1, h2⟩ := scan_stops_iff o cfg hk env e hrun
    have hfin := h1.mpr (.inr (.inl he))
    rw [scan_stopped_is_final o cfg (env ++ [e]) more (by rw [hfin]; decide), h2]
    split <;> omega
  · rw [List.append_assoc, scan_stopped_is_final o cfg env _ hrun]
    omega

/-- Non-vacuity: the example state after two passes is running, and after four it is not. -/
example : (run (exactOps ℚ) exCfg (exEnv.take 2)).status = .running ∧
    (run (exactOps ℚ) exCfg (exEnv.take 4)).status = .finished := by
  decide +kernel

/-- **C14 (defect).** With `max_keep_per_proc = 0` the arrays are empty but the test comes after
the write: the first passing candidate is written out of bounds. -/
theorem scan_max_keep_zero (o : Ops F) (cfg : Cfg F) (hk : cfg.maxKeep = 0)
    (hlim : cfg.maxAttempts ≤ 0) (e : Step F) (hp : Passes o cfg e.cand = true) :
    (run o cfg [e]).status = .ub := by
  simp only [run, List.foldl_cons, List.foldl_nil, iter, init, hk, if_true]
  have hlim' : (decide (cfg.maxAttempts > 0)) = false := by simp; omega
  simp only [hlim', Bool.false_and, Bool.false_eq_true, if_false]
  cases e.checkpointDue <;> simp [attempt_eq, hp, save]

/-- Non-vacuity: such a candidate exists. -/
example : Passes (exactOps ℚ) { exCfg with maxKeep := 0, maxAttempts := -1 }
    (exCand [1, 1 / 10] 1 2) = true := by decide +kernel

end Qsc.Scan
