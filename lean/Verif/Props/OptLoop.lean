import Verif.Props.OptEvals
import Verif.Lemmas.OptLoop
import Verif.Props.Outfile

/-!
# Properties C31, C32, C33 and C53: the optimization loop
-/

namespace Qsc.OptLoop

open Qsc.OptState Qsc.Spec.OptState Qsc.Spec.OptLoop

variable {K P : Type} [Zero K]

/-! ## C31 -/

/-- Whatever the library and the physics do, the optimizer never leaves an array and no `assert`
fails; if it ends normally, at most `max_iter` columns of the history were written, one after the
other from the first on, the columns after them were never touched, and there is at least one unless
`max_iter < 2` or the order is not r2.1. -/
theorem history (e : Env K P) (s : Settings) (order : String) (q : Config K) (nphi N : Nat)
    (hq : AllSize N q) (hn : s.nphis = [] ∨ s.nphis.length = s.extra + 1) :
    Safe (fun st => st.log.length = st.nIter ∧ st.nIter ≤ s.maxIter ∧
      st.hist = st.log.map some ++ List.replicate (s.maxIter - st.nIter) none ∧
      (0 < st.nIter ↔ order = "r2.1" ∧ 2 ≤ s.maxIter)) (optimize e s order q nphi) := by
  refine Safe.mono (optimize_safe e s order q nphi N hq hn) ?_
  rintro st ⟨-, h⟩
  refine ⟨h.hist.len, h.hist.le, h.hist.hist, ?_⟩
  rw [← h.ran, ← h.hist.len, List.length_pos_iff]

/-- The size checks: a run that ends normally had flags for exactly the given amplitudes. -/
theorem sizes_checked (e : Env K P) (s : Settings) (order : String) (q : Config K) (nphi N : Nat)
    (hq : AllSize N q) (hn : s.nphis = [] ∨ s.nphis.length = s.extra + 1) :
    Safe (fun _ => Sized s.fl q) (optimize e s order q nphi) :=
  Safe.mono (optimize_safe e s order q nphi N hq hn) fun _ h => h.1

/-- With axis arrays of different lengths the padding reads outside an array. -/
theorem unequal_undefined (e : Env K P) (s : Settings) (order : String) (q : Config K) (nphi : Nat)
    (hs : Sized s.fl q) (h : q.R0s.length < q.R0c.length) :
    optimize e s order q nphi = .error (.undefined "axis_arr") := by
  unfold optimize
  dsimp only
  rw [if_neg (by simp [hs.R0c]), if_neg (by simp [hs.R0s]), if_neg (by simp [hs.Z0c]),
    if_neg (by simp [hs.Z0s])]
  simp [pad, Except.bind, Nat.not_le.2 h]

/-! ## C32 -/

/-- The history of a run on `N` modes with refinement by `F = s.extra`: every record has all `N + F`
modes; in step `j` only the parameters chosen by the user and the first `j` new modes of `R0c` and
`Z0s` differ from the start, which is the given configuration with `F` zero modes; the library
works on `2 j` more parameters than the user chose; the first record is the start; steps follow one
another without gaps; and each record's physics was computed from its own configuration, with the
resolution for its step. -/
theorem refinement (e : Env K P) (s : Settings) (order : String) (q : Config K) (nphi N : Nat)
    (hq : AllSize N q) (hn : s.nphis = [] ∨ s.nphis.length = s.extra + 1) (ps : List Param)
    (hps : Layout s.fl ps) :
    Safe (fun st => (∀ r ∈ st.log, RecOk e s N nphi (grow s.extra q) ps r) ∧
      (∀ r, st.log.head? = some r → r.q = grow s.extra q ∧ r.step = 0) ∧
      Linked (fun a b => b.step = a.step ∨ b.step = a.step + 1) st.log ∧
      AllSize (N + s.extra) st.q ∧
      ∀ p, ¬ MayVary s.fl N s.extra p → get st.q p = get (grow s.extra q) p)
      (optimize e s order q nphi) := by
  obtain rfl := layout_unique hps (layout_ok s.fl)
  refine Safe.mono (optimize_safe e s order q nphi N hq hn) ?_
  rintro st ⟨-, h⟩
  exact ⟨h.recs, h.first, h.steps, h.size, h.fixed⟩

/-! ## C53 -/

/-- If no call of the library fails in its first iteration, a refinement step starts from the
configuration last recorded, and the run ends with the configuration last recorded. -/
theorem ends_at_last_record (e : Env K P) (s : Settings) (order : String) (q : Config K)
    (nphi N : Nat) (hq : AllSize N q) (hn : s.nphis = [] ∨ s.nphis.length = s.extra + 1)
    (hp : ∀ j p, ((e.gsl j p).iters 0).noProgress = false) :
    Safe (fun st => Linked (fun a b => b.step ≠ a.step → b.q = a.q) st.log ∧
      (∀ r, st.log.getLast? = some r → st.q = r.q) ∧ (st.log = [] → st.q = grow s.extra q))
      (optimize e s order q nphi) := by
  refine Safe.mono (optimize_safe e s order q nphi N hq hn) ?_
  rintro st ⟨-, h⟩
  have hc := h.cont hp
  refine ⟨hc.chain, fun r hr => ?_, h.empty⟩
  rcases hc.cur with h | h
  · rw [hr] at h; simpa using h.symm
  · rw [h.1] at hr; simp at hr

/-- A library that evaluates one trial and then reports no progress. -/
def stuck : Env Int Int where
  gsl := fun _ _ => ⟨[], fun _ => ⟨[Vector.ofFn fun _ => 5], Vector.ofFn fun _ => 0, true, false⟩⟩
  calculate := fun q _ => .ok q.etaBar
  terms := fun _ => 10

/-- A library that evaluates a trial, accepts it and converges. -/
def moving : Env Int Int :=
  { stuck with gsl := fun _ _ =>
      ⟨[], fun _ => ⟨[Vector.ofFn fun _ => 9], Vector.ofFn fun _ => 7, false, false⟩⟩ }

def exSettings : Settings := ⟨⟨true, false, false, false, [false], [false], [false], [false]⟩, 1, 10, []⟩
def exQ : Config Int := ⟨1, 2, 3, 4, [10], [0], [0], [0]⟩

/-- Without progress the rejected trial stays in the configuration: the history says `eta_bar = 1`,
but the run goes on, and the next step starts, with `eta_bar = 5`. -/
theorem rejected_trial_kept :
    (optimize stuck { exSettings with extra := 0 } "r2.1" exQ 31).toOption.map
      (fun st => (st.q.etaBar, st.log.map fun r => r.q.etaBar)) = some (5, [1]) ∧
    (optimize stuck exSettings "r2.1" exQ 31).toOption.map
      (fun st => st.log.map fun r => (r.step, r.q.etaBar)) = some [(0, 1), (1, 5)] := by decide +kernel

example : AllSize 1 exQ := ⟨rfl, rfl, rfl, rfl⟩
example : ∀ j p, ((moving.gsl j p).iters 0).noProgress = false := fun _ _ => rfl

/-- A run with one refinement: four records, two per step; the last two have a second mode. -/
example :
    (optimize moving exSettings "r2.1" exQ 30).toOption.map (fun st => (st.q.R0c, st.nphi)) =
      some ([10, 7], 31) ∧
    (optimize moving exSettings "r2.1" exQ 30).toOption.map (fun st => st.log.map (·.step)) =
      some [0, 0, 1, 1] ∧
    (optimize moving exSettings "r2.1" exQ 30).toOption.map (fun st => st.log.map (·.x)) =
      some [[1], [7], [7, 0, 0], [7, 7, 7]] ∧
    (optimize moving exSettings "r2.1" exQ 30).toOption.map (fun st => st.log.map (·.q.R0c)) =
      some [[10, 0], [10, 0], [10, 0], [10, 7]] := by decide +kernel

/-- The run with one refinement again, for C55: one point per step, four records. -/
example :
    (optimize moving exSettings "r2.1" exQ 30).toOption.map (fun st => (st.nEvals, st.log.length)) =
      some (2, 4) := by decide +kernel

/-- With `max_iter = 3` the second step is skipped. -/
example : (optimize moving { exSettings with maxIter := 3 } "r2.1" exQ 30).toOption.map
    (fun st => st.log.map fun r => r.step) = some [0, 0] := by decide +kernel

/-- Fewer terms than parameters. -/
example : (optimize { moving with terms := fun _ => 2 } exSettings "r2.1" exQ 30).toOption.map
    (fun st => st.nIter) = none := by decide +kernel

/-! ## C33 -/

/-- The starting points of the stages: the first stage's own, then the end of the stage before. -/
def startOf (ss : List (Stage K P)) (sts : List (St K P)) (first : Option (Start K)) (i : Nat)
    (order : String) : Option (Start K) :=
  if i = 0 then first.or (ss[0]?.map (·.start))
  else sts[i - 1]?.map fun st => ⟨st.q, st.nphi, order⟩

/-- The order option that all stages use. -/
def orderOf (ss : List (Stage K P)) (first : Option (Start K)) : String :=
  ((first.or (ss[0]?.map (·.start))).map (·.order)).getD ""

theorem runStages_spec (ss : List (Stage K P)) (first : Option (Start K)) (n : Nat)
    (sts : List (St K P)) (total : Nat) (h : runStages ss first n = .ok (sts, total)) :
    sts.length = ss.length ∧ total = n + (sts.map (·.nEvals)).sum ∧
    ∀ i s st, ss[i]? = some s → sts[i]? = some st →
      ∃ a, startOf ss sts first i (orderOf ss first) = some a ∧ a.order = orderOf ss first ∧
        optimize s.env s.set (orderOf ss first) a.q a.nphi = .ok st := by
  induction ss generalizing first n sts total with
  | nil =>
    simp only [runStages, Except.ok.injEq, Prod.mk.injEq] at h
    obtain ⟨rfl, rfl⟩ := h
    simp
  | cons s ss ih =>
    rw [runStages] at h
    have ho : orderOf (s :: ss) first = (first.getD s.start).order := by
      cases first <;> simp [orderOf]
    have hf : first.or ((s :: ss)[0]?.map (·.start)) = some (first.getD s.start) := by
      cases first <;> simp
    generalize hb : first.getD s.start = b at *
    cases h1 : optimize s.env s.set b.order b.q b.nphi with
    | error e => rw [h1] at h; simp [Except.bind] at h
    | ok st =>
      rw [h1] at h
      simp only [Except.bind] at h
      cases h2 : runStages ss (some ⟨st.q, st.nphi, b.order⟩) (n + st.nEvals) with
      | error e => rw [h2] at h; simp at h
      | ok r =>
        rw [h2] at h
        simp only [Except.ok.injEq, Prod.mk.injEq] at h
        obtain ⟨rfl, rfl⟩ := h
        obtain ⟨i1, i2, i3⟩ := ih _ _ r.1 r.2 h2
        refine ⟨by simp [i1], by rw [i2]; simp; omega, ?_⟩
        intro i s' st' hs hst
        rw [ho]
        cases i with
        | zero =>
          obtain rfl : s = s' := by simpa using hs
          obtain rfl : st = st' := by simpa using hst
          exact ⟨b, by simp only [startOf, if_true]; exact hf, rfl, h1⟩
        | succ i =>
          have ho' : orderOf ss (some ⟨st.q, st.nphi, b.order⟩) = b.order := by simp [orderOf]
          obtain ⟨a, a1, a2, a3⟩ := i3 i s' st' (by simpa using hs) (by simpa using hst)
          rw [ho'] at a1 a2 a3
          refine ⟨a, ?_, a2, a3⟩
          rw [← a1]
          cases i with
          | zero => simp [startOf]
          | succ i => simp [startOf]

/-- Multi-stage optimization: at least one stage is needed; a run that ends normally has run every
stage once, in order, the first from its own input and each later one from where the stage before
ended; the number of evaluations is the sum over the stages. -/
theorem stages (nopts : Int) (stage : Nat → Stage K P) :
    (nopts < 1 → multiOpt nopts stage =
      .error (.throw "In the multiopt parameter list, nopts must be at least 1.")) ∧
    ∀ sts total, multiOpt nopts stage = .ok (sts, total) →
      (sts.length : Int) = nopts ∧ total = (sts.map (·.nEvals)).sum ∧
      (∀ st, sts[0]? = some st → optimize (stage 0).env (stage 0).set (stage 0).start.order
        (stage 0).start.q (stage 0).start.nphi = .ok st) ∧
      (∀ i a b, sts[i]? = some a → sts[i + 1]? = some b →
        optimize (stage (i + 1)).env (stage (i + 1)).set (stage 0).start.order a.q a.nphi =
          .ok b) := by
  unfold multiOpt
  constructor
  · intro h; rw [if_pos h]
  · intro sts total h
    split at h
    · simp at h
    · rename_i hn
      obtain ⟨h1, h2, h3⟩ := runStages_spec _ _ _ _ _ h
      have hlen : 0 < nopts.toNat := by omega
      rw [List.length_map, List.length_range] at h1
      have hget : ∀ i, i < nopts.toNat →
          ((List.range nopts.toNat).map stage)[i]? = some (stage i) := by
        intro i hi; simp [hi]
      have hord : orderOf ((List.range nopts.toNat).map stage) none = (stage 0).start.order := by
        simp [orderOf, hlen]
      refine ⟨by omega, by simpa using h2, ?_, ?_⟩
      · intro st hst
        obtain ⟨a, a1, a2, a3⟩ := h3 0 _ st (hget 0 hlen) hst
        simp only [startOf, if_true, hget 0 hlen] at a1
        obtain rfl : (stage 0).start = a := by simpa using a1
        rw [hord] at a3
        exact a3
      · intro i a b ha hb
        have hib : i + 1 < sts.length := by
          rw [List.getElem?_eq_some_iff] at hb; exact hb.1
        obtain ⟨c, c1, c2, c3⟩ := h3 (i + 1) _ b (hget (i + 1) (by omega)) hb
        simp only [startOf, Nat.add_eq_zero_iff, Nat.succ_ne_zero, and_false, if_false,
          Nat.add_sub_cancel, ha, Option.map_some, Option.some.injEq] at c1
        subst c1
        rw [hord] at c3
        exact c3

/-- A normally ending multi-stage run: the sizes of each stage's flags count all refinements of the
stages before. -/
theorem stage_sizes (nopts : Int) (stage : Nat → Stage K P) (sts : List (St K P)) (total N : Nat)
    (h : multiOpt nopts stage = .ok (sts, total)) (hq : AllSize N (stage 0).start.q)
    (hn : ∀ i, (stage i).set.nphis = [] ∨
      (stage i).set.nphis.length = (stage i).set.extra + 1) (i : Nat) (hi : i < sts.length) :
    (stage i).set.fl.R0c.length =
        N + ((List.range i).map fun k => (stage k).set.extra).sum ∧
      ∀ st, sts[i]? = some st →
        AllSize (N + ((List.range (i + 1)).map fun k => (stage k).set.extra).sum) st.q := by
  obtain ⟨-, -, h0, h1⟩ := (stages nopts stage).2 sts total h
  have key : ∀ (e : Env K P) (s : Settings) o (q : Config K) n M st, AllSize M q →
      (s.nphis = [] ∨ s.nphis.length = s.extra + 1) → optimize e s o q n = .ok st →
      s.fl.R0c.length = M ∧ AllSize (M + s.extra) st.q := by
    intro e s o q n M st hM hs ho
    have := optimize_safe e s o q n M hM hs
    rw [ho] at this
    exact ⟨this.1.R0c.trans hM.R0c, this.2.size⟩
  induction i with
  | zero =>
    obtain ⟨k1, k2⟩ := key _ _ _ _ _ N _ hq (hn 0) (h0 sts[0] (List.getElem?_eq_getElem hi))
    refine ⟨by simpa using k1, fun st hst => ?_⟩
    rw [List.getElem?_eq_getElem hi] at hst
    obtain rfl := Option.some.inj hst
    simpa using k2
  | succ i ih =>
    obtain ⟨-, j2⟩ := ih (by omega)
    have hs := j2 sts[i] (List.getElem?_eq_getElem (by omega))
    obtain ⟨k1, k2⟩ := key _ _ _ _ _ _ _ hs (hn (i + 1))
      (h1 i sts[i] sts[i + 1] (List.getElem?_eq_getElem (by omega)) (List.getElem?_eq_getElem hi))
    refine ⟨k1, fun st hst => ?_⟩
    rw [List.getElem?_eq_getElem hi] at hst
    obtain rfl := Option.some.inj hst
    rw [List.range_succ, List.map_append, List.sum_append]
    simpa [Nat.add_assoc] using k2

/-- Two stages: the second one's flags cover the mode added by the first, and it starts there. -/
def exStage : Nat → Stage Int Int
  | 0 => ⟨moving, exSettings, ⟨exQ, 31, "r2.1"⟩⟩
  | _ => ⟨moving, ⟨⟨false, true, false, false, [false, true], [false, false], [false, false],
      [false, false]⟩, 0, 3, [51]⟩, ⟨exQ, 31, "r1"⟩⟩

example :
    (multiOpt 2 exStage).toOption.map (fun r => (r.2, r.1.map (·.nphi))) = some (3, [31, 51]) ∧
    (multiOpt 2 exStage).toOption.map (fun r => r.1.map fun st => st.log.map (·.q.R0c)) =
      some [[[10, 0], [10, 0], [10, 0], [10, 7]], [[10, 7], [10, 7]]] ∧
    (multiOpt 2 exStage).toOption.map (fun r => r.1.map fun st => st.log.map (·.q.sigma0)) =
      some [[2, 2, 2, 2], [2, 7]] := by decide +kernel

/-- Flags for the original modes only are refused in the second stage. -/
example : (match multiOpt 2 (fun i => if i = 0 then exStage 0
      else ⟨moving, exSettings, ⟨exQ, 31, "r1"⟩⟩) with
    | .ok _ => none
    | .error e => some e) = some (.throw "Size of vary_R0c is incorrect") := by decide +kernel

end Qsc.OptLoop
