import Verif.Lemmas.ScanRunLoop
import Verif.Lemmas.ScanRunSingle
import Verif.Lemmas.ScanRunFile
import Verif.Props.ScanPipeline

/-!
Helper lemmas for `Verif.Props.ScanRun`: one process, and one collection.
-/

namespace Qsc.ScanRun

open Qsc.Scan Qsc.ScanDraws Qsc.Spec.Scan Qsc.Spec.ScanPipeline Qsc.Spec.ScanRun Qsc.Spec.Sections Qsc.Spec.Single
open Qsc.ScanPipeline (Proc)

/-! ## Attempts that can be calculated -/

/-- An attempt comes through if a single run for it does. -/
theorem attempt_of_calculate {e : Env} {d : Drawn} {ord : Setup.Order} {s : Local ℝ} {m : Members}
    (ho : ord.atLeastR2 = e.cfg.r2) (hm : Clean e.n m.matrix) {r : Single.Result ℝ}
    (hc : Single.calculate e.L (atDraw e.q d e.n) e.n ord = .ok r) : ∃ x, attempt e d s m = .ok x := by
  rw [calculate_eq] at hc
  unfold attempt
  dsimp only
  split
  · exact ⟨_, rfl⟩
  cases ha : Axis.initAxis e.L.ops (Single.coeffs (atDraw e.q d e.n)) e.n e.q.sG e.q.spsi e.q.B0 with
  | error x => rw [ha] at hc; cases hc
  | ok a =>
    rw [ha] at hc
    erw [ha]
    dsimp only at hc ⊢
    split
    · exact ⟨_, rfl⟩
    split
    · exact ⟨_, rfl⟩
    split
    · exact ⟨_, rfl⟩
    rw [first_eq]
    dsimp only
    split at hc
    · cases hc
    next ht =>
    rw [if_neg ht]
    clear ht
    generalize R1.solveSigma e.L.ops (cfgAt e d a) (Single.newtonSolve e.L e.n) e.q.newton_tolerance
      e.q.max_newton_iterations e.q.max_linesearch_iterations = z at hc ⊢
    obtain ⟨z1, _ | st⟩ := z
    · cases hc
    dsimp only at hc ⊢
    split
    · exact ⟨_, rfl⟩
    split
    · exact ⟨_, rfl⟩
    split
    · exact ⟨_, rfl⟩
    split
    swap
    · exact ⟨_, rfl⟩
    next hr =>
    rw [ho, if_pos hr] at hc
    have hi : (inAt e d a st).cfg.nphi = e.n := rfl
    generalize inAt e d a st = i at hc hi ⊢
    unfold Single.second at hc
    unfold beyond
    dsimp only
    rw [matrix_fresh i hi hm]
    cases hg : e.L.gesv (2 * i.cfg.nphi) (R2.matrix i fun _ _ => 0) (R2.rhs i) with
    | none => rw [hg] at hc; cases hc
    | some x =>
      rw [hg] at hc
      dsimp only at hc ⊢
      split
      · exact ⟨_, rfl⟩
      split
      · exact ⟨_, rfl⟩
      split
      · exact ⟨_, rfl⟩
      split
      · exact ⟨_, rfl⟩
      cases hs : RSing.calculate e.L.ops (if e.L.single then RSing.tolSingle else RSing.tolDouble) e.L.geev i
        (R2.finish e.L.ops i x) with
      | error msg => rw [hs] at hc; cases hc
      | ok sing =>
        dsimp only
        split
        · exact ⟨_, rfl⟩
        split
        · exact ⟨_, rfl⟩
        exact ⟨_, rfl⟩

/-- An attempt whose axis fails the crude test comes through. -/
theorem attempt_crude {e : Env} {d : Drawn} {s : Local ℝ} {m : Members}
    (h : ¬ (0 < Scan.r0At0 ScanPipeline.realOps d.R0c ∧ 0 < Scan.r0AtHalfPeriod ScanPipeline.realOps d.R0c)) :
    ∃ x, attempt e d s m = .ok x := by
  unfold attempt
  dsimp only
  rw [if_pos]
  · exact ⟨_, rfl⟩
  · have h1 : (setInputs d m.cand).R0c = d.R0c := rfl
    rw [h1, Bool.or_eq_true]
    simp only [ScanPipeline.realOps, decide_eq_true_eq] at h ⊢
    by_contra hn
    push Not at hn
    exact h ⟨by simpa [ScanPipeline.realOps] using hn.1, by simpa [ScanPipeline.realOps] using hn.2⟩

/-- The loop comes through if every attempt does. -/
theorem loop_ok {e : Env} (hk : 1 ≤ e.cfg.maxKeep) (c0 : Cand ℝ) (l : List ((Bool × Bool) × Drawn))
    (h : ∀ d ∈ l.map (·.2), ∀ s m, Clean e.n m.matrix → ∃ x, attempt e d s m = .ok x) :
    ∃ t, loop e (members0 c0) l = .ok t := by
  induction l using List.reverseRecOn with
  | nil => exact ⟨_, rfl⟩
  | append_singleton l x ih =>
    obtain ⟨t, ht⟩ := ih fun d hd => h d (by rw [List.map_append]; exact List.mem_append_left _ hd)
    have inv := loop_inv hk c0 l ht
    rw [loop_concat, ht]
    dsimp only
    unfold iter
    split
    swap
    · exact ⟨_, rfl⟩
    dsimp only
    repeat' split
    all_goals first
      | exact ⟨_, rfl⟩
      | (next h9 =>
          obtain ⟨y, hy⟩ := h x.2 (by simp) _ t.mem inv.clean
          rw [hy] at h9
          cases h9)

/-! ## One process -/

section
variable {l0 : ℝ} {r : Sections.ScanObj ℝ} {modes rank : Nat} {p : Proc}

structure Prepared (r : Sections.ScanObj ℝ) (modes : Nat) (p : Proc) (cfg : Cfg ℝ) (ord : Setup.Order)
    (l : List ((Bool × Bool) × Drawn)) : Prop where
  valid : Setup.validate r.q.order_r_option = .ok ord
  r2 : ord.atLeastR2 = cfg.r2
  isCfg : ScanPipeline.IsCfg r.mem cfg
  meets : ∀ c, Passes ScanPipeline.realOps cfg c = true ↔ Meets r.mem r.q.order_r_option c
  bounds : ∀ d ∈ l.map (·.2), InBounds r.mem r.q modes d
  clock : l.map (·.1) = p.clock
  start : Startable r.mem r.q.order_r_option modes
  same : ScanPipeline.cfgOf r ord.atLeastR2 = .ok cfg

theorem prepare_eq (l0 : ℝ) (ht : Typed scanDoc r.mem) (hn : ModeCount r.mem modes)
    (hk : ∀ k, r.mem "max_keep_per_proc" = some (.int k) → 0 ≤ k) :
    ∃ c cfg, ScanPipeline.IsSettings r modes c ∧ ScanPipeline.IsCfg r.mem cfg ∧
      (∀ b, ScanPipeline.cfgOf r b = .ok { cfg with r2 := b }) ∧ ∀ rank p, ScanPipeline.prepare l0 r rank p =
      (ScanPipeline.liftRandom (start l0 p.u c rank)).bind fun g =>
      (ScanPipeline.liftValidate (Setup.validate r.q.order_r_option)).bind fun ord =>
      .ok ({ cfg with r2 := ord.atLeastR2 }, ord,
        p.clock.zip (drawsFrom p.u { c with r2 := ord.atLeastR2 } p.clock.length g)) := by
  obtain ⟨c, h1, h2⟩ := ScanPipeline.settingsOf_ok ht hn
  obtain ⟨cfg, h3, h4, -⟩ := ScanPipeline.cfgOf_ok ht false
  refine ⟨c, cfg, h2, h4, fun b => ?_, fun rank p => ?_⟩
  · unfold ScanPipeline.cfgOf at h3 ⊢
    dsimp only at h3 ⊢
    revert h3
    repeat' (generalize ScanPipeline.need _ _ = z; cases z <;> simp only [Except.bind]; all_goals try (intro h; cases h; done))
    intro h
    cases h
    rfl
  · unfold ScanPipeline.prepare
    rw [h3]
    simp only [Except.bind]
    rw [if_neg (Int.not_lt.2 (hk _ h4.maxKeep)), h1]

theorem prepare_ok (ht : Typed scanDoc r.mem) (hn : ModeCount r.mem modes)
    (hk : ∀ k, r.mem "max_keep_per_proc" = some (.int k) → 0 ≤ k) (hu : ∀ k, 0 ≤ p.u k ∧ p.u k ≤ 1)
    {cfg : Cfg ℝ} {ord : Setup.Order} {l : List ((Bool × Bool) × Drawn)}
    (h : ScanPipeline.prepare l0 r rank p = .ok (cfg, ord, l)) : Prepared r modes p cfg ord l := by
  obtain ⟨c, cfg', h1, h2, h2', h3⟩ := prepare_eq l0 ht hn hk
  rw [h3] at h
  cases hg : start l0 p.u c rank with
  | error e => rw [hg] at h; cases h
  | ok g =>
    cases hv : Setup.validate r.q.order_r_option with
    | error e => rw [hg, hv] at h; cases h
    | ok o =>
      rw [hg, hv] at h
      simp only [ScanPipeline.liftRandom, ScanPipeline.liftValidate, Except.bind, Except.ok.injEq, Prod.mk.injEq] at h
      obtain ⟨rfl, rfl, rfl⟩ := h
      obtain ⟨-, k1, -⟩ := (Setup.validate_spec _).1 o hv
      have hI : ScanPipeline.IsCfg r.mem { cfg' with r2 := o.atLeastR2 } :=
        ⟨h2.1, h2.2, h2.3, h2.4, h2.5, h2.6, h2.7, h2.8, h2.9, h2.10, h2.11, h2.12, h2.13, h2.14⟩
      refine ⟨hv, rfl, hI, ScanPipeline.passes_meets hI k1, ?_, ?_, ?_, h2' _⟩
      · intro d hd
        rw [List.map_snd_zip (by rw [ScanPipeline.drawsFrom_length])] at hd
        exact ScanPipeline.drawsFrom_inBounds hu h1 _ k1 _ (ScanPipeline.start_gens hg) d hd
      · rw [List.map_fst_zip (by rw [ScanPipeline.drawsFrom_length])]
      · exact (ScanPipeline.startable_iff h1 l0 p.u rank).2 ⟨⟨g, hg⟩, o, hv⟩

end

/-! ## Why an attempt is rejected -/

/-- The name of a counter in the file. -/
def nameOf : Counter → String
  | .r0Crude => "rejected_due_to_R0_crude"
  | .r0 => "rejected_due_to_R0"
  | .helicity => "rejected_due_to_helicity"
  | .curvature => "rejected_due_to_curvature"
  | .iota => "rejected_due_to_iota"
  | .elongation => "rejected_due_to_elongation"
  | .lGradB => "rejected_due_to_L_grad_B"
  | .b20Variation => "rejected_due_to_B20_variation"
  | .d2Volume => "rejected_due_to_d2_volume_d_psi2"
  | .dMerc => "rejected_due_to_DMerc"
  | .lGradGradB => "rejected_due_to_L_grad_grad_B"
  | .rSingularity => "rejected_due_to_r_singularity"
  | .beta => "rejected_due_to_beta"
  | .attempts => "attempts"
  | .kept => "kept"
  | .nSigma => "n_sigma_eq_solves"
  | .nR2 => "n_r2_solves"

theorem nameOf_injective : Function.Injective nameOf := by
  intro a b h
  revert h
  cases a <;> cases b <;> decide +kernel

theorem rejected_names : rejected.map (·.1) = rejections.map nameOf := by decide +kernel

theorem firstOf_map (R : Counter → Prop) [DecidablePred R] (l : List Counter) (k : Counter) :
    FirstOf (l.map fun k => (nameOf k, R k)) (nameOf k) ↔ l.find? (fun k => decide (R k)) = some k := by
  induction l with
  | nil => simp [FirstOf]
  | cons a l ih =>
    rw [List.map_cons]
    change (R a ∧ nameOf k = nameOf a ∨ ¬ R a ∧ FirstOf (l.map fun k => (nameOf k, R k)) (nameOf k)) ↔ _
    rw [ih, List.find?_cons]
    by_cases h : R a
    · simp only [h, true_and, not_true, false_and, or_false, decide_true, Option.some.injEq]
      exact ⟨fun h => (nameOf_injective h).symm, fun h => by rw [h]⟩
    · simp [h]

theorem reasons_eq {o : Sections.Obj ℝ} {cfg : Cfg ℝ} (h : ScanPipeline.IsCfg o cfg) {order : String}
    (hr : cfg.r2 = true ↔ order ≠ "r1") (c : Cand ℝ) :
    reasons o order c = (Spec.Scan.order.tail).map fun k =>
      (nameOf k, Rejects ScanPipeline.realOps cfg c k = true) := by
  have hk : o "keep_all" = some (.bool false) ↔ cfg.keepAll = false := by
    rw [h.keepAll]; simp
  have hb : ∀ (a : String) (x t : ℝ), o a = some (.flt t) → (Below o a x ↔ x < t) := by
    intro a x t e
    unfold Below
    rw [e]; simp
  have ha : ∀ (a : String) (x t : ℝ), o a = some (.flt t) → (Above o a x ↔ t < x) := by
    intro a x t e
    unfold Above
    rw [e]; simp
  have hh : ∀ i : Int, (o "helicity_to_keep" = some (.int i)) ↔ cfg.helicityToKeep = i := by
    intro i; rw [h.helicityToKeep]; simp
  unfold reasons
  rw [hk, hb _ _ _ h.minR0, hb _ _ _ h.minLGradB, hb _ _ _ h.minIota, ha _ _ _ h.maxElongation, hb _ _ _ h.minLGradB,
    ha _ _ _ h.maxB20Variation, ha _ _ _ h.maxD2Volume, hb _ _ _ h.minDMerc, hb _ _ _ h.minLGradGradB,
    hb _ _ _ h.minRSingularity, hb _ _ _ h.minBeta, hh, hh, ← hr]
  simp only [Spec.Scan.order, beforeSigma, beforeR2, Spec.Scan.afterR2, List.cons_append, List.nil_append, List.tail_cons,
    List.map_cons, List.map_nil, nameOf, Rejects, ScanPipeline.realOps]
  simp only [List.cons.injEq, Prod.mk.injEq, true_and, and_true]
  refine ⟨?_, ?_, ?_, ?_, ?_, ?_, ?_, ?_, ?_, ?_, ?_, ?_⟩ <;> simp <;> tauto

theorem crude_iff {o : Cfg ℝ} (c : Cand ℝ) : Rejects ScanPipeline.realOps o c .r0Crude = true ↔
    ¬ (0 < ∑ j ∈ Finset.range c.R0c.length, c.R0c.getD j 0 ∧
      0 < ∑ j ∈ Finset.range c.R0c.length, (-1) ^ j * c.R0c.getD j 0) := by
  have e : ScanPipeline.realOps = Scan.exactOps ℝ := rfl
  simp only [e, Rejects, r0At0_exact, r0AtHalfPeriod_exact]
  simp [exactOps]
  simp only [← not_lt]
  tauto

/-- The same reasons count for what agrees. -/
theorem Agree.reasons {o : Sections.Obj ℝ} {order : String} {c c' : Cand ℝ} (h : Agree order c c') :
    Spec.ScanRun.reasons o order c = Spec.ScanRun.reasons o order c' := by
  unfold Spec.ScanRun.reasons
  rw [h.minR0, h.helicity, h.curvature, h.iota, h.elongation, h.lGradB]
  by_cases ho : order = "r1"
  · simp [ho]
  · obtain ⟨e1, e2, e3, e4, e5, e6, e7⟩ := h.second ho
    simp only [e1, e2, e3, e4, e5, e6, e7]

theorem charged_iff {e : Env} {c0 : Cand ℝ} {d : Drawn} {rows : Nat} {ord : Setup.Order} {o : Sections.Obj ℝ}
    (ho : e.L.ops = Qsc.realOps) (hl : Literals e.L.lit) (hv : Setup.validate e.q.order_r_option = .ok ord)
    (hor : ord.atLeastR2 = e.cfg.r2) (hI : ScanPipeline.IsCfg o e.cfg) (hodd : e.n % 2 = 1) (hs : Sized rows d)
    (hr : 0 < rows) (hn : 0 < e.q.nfp) (hc : Calculable e.L e.q e.n d) (k : Counter) :
    charged ScanPipeline.realOps e.cfg (candOf e c0 d) = some k ↔ Reason e.L o e.q e.n (nameOf k) d := by
  have hr2 : e.cfg.r2 = true ↔ e.q.order_r_option ≠ "r1" := by
    rw [← hor]; exact ((Setup.validate_spec _).1 ord hv).2.1
  have hcr : Rejects ScanPipeline.realOps e.cfg (candOf e c0 d) .r0Crude = true ↔ ¬ Positive d := by
    rw [crude_iff, candOf_r0c]; rfl
  have hord : Spec.Scan.order = .r0Crude :: Spec.Scan.order.tail := rfl
  unfold charged
  rw [hord, List.find?_cons]
  unfold Reason
  by_cases hp : Positive d
  swap
  · rw [hcr.2 hp]
    simp only [hp, not_false_iff, true_and, false_and, or_false, Option.some.injEq]
    constructor
    · rintro rfl; rfl
    · intro h; exact (nameOf_injective (a₁ := .r0Crude) h.symm)
  have hf : Rejects ScanPipeline.realOps e.cfg (candOf e c0 d) .r0Crude = false := by
    rw [← Bool.not_eq_true, hcr]; exact not_not.2 hp
  rw [hf]
  simp only [hp, not_true, false_and, true_and, false_or]
  have key : ∀ c, Computes e.L (Spec.ScanRun.configuration e.q d e.n) d c →
      (FirstOf (Spec.ScanRun.reasons o e.q.order_r_option c) (nameOf k) ↔
        Spec.Scan.order.tail.find? (Rejects ScanPipeline.realOps e.cfg (candOf e c0 d)) = some k) := by
    intro c h1
    obtain ⟨r, h3, h4⟩ := calculate_of ho hl hv hodd hs hr hn c0 h1
    rw [h4.reasons, (calculate_report (c0 := c0) hor h3).1, reasons_eq hI hr2, firstOf_map]
    simp
  constructor
  · intro h
    obtain ⟨c, hc⟩ := hc hp
    exact ⟨c, hc, (key c hc).2 h⟩
  · rintro ⟨c, hc, h⟩
    exact (key c hc).1 h

/-! ## One collection -/

theorem candOf_axis (e : Env) (c0 : Cand ℝ) (d : Drawn) : (candOf e c0 d).R0c = d.R0c ∧ (candOf e c0 d).R0s = d.R0s ∧
    (candOf e c0 d).Z0c = d.Z0c ∧ (candOf e c0 d).Z0s = d.Z0s := by
  unfold candOf
  split
  · exact ⟨rfl, rfl, rfl, rfl⟩
  · unfold afterSigma
    split
    · exact ⟨rfl, rfl, rfl, rfl⟩
    · dsimp only
      split
      · unfold afterR2
        dsimp only
        repeat' split
        all_goals exact ⟨rfl, rfl, rfl, rfl⟩
      · exact ⟨rfl, rfl, rfl, rfl⟩

/-- What the processes tried. -/
def triedOf (l : List ((Bool × Bool) × Drawn)) (x : Local ℝ × Members) : List Drawn :=
  (l.map (·.2)).take (x.1.filters .attempts)

noncomputable def keptOf (e : Env) (c0 : Cand ℝ) (l : List ((Bool × Bool) × Drawn)) (x : Local ℝ × Members) :
    List (Cand ℝ) :=
  ((triedOf l x).map (candOf e c0)).filter (Passes ScanPipeline.realOps e.cfg)

section
variable {N : Nat} {e : Env} {c0 : Fin (N + 1) → Cand ℝ} {l : Fin (N + 1) → List ((Bool × Bool) × Drawn)}
  {x : Fin (N + 1) → Local ℝ × Members} {modes : Nat}

theorem ofScan_at {e : Env} {c0 : Cand ℝ} {l : List ((Bool × Bool) × Drawn)} {x : Local ℝ × Members}
    (h : At e c0 l x) (junk : Scan.Column ℝ) (timing : List ℝ) : Collect.ofScan junk timing x.1 =
    Collect.ofScan junk timing (Scan.run ScanPipeline.realOps e.cfg (stepsOf e c0 l)) := by
  unfold Collect.ofScan
  rw [h.filters, h.jScan, h.cols]

theorem tried_eq {e : Env} {c0 : Cand ℝ} {l : List ((Bool × Bool) × Drawn)} {x : Local ℝ × Members}
    (h : At e c0 l x) : ((stepsOf e c0 l).take ((Scan.run ScanPipeline.realOps e.cfg (stepsOf e c0 l)).filters
      .attempts)).map Scan.Step.cand = (triedOf l x).map (candOf e c0) := by
  unfold triedOf
  rw [h.filters, stepsOf, List.map_take, List.map_take, List.map_map, List.map_map]
  rfl

theorem tried_length (hk : 1 ≤ e.cfg.maxKeep) {c0 : Cand ℝ} {l : List ((Bool × Bool) × Drawn)}
    {x : Local ℝ × Members} (h : At e c0 l x) : (triedOf l x).length = x.1.filters .attempts := by
  have := (Scan.inv_run ScanPipeline.realOps e.cfg hk (stepsOf e c0 l)).le_len
  rw [← h.filters, stepsOf_length] at this
  unfold triedOf
  rw [List.length_take, List.length_map, min_eq_left this]

structure Snapshot (e : Env) (c0 : Fin (N + 1) → Cand ℝ) (modes : Nat) (g : Collect.Gathered ℝ)
    (l : Fin (N + 1) → List ((Bool × Bool) × Drawn)) (x : Fin (N + 1) → Local ℝ × Members)
    (kept : List (Cand ℝ)) : Prop where
  arrays : arrays g modes = some (arraysOf kept)
  nScan : g.nScan = kept.length
  lengths : ∀ c ∈ kept, c.R0c.length = modes ∧ c.R0s.length = modes ∧ c.Z0c.length = modes ∧ c.Z0s.length = modes
  counter : ∀ k : Counter, k ≠ .kept →
    counter g k = ((List.finRange (N + 1)).map fun i => (x i).1.filters k).sum
  kept : ScanRun.counter g .kept = kept.length

theorem snapshot (hk : 1 ≤ e.cfg.maxKeep) (hx : ∀ i, At e (c0 i) (l i) (x i))
    (hs : ∀ i, ∀ d ∈ (l i).map (·.2), Sized modes d) (junk : Scan.Column ℝ) (timing : Fin (N + 1) → List ℝ) :
    Snapshot e c0 modes (Spec.Collect.combine (4 * modes) fun i => Collect.ofScan junk (timing i) (x i).1) l x
      ((List.finRange (N + 1)).flatMap fun i => keptOf e (c0 i) (l i) (x i)) := by
  have hg : (fun i => Collect.ofScan junk (timing i) (x i).1) = fun i => Collect.ofScan junk (timing i)
      (Scan.run ScanPipeline.realOps e.cfg (stepsOf e (c0 i) (l i))) := funext fun i => ofScan_at (hx i) _ _
  have hlen : ∀ i, ∀ s ∈ stepsOf e (c0 i) (l i), s.cand.R0c.length = modes ∧ s.cand.R0s.length = modes ∧
      s.cand.Z0c.length = modes ∧ s.cand.Z0s.length = modes := by
    intro i s h
    obtain ⟨y, hy, rfl⟩ := List.mem_map.1 h
    obtain ⟨b1, b2, b3, b4⟩ := candOf_axis e (c0 i) y.2
    dsimp only
    rw [b1, b2, b3, b4]
    exact hs i y.2 (List.mem_map_of_mem hy)
  have hkept : (fun i => keptOf e (c0 i) (l i) (x i)) = fun i =>
      (((stepsOf e (c0 i) (l i)).take ((Scan.run ScanPipeline.realOps e.cfg (stepsOf e (c0 i) (l i))).filters
        .attempts)).map Scan.Step.cand).filter (Passes ScanPipeline.realOps e.cfg) := by
    funext i
    rw [tried_eq (hx i)]
    rfl
  obtain ⟨g1, g2, g3, g4⟩ := Collect.named_output ScanPipeline.realOps e.cfg hk modes
    (fun i => stepsOf e (c0 i) (l i)) hlen junk timing
  obtain ⟨saved, spare, h1, h2, h3, h4⟩ := Collect.gathered_from_loop ScanPipeline.realOps e.cfg hk
    (fun i => stepsOf e (c0 i) (l i))
  have hmem : ∀ c ∈ (List.finRange (N + 1)).flatMap fun i => keptOf e (c0 i) (l i) (x i), c.R0c.length = modes ∧
      c.R0s.length = modes ∧ c.Z0c.length = modes ∧ c.Z0s.length = modes := by
    intro c hc
    obtain ⟨i, -, hi⟩ := List.mem_flatMap.1 hc
    obtain ⟨d, hd, rfl⟩ := List.mem_map.1 (List.mem_filter.1 hi).1
    obtain ⟨b1, b2, b3, b4⟩ := candOf_axis e (c0 i) d
    rw [b1, b2, b3, b4]
    exact hs i d (List.mem_of_mem_take hd)
  obtain ⟨-, -, -, -, f1, f2⟩ := Collect.gathered_configurations modes junk timing
    (fun i => Scan.run ScanPipeline.realOps e.cfg (stepsOf e (c0 i) (l i))) saved spare h2 h3 h4 (by
      intro i c hc
      rw [h1] at hc
      obtain ⟨d, hd, rfl⟩ := List.mem_map.1 hc
      obtain ⟨s, hs, rfl⟩ := List.mem_map.1 (List.mem_filter.1 hd).1
      obtain ⟨a1, a2, a3, a4⟩ := hlen i s (List.mem_of_mem_take hs)
      simp [Scan.Cand.column, a1, a2, a3, a4]
      omega)
  rw [hg]
  refine ⟨arrays_eq ?_ ?_ ?_ ?_ hmem, ?_, hmem, ?_, ?_⟩
  · rw [hkept]; exact g1
  · rw [hkept]; exact g2
  · rw [hkept]; exact g3
  · rw [hkept]; exact g4
  · rw [hkept]; exact g1
  · intro k hk
    unfold counter
    rw [List.getD_eq_getElem?_getD, f1 k hk, Option.getD_some]
    congr 1
    refine List.map_congr_left fun i _ => ?_
    rw [(hx i).filters]
  · unfold counter
    rw [List.getD_eq_getElem?_getD, f2, Option.getD_some, hkept, List.length_flatMap, List.length_flatMap]
    congr 1
    refine List.map_congr_left fun i _ => ?_
    rw [h1, List.length_map]

/-- What goes into a collection has the sizes it needs. -/
theorem ofScan_ok (hk : 1 ≤ e.cfg.maxKeep) {c0 : Cand ℝ} {l : List ((Bool × Bool) × Drawn)}
    {x : Local ℝ × Members} (hx : At e c0 l x) (hs : ∀ d ∈ l.map (·.2), Sized modes d) (junk : Scan.Column ℝ)
    (timing : List ℝ) : Spec.Collect.Ok (4 * modes) (Collect.ofScan junk timing x.1) := by
  rw [ofScan_at hx]
  have J := Scan.inv_run ScanPipeline.realOps e.cfg hk (stepsOf e c0 l)
  generalize hS : Scan.run ScanPipeline.realOps e.cfg (stepsOf e c0 l) = S at J
  obtain ⟨K, hK⟩ : ∃ K, K = (Scan.firstCands (stepsOf e c0 l) (S.filters .attempts)).filter
    (Passes ScanPipeline.realOps e.cfg) := ⟨_, rfl⟩
  have hcols := J.cols
  have hj := J.saved
  rw [← hK] at hcols hj
  have hlen : ∀ c ∈ K, c.column.params.length = 20 ∧ c.column.fourier.length = 4 * modes := by
    intro c hc
    rw [hK] at hc
    have hc := (List.mem_filter.1 hc).1
    unfold Scan.firstCands at hc
    obtain ⟨s, hs', rfl⟩ := List.mem_map.1 hc
    obtain ⟨y, hy, rfl⟩ := List.mem_map.1 (List.mem_of_mem_take hs')
    obtain ⟨b1, b2, b3, b4⟩ := candOf_axis e c0 y.2
    obtain ⟨a1, a2, a3, a4⟩ := hs y.2 (List.mem_map_of_mem hy)
    refine ⟨rfl, ?_⟩
    simp [Scan.Cand.column, b1, b2, b3, b4, a1, a2, a3, a4]
    omega
  have h20 : (K.map fun c => c.column.params.length).sum = 20 * K.length := by
    rw [List.map_congr_left fun c hc => (hlen c hc).1]
    simp [Nat.mul_comm]
  have h4 : (K.map fun c => c.column.fourier.length).sum = 4 * modes * K.length := by
    rw [List.map_congr_left fun c hc => (hlen c hc).2]
    simp [Nat.mul_comm]
  refine ⟨?_, ?_, ?_, ?_⟩
  · simp [Collect.ofScan]; rfl
  · simp only [Collect.ofScan]
    rw [hcols, hj, List.flatMap_append, List.length_append, List.length_flatMap, List.map_map]
    simp only [Function.comp_def, Option.getD_some]
    rw [h20]
    exact Nat.le_add_right _ _
  · simp only [Collect.ofScan]
    rw [hcols, hj, List.flatMap_append, List.length_append, List.length_flatMap, List.map_map]
    simp only [Function.comp_def, Option.getD_some]
    rw [h4]
    exact Nat.le_add_right _ _
  · simp only [Collect.ofScan]
    rw [hcols, hj, List.length_map, List.length_append, List.length_map]
    exact Nat.le_add_right _ _

end

end Qsc.ScanRun
