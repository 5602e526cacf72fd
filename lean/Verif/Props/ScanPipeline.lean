import Verif.Lemmas.ScanPipeline
import Verif.Props.Pipeline
import Verif.Props.Collect

/-!
# Properties C76 and C77: a random scan from an input file
-/

namespace Qsc.ScanPipeline

open Qsc.Sections Qsc.Pipeline Qsc.Spec.Sections Qsc.Spec.ScanPipeline Qsc.Spec.Random
open Qsc.ScanDraws

/-- What `steps` does for members that are all initialised and arrays of common length. -/
theorem steps_eq (l0 : ℝ) (phys : Drawn → Scan.Cand ℝ) (r : ScanObj ℝ)
    (ht : Typed scanDoc r.mem) {n : Nat} (hn : ModeCount r.mem n)
    (hk : ∀ k, r.mem "max_keep_per_proc" = some (.int k) → 0 ≤ k) :
    ∃ c cfg, IsSettings r n c ∧ IsCfg r.mem cfg ∧ ∀ rank p, steps l0 phys r rank p =
      (liftRandom (start l0 p.u c rank)).bind fun g =>
      (liftValidate (Setup.validate r.q.order_r_option)).bind fun ord =>
      .ok ({ cfg with r2 := ord.atLeastR2 },
        (p.clock.zip (drawsFrom p.u { c with r2 := ord.atLeastR2 } p.clock.length g)).map
          fun x => ⟨x.1.1, x.1.2, phys x.2⟩) := by
  obtain ⟨c, h1, h2⟩ := settingsOf_ok ht hn
  obtain ⟨cfg, h3, h4, -⟩ := cfgOf_ok ht false
  refine ⟨c, cfg, h2, h4, fun rank p => ?_⟩
  unfold steps prepare
  rw [h3]
  simp only [Except.bind]
  rw [if_neg (Int.not_lt.2 (hk _ h4.maxKeep)), h1]
  simp only
  cases liftRandom (start l0 p.u c rank) with
  | error _ => rfl
  | ok g => cases liftValidate (Setup.validate r.q.order_r_option) <;> rfl

theorem startable_iff {r : ScanObj ℝ} {n : Nat} {c : Settings} (h : IsSettings r n c) (l0 : ℝ)
    (u : Nat → ℝ) (rank : Nat) :
    Startable r.mem r.q.order_r_option n ↔
      (∃ g, start l0 u c rank = .ok g) ∧ ∃ o, Setup.validate r.q.order_r_option = .ok o := by
  have hv : (∃ o, Setup.validate r.q.order_r_option = .ok o) ↔
      (r.q.order_r_option = "r1" ∨ r.q.order_r_option = "r2" ∨ r.q.order_r_option = "r2.1") :=
    ⟨fun ⟨o, ho⟩ => ((Setup.validate_spec _).1 o ho).1, (Setup.validate_spec _).2.1⟩
  rw [start_ok_iff, hv]
  have hs : ∀ (name : String) {s : String} {rg : Range} {lo hi op : String}, name ++ "_scan_option" = op →
      name ++ "_min" = lo → name ++ "_max" = hi → r.mem op = some (.str s) →
      IsRange r.mem lo hi rg → (ScalarRange r.mem name Acceptable ↔ Acceptable s rg.min rg.max) := by
    rintro name s rg _ _ _ rfl rfl rfl e1 ⟨e2, e3⟩
    constructor
    · rintro ⟨s', a, b, f1, f2, f3, ha⟩
      rw [e1] at f1; rw [e2] at f2; rw [e3] at f3
      cases f1; cases f2; cases f3
      exact ha
    · intro ha
      exact ⟨_, _, _, e1, e2, e3, ha⟩
  have hm : ∀ (name : String) {rg : Range} {lo hi : String} {j : Nat}, name ++ "_min" = lo →
      name ++ "_max" = hi → IsRangeAt r.mem lo hi j rg →
      (ModeRange r.mem name j Acceptable ↔ Acceptable (if name = "R0c" ∧ j = 0 ∧
        c.fourierOption = "2 sided log" then "log" else c.fourierOption) rg.min rg.max) := by
    rintro name rg _ _ j rfl rfl ⟨la, lb, e2, e3, e4, e5⟩
    constructor
    · rintro ⟨s', la', lb', a, b, f1, f2, f3, f4, f5, ha⟩
      rw [h.fourierOption] at f1; rw [e2] at f2; rw [e3] at f3
      cases f1; cases f2; cases f3
      rw [e4] at f4; rw [e5] at f5
      cases f4; cases f5
      exact ha
    · intro ha
      exact ⟨_, la, lb, _, _, h.fourierOption, e2, e3, e4, e5, ha⟩
  have hlen : c.modes.length = n := by
    have := h.modes.length_eq
    simpa using this.symm
  have him : ∀ j m, c.modes[j]? = some m → IsMode r.mem j m := by
    intro j m hj
    obtain ⟨hj', rfl⟩ := List.getElem?_eq_some_iff.1 hj
    have h3 := (List.forall₂_iff_get.1 h.modes).2 j (by simpa [hlen] using hj') hj'
    simpa using h3
  constructor
  · rintro ⟨h1, h2, h3⟩
    simp only [List.mem_cons, List.not_mem_nil, or_false, forall_eq_or_imp, forall_eq] at h1 h2
    rw [hs "eta_bar" rfl rfl rfl h.etaBarOption h.etaBar, hs "sigma0" rfl rfl rfl h.sigma0Option h.sigma0,
      hs "B2c" rfl rfl rfl h.B2cOption h.B2c, hs "B2s" rfl rfl rfl h.B2sOption h.B2s,
      hs "p2" rfl rfl rfl h.p2Option h.p2] at h1
    refine ⟨⟨h1.1, h1.2.1, h1.2.2.1, h1.2.2.2.1, h1.2.2.2.2, fun j m hj => ?_⟩, h3⟩
    have hjn : j < n := hlen ▸ (List.getElem?_eq_some_iff.1 hj).1
    have i := him j m hj
    have k1 := (hm "R0c" rfl rfl i.R0c).1 (h2.1 j hjn)
    have k2 := (hm "R0s" rfl rfl i.R0s).1 (h2.2.1 j hjn)
    have k3 := (hm "Z0c" rfl rfl i.Z0c).1 (h2.2.2.1 j hjn)
    have k4 := (hm "Z0s" rfl rfl i.Z0s).1 (h2.2.2.2 j hjn)
    simp only [String.reduceEq, false_and, if_false, true_and] at k1 k2 k3 k4
    exact ⟨k1, k2, k3, k4⟩
  · rintro ⟨⟨a1, a2, a3, a4, a5, a6⟩, h3⟩
    refine ⟨?_, ?_, h3⟩
    · simp only [List.mem_cons, List.not_mem_nil, or_false, forall_eq_or_imp, forall_eq]
      rw [hs "eta_bar" rfl rfl rfl h.etaBarOption h.etaBar, hs "sigma0" rfl rfl rfl h.sigma0Option h.sigma0,
        hs "B2c" rfl rfl rfl h.B2cOption h.B2c, hs "B2s" rfl rfl rfl h.B2sOption h.B2s,
        hs "p2" rfl rfl rfl h.p2Option h.p2]
      exact ⟨a1, a2, a3, a4, a5⟩
    · intro name hname j hj
      have hg := List.getElem?_eq_getElem (l := c.modes) (i := j) (by omega)
      have i := him j _ hg
      obtain ⟨k1, k2, k3, k4⟩ := a6 j _ hg
      simp only [List.mem_cons, List.not_mem_nil, or_false] at hname
      rcases hname with rfl | rfl | rfl | rfl
      · exact (hm "R0c" rfl rfl i.R0c).2 (by simpa using k1)
      · exact (hm "R0s" rfl rfl i.R0s).2 (by simpa using k2)
      · exact (hm "Z0c" rfl rfl i.Z0c).2 (by simpa using k3)
      · exact (hm "Z0s" rfl rfl i.Z0s).2 (by simpa using k4)

/-! ## C76: which files start a scan, and what is saved -/

/-- A random scan from an accepted file whose `max_keep_per_proc` is not negative starts exactly if
all bounds are acceptable for their distributions (also those that the order does not use) and the
order exists; otherwise one of the documented exceptions ends it.  No array is left and no
uninitialised member is used. -/
theorem scan_starts (l0 : ℝ) (phys : Drawn → Scan.Cand ℝ) (lit : String → ℝ) (single : Bool)
    (f : File ℝ) (hf : WellFormed f) (r : ScanObj ℝ)
    (h : scanInput (fun i => (i : ℝ)) 0 f (scanNew lit single) = .ok r)
    (hk : ∀ k, r.mem "max_keep_per_proc" = some (.int k) → 0 ≤ k) :
    ∃ n, ModeCount r.mem n ∧ ∀ rank p,
      (Startable r.mem r.q.order_r_option n →
        ∃ s, scanRun l0 phys lit single f rank p = .ok s) ∧
      (¬ Startable r.mem r.q.order_r_option n →
        (∃ e, scanRun l0 phys lit single f rank p = .error (.random e)) ∨
        scanRun l0 phys lit single f rank p =
          .error (.validate (.throw "Invalid setting for order_r_option"))) := by
  obtain ⟨ht, n, hn⟩ := scanInput_ready _ _ f hf _ r (scanNew_typed lit single) h
  refine ⟨n, hn, fun rank p => ?_⟩
  obtain ⟨c, cfg, h1, h2, h3⟩ := steps_eq l0 phys r ht hn hk
  rw [startable_iff h1 l0 p.u rank]
  unfold scanRun
  rw [h]
  simp only [liftInput, Except.bind]
  rw [h3]
  constructor
  · rintro ⟨⟨g, hg⟩, o, ho⟩
    rw [hg, ho]
    exact ⟨_, rfl⟩
  · intro hno
    cases hg : start l0 p.u c rank with
    | error e => exact Or.inl ⟨e, rfl⟩
    | ok g =>
      cases hv : Setup.validate r.q.order_r_option with
      | ok o => exact absurd ⟨⟨g, hg⟩, o, hv⟩ hno
      | error e =>
        right
        have hb : ¬ (r.q.order_r_option = "r1" ∨ r.q.order_r_option = "r2" ∨
            r.q.order_r_option = "r2.1") := by
          intro hc
          obtain ⟨o, ho⟩ := (Setup.validate_spec _).2.1 hc
          rw [hv] at ho
          cases ho
        have := (Setup.validate_spec _).2.2 hb
        rw [hv] at this
        cases this
        rfl

/-- What one process attempts and saves: `ds` are the inputs offered to the passes of the loop. -/
structure Tries (phys : Drawn → Scan.Cand ℝ) (r : ScanObj ℝ) (n : Nat) (p : Proc)
    (ds : List Drawn) (cfg : Scan.Cfg ℝ) (steps : List (Scan.Step ℝ)) : Prop where
  len : ds.length = p.clock.length
  bounds : ∀ d ∈ ds, InBounds r.mem r.q n d
  cand : steps.map Scan.Step.cand = ds.map phys
  isCfg : IsCfg r.mem cfg
  meets : ∀ c, Spec.Scan.Passes realOps cfg c = true ↔ Meets r.mem r.q.order_r_option c

theorem steps_tries {l0 : ℝ} {phys : Drawn → Scan.Cand ℝ} {r : ScanObj ℝ}
    (ht : Typed scanDoc r.mem) {n : Nat} (hn : ModeCount r.mem n)
    (hk : ∀ k, r.mem "max_keep_per_proc" = some (.int k) → 0 ≤ k) {rank : Nat} {p : Proc}
    (hu : ∀ k, 0 ≤ p.u k ∧ p.u k ≤ 1) {cfg : Scan.Cfg ℝ} {l : List (Scan.Step ℝ)}
    (h : steps l0 phys r rank p = .ok (cfg, l)) : ∃ ds, Tries phys r n p ds cfg l := by
  obtain ⟨c, cfg', h1, h2, h3⟩ := steps_eq l0 phys r ht hn hk
  rw [h3] at h
  cases hg : start l0 p.u c rank with
  | error e => rw [hg] at h; cases h
  | ok g =>
    cases hv : Setup.validate r.q.order_r_option with
    | error e => rw [hg, hv] at h; cases h
    | ok o =>
      rw [hg, hv] at h
      simp only [liftRandom, liftValidate, Except.bind, Except.ok.injEq, Prod.mk.injEq] at h
      obtain ⟨rfl, rfl⟩ := h
      obtain ⟨-, k1, -⟩ := (Setup.validate_spec _).1 o hv
      refine ⟨drawsFrom p.u { c with r2 := o.atLeastR2 } p.clock.length g, drawsFrom_length _ _ _ _,
        drawsFrom_inBounds hu h1 _ k1 _ (start_gens hg), ?_, ?_, passes_meets ?_ k1⟩
      · rw [List.map_map]
        have : (Scan.Step.cand ∘ fun x : (Bool × Bool) × Drawn =>
            (⟨x.1.1, x.1.2, phys x.2⟩ : Scan.Step ℝ)) = phys ∘ Prod.snd := rfl
        rw [this, ← List.map_map, List.map_snd_zip]
        rw [drawsFrom_length]
      · exact ⟨h2.1, h2.2, h2.3, h2.4, h2.5, h2.6, h2.7, h2.8, h2.9, h2.10, h2.11, h2.12, h2.13,
          h2.14⟩
      · exact ⟨h2.1, h2.2, h2.3, h2.4, h2.5, h2.6, h2.7, h2.8, h2.9, h2.10, h2.11, h2.12, h2.13,
          h2.14⟩

open Classical in
/-- Everything a process saves was drawn inside the bounds of the file and meets every requirement
of the file, and every attempt that meets them is saved, in order and nothing else. -/
theorem scan_saved (l0 : ℝ) (phys : Drawn → Scan.Cand ℝ) (lit : String → ℝ) (single : Bool)
    (f : File ℝ) (hf : WellFormed f) (r : ScanObj ℝ)
    (h : scanInput (fun i => (i : ℝ)) 0 f (scanNew lit single) = .ok r)
    (hk : ∀ k, r.mem "max_keep_per_proc" = some (.int k) → 1 ≤ k) (rank : Nat) (p : Proc)
    (hu : ∀ k, 0 ≤ p.u k ∧ p.u k ≤ 1) (s : Scan.Local ℝ)
    (hs : scanRun l0 phys lit single f rank p = .ok s) :
    ∃ (n : Nat) (ds : List Drawn), ModeCount r.mem n ∧ ds.length = p.clock.length ∧
      (∀ d ∈ ds, InBounds r.mem r.q n d) ∧
      s.filters .attempts ≤ ds.length ∧
      s.cols.filterMap id = ((ds.take (s.filters .attempts)).filter fun d =>
        Meets r.mem r.q.order_r_option (phys d)).map fun d => (phys d).column := by
  obtain ⟨ht, n, hn⟩ := scanInput_ready _ _ f hf _ r (scanNew_typed lit single) h
  unfold scanRun at hs
  rw [h] at hs
  simp only [liftInput, Except.bind] at hs
  cases hst : steps l0 phys r rank p with
  | error e => rw [hst] at hs; cases hs
  | ok x =>
    obtain ⟨cfg, l⟩ := x
    rw [hst] at hs
    simp only [Except.ok.injEq] at hs
    obtain ⟨ds, T⟩ := steps_tries ht hn (fun k e => by have := hk k e; omega) hu hst
    obtain ⟨m, h1, h2, h3, -⟩ := Scan.scan_saves_exactly realOps cfg (hk _ T.isCfg.maxKeep) l
    rw [hs] at h1 h3
    have hl : l.length = ds.length := by
      have := congrArg List.length T.cand
      simpa using this
    refine ⟨n, ds, hn, T.len, T.bounds, by omega, ?_⟩
    rw [h3, List.map_take, T.cand, ← h1, ← List.map_take, List.filter_map, List.map_map]
    congr 1
    apply List.filter_congr
    intro d _
    rw [Bool.eq_iff_iff]
    simp only [Function.comp_apply, decide_eq_true_eq]
    exact T.meets _

/-! ## C77: what the output of a scan contains -/

open Classical in
/-- After a scan on any number of processes the named arrays of the output hold the quantities of
one list of configurations: exactly those attempts, in rank order, that meet the requirements of the
input file; and each was drawn inside the bounds of the input file. -/
theorem scan_output (l0 : ℝ) (phys : Drawn → Scan.Cand ℝ) (hphys : Reports phys)
    (lit : String → ℝ) (single : Bool) (f : File ℝ) (hf : WellFormed f) (r : ScanObj ℝ)
    (h : scanInput (fun i => (i : ℝ)) 0 f (scanNew lit single) = .ok r)
    (hk : ∀ k, r.mem "max_keep_per_proc" = some (.int k) → 1 ≤ k) {N : Nat}
    (p : Fin (N + 1) → Proc) (hu : ∀ i k, 0 ≤ (p i).u k ∧ (p i).u k ≤ 1)
    (s : Fin (N + 1) → Scan.Local ℝ)
    (hs : ∀ i, scanRun l0 phys lit single f i.val (p i) = .ok (s i))
    (junk : Scan.Column ℝ) (timing : Fin (N + 1) → List ℝ) :
    ∃ (n : Nat) (ds : Fin (N + 1) → List Drawn), ModeCount r.mem n ∧
      (∀ i, ∀ d ∈ ds i, InBounds r.mem r.q n d) ∧
      let g := Spec.Collect.combine (4 * n) fun i => Collect.ofScan junk (timing i) (s i)
      let kept := (List.finRange (N + 1)).flatMap fun i =>
        ((ds i).take ((s i).filters .attempts)).filter fun d =>
          Meets r.mem r.q.order_r_option (phys d)
      g.nScan = kept.length ∧
      (∀ x ∈ Spec.Collect.scalarOutputs, g.scalar x.1 = some (kept.map fun d => some (x.2 (phys d)))) ∧
      g.helicity = kept.map (fun d => some (phys d).helicity) ∧
      ∀ x ∈ Spec.Collect.fourierOutputs, ∀ k < n,
        g.amplitude n x.1 k = some (kept.map fun d => (x.2 (phys d))[k]?) := by
  obtain ⟨ht, n, hn⟩ := scanInput_ready _ _ f hf _ r (scanNew_typed lit single) h
  have key : ∀ i, ∃ cfg l, steps l0 phys r i.val (p i) = .ok (cfg, l) ∧ s i = Scan.run realOps cfg l := by
    intro i
    have hs := hs i
    unfold scanRun at hs
    rw [h] at hs
    simp only [liftInput, Except.bind] at hs
    cases hst : steps l0 phys r i.val (p i) with
    | error e => rw [hst] at hs; cases hs
    | ok x =>
      obtain ⟨cfg, l⟩ := x
      rw [hst] at hs
      exact ⟨cfg, l, rfl, (Except.ok.inj hs).symm⟩
  choose cfg l h1 h2 using key
  have T : ∀ i, ∃ ds, Tries phys r n (p i) ds (cfg i) (l i) := fun i =>
    steps_tries ht hn (fun k e => by have := hk k e; omega) (hu i) (h1 i)
  choose ds T using T
  -- all processes use the same thresholds
  have hcfg : ∀ i, cfg i = cfg 0 := by
    intro i
    obtain ⟨c, cf, -, -, h3⟩ := steps_eq l0 phys r ht hn (fun k e => by have := hk k e; omega)
    have aux : ∀ i, ∃ o, Setup.validate r.q.order_r_option = .ok o ∧
        cfg i = { cf with r2 := o.atLeastR2 } := by
      intro i
      have e := h1 i
      rw [h3] at e
      cases hg : start l0 (p i).u c i.val with
      | error e' => rw [hg] at e; cases e
      | ok g =>
        cases hv : Setup.validate r.q.order_r_option with
        | error e' => rw [hg, hv] at e; cases e
        | ok o =>
          rw [hg, hv] at e
          simp only [liftRandom, liftValidate, Except.bind, Except.ok.injEq, Prod.mk.injEq] at e
          exact ⟨o, rfl, e.1.symm⟩
    obtain ⟨o, e1, e2⟩ := aux i
    obtain ⟨o', e1', e2'⟩ := aux 0
    rw [e1] at e1'
    cases e1'
    rw [e2, e2']
  have hs' : s = fun i => Scan.run realOps (cfg 0) (l i) := by
    funext i
    rw [h2 i, hcfg i]
  have hlen : ∀ i, ∀ e ∈ l i, e.cand.R0c.length = n ∧ e.cand.R0s.length = n ∧
      e.cand.Z0c.length = n ∧ e.cand.Z0s.length = n := by
    intro i e he
    have hm : e.cand ∈ (l i).map Scan.Step.cand := List.mem_map.2 ⟨e, he, rfl⟩
    rw [(T i).cand] at hm
    obtain ⟨d, hd, e1⟩ := List.mem_map.1 hm
    have hb := ((T i).bounds d hd).modes
    simp only [List.mem_cons, List.not_mem_nil, or_false, forall_eq_or_imp, forall_eq] at hb
    rw [← e1, hphys.R0c, hphys.R0s, hphys.Z0c, hphys.Z0s]
    exact ⟨hb.1.1, hb.2.1.1, hb.2.2.1.1, hb.2.2.2.1⟩
  obtain ⟨g1, g2, g3, g4⟩ := Collect.named_output realOps (cfg 0) (hk _ (T 0).isCfg.maxKeep) n l hlen
    junk timing
  have hkept : ((List.finRange (N + 1)).flatMap fun i =>
      (((l i).take ((Scan.run realOps (cfg 0) (l i)).filters .attempts)).map Scan.Step.cand).filter
        (Spec.Scan.Passes realOps (cfg 0))) =
      ((List.finRange (N + 1)).flatMap fun i =>
        ((ds i).take ((s i).filters .attempts)).filter fun d =>
          Meets r.mem r.q.order_r_option (phys d)).map phys := by
    rw [List.map_flatMap]
    refine List.flatMap_congr fun i _ => ?_
    rw [List.map_take, (T i).cand, ← List.map_take, List.filter_map, hs']
    congr 1
    apply List.filter_congr
    intro d _
    rw [Bool.eq_iff_iff]
    simp only [Function.comp_apply, decide_eq_true_eq]
    rw [← hcfg i]
    exact (T i).meets _
  refine ⟨n, ds, hn, fun i => (T i).bounds, ?_⟩
  rw [hkept] at g1 g2 g3 g4
  simp only [List.map_map, List.length_map] at g1 g2 g3 g4
  have hs2 : (fun i => Collect.ofScan junk (timing i) (Scan.run realOps (cfg 0) (l i))) =
      fun i => Collect.ofScan junk (timing i) (s i) := by rw [hs']
  rw [hs2] at g1 g2 g3 g4
  exact ⟨g1, g2, g3, g4⟩

/-- The bounds of the input file hold for the arrays of the output, and so do its thresholds. -/
theorem scan_output_bounds (l0 : ℝ) (phys : Drawn → Scan.Cand ℝ) (hphys : Reports phys)
    (lit : String → ℝ) (single : Bool) (f : File ℝ) (hf : WellFormed f) (r : ScanObj ℝ)
    (h : scanInput (fun i => (i : ℝ)) 0 f (scanNew lit single) = .ok r)
    (hk : ∀ k, r.mem "max_keep_per_proc" = some (.int k) → 1 ≤ k) {N : Nat}
    (p : Fin (N + 1) → Proc) (hu : ∀ i k, 0 ≤ (p i).u k ∧ (p i).u k ≤ 1)
    (s : Fin (N + 1) → Scan.Local ℝ)
    (hs : ∀ i, scanRun l0 phys lit single f i.val (p i) = .ok (s i))
    (junk : Scan.Column ℝ) (timing : Fin (N + 1) → List ℝ) :
    ∃ n, ModeCount r.mem n ∧
      let g := Spec.Collect.combine (4 * n) fun i => Collect.ofScan junk (timing i) (s i)
      (∀ x ∈ ["eta_bar", "sigma0", "B2c", "B2s", "p2"],
        (r.q.order_r_option ≠ "r1" ∨ x = "eta_bar" ∨ x = "sigma0") →
        ∃ l, g.scalar ("scan_" ++ x) = some l ∧
          ∀ v ∈ l, ∃ y, v = some y ∧ ScalarRange r.mem x fun s a b => InRange s a b y) ∧
      (∀ x ∈ ["R0c", "R0s", "Z0c", "Z0s"], ∀ j < n, ∃ l, g.amplitude n ("scan_" ++ x) j = some l ∧
        ∀ v ∈ l, ∃ y, v = some y ∧ ModeRange r.mem x j fun s a b => InRange s a b y) ∧
      (r.mem "keep_all" = some (.bool false) →
        (∃ l, g.scalar "scan_iota" = some l ∧ ∀ v ∈ l, ∃ y, v = some y ∧
          ∀ t, r.mem "min_iota_to_keep" = some (.flt t) → t ≤ |y|) ∧
        ∃ l, g.scalar "scan_max_elongation" = some l ∧ ∀ v ∈ l, ∃ y, v = some y ∧
          ∀ t, r.mem "max_elongation_to_keep" = some (.flt t) → y ≤ t) := by
  classical
  obtain ⟨n, ds, h1, h2, h3⟩ := scan_output l0 phys hphys lit single f hf r h hk p hu s hs junk timing
  refine ⟨n, h1, ?_⟩
  intro g
  dsimp only at h3
  generalize hkept : ((List.finRange (N + 1)).flatMap fun i =>
    ((ds i).take ((s i).filters .attempts)).filter fun d =>
      decide (Meets r.mem r.q.order_r_option (phys d))) = kept at h3
  have hin : ∀ d ∈ kept, InBounds r.mem r.q n d ∧ Meets r.mem r.q.order_r_option (phys d) := by
    intro d hd
    rw [← hkept] at hd
    obtain ⟨i, -, hd⟩ := List.mem_flatMap.1 hd
    obtain ⟨hd, hm⟩ := List.mem_filter.1 hd
    exact ⟨h2 i d (List.mem_of_mem_take hd), of_decide_eq_true hm⟩
  obtain ⟨-, g2, -, g4⟩ := h3
  have sc : ∀ (name : String) (sel : Scan.Cand ℝ → ℝ) (Q : ℝ → Prop),
      (name, sel) ∈ Spec.Collect.scalarOutputs → (∀ d ∈ kept, Q (sel (phys d))) →
      ∃ l, g.scalar name = some l ∧ ∀ v ∈ l, ∃ y, v = some y ∧ Q y := by
    intro name sel Q hm hQ
    refine ⟨_, g2 _ hm, fun v hv => ?_⟩
    obtain ⟨d, hd, rfl⟩ := List.mem_map.1 hv
    exact ⟨_, rfl, hQ d hd⟩
  refine ⟨?_, ?_, fun hka => ⟨?_, ?_⟩⟩
  · intro x hx hor
    simp only [List.mem_cons, List.not_mem_nil, or_false] at hx
    rcases hx with rfl | rfl | rfl | rfl | rfl
    · exact sc "scan_eta_bar" _ _ (.head _) fun d hd => by
        rw [hphys.etaBar]; exact (hin d hd).1.first ("eta_bar", _) (by simp)
    · exact sc "scan_sigma0" _ _ (.tail _ (.head _)) fun d hd => by
        rw [hphys.sigma0]; exact (hin d hd).1.first ("sigma0", _) (by simp)
    · exact sc "scan_B2c" _ _ (.tail _ (.tail _ (.head _))) fun d hd => by
        rw [hphys.B2c]
        exact (hin d hd).1.second (by simpa using hor) ("B2c", _) (by simp)
    · exact sc "scan_B2s" _ _ (.tail _ (.tail _ (.tail _ (.head _)))) fun d hd => by
        rw [hphys.B2s]
        exact (hin d hd).1.second (by simpa using hor) ("B2s", _) (by simp)
    · exact sc "scan_p2" _ _ (.tail _ (.tail _ (.tail _ (.tail _ (.head _))))) fun d hd => by
        rw [hphys.p2]
        exact (hin d hd).1.second (by simpa using hor) ("p2", _) (by simp)
  · intro x hx j hj
    have fo : ∀ (name : String) (sel : Scan.Cand ℝ → List ℝ) (sel' : Drawn → List ℝ),
        ("scan_" ++ name, sel) ∈ Spec.Collect.fourierOutputs → (∀ d, sel (phys d) = sel' d) →
        (∀ d, (name, sel' d) ∈ [("R0c", d.R0c), ("R0s", d.R0s), ("Z0c", d.Z0c), ("Z0s", d.Z0s)]) →
        ∃ l, g.amplitude n ("scan_" ++ name) j = some l ∧
        ∀ v ∈ l, ∃ y, v = some y ∧ ModeRange r.mem name j fun s a b => InRange s a b y := by
      intro name sel sel' hm he hmem
      refine ⟨_, g4 _ hm j hj, fun v hv => ?_⟩
      obtain ⟨d, hd, rfl⟩ := List.mem_map.1 hv
      obtain ⟨k1, k2⟩ := (hin d hd).1.modes _ (hmem d)
      simp only [he] at k1 k2 ⊢
      have hg := List.getElem?_eq_getElem (l := sel' d) (i := j) (by omega)
      exact ⟨_, hg, k2 j _ hg⟩
    simp only [List.mem_cons, List.not_mem_nil, or_false] at hx
    rcases hx with rfl | rfl | rfl | rfl
    · exact fo "R0c" _ Drawn.R0c (.head _) hphys.R0c (by simp)
    · exact fo "R0s" _ Drawn.R0s (.tail _ (.head _)) hphys.R0s (by simp)
    · exact fo "Z0c" _ Drawn.Z0c (.tail _ (.tail _ (.head _))) hphys.Z0c (by simp)
    · exact fo "Z0s" _ Drawn.Z0s (.tail _ (.tail _ (.tail _ (.head _)))) hphys.Z0s (by simp)
  · exact sc "scan_iota" (fun c => c.iota) (fun y => ∀ t, r.mem "min_iota_to_keep" = some (.flt t) → t ≤ |y|)
      (by simp [Spec.Collect.scalarOutputs]) fun d hd t ht' =>
        (hin d hd).2.lower hka ("min_iota_to_keep", |(phys d).iota|) (by simp [lower]) t ht'
  · exact sc "scan_max_elongation" (fun c => c.gridMaxElongation)
      (fun y => ∀ t, r.mem "max_elongation_to_keep" = some (.flt t) → y ≤ t)
      (by simp [Spec.Collect.scalarOutputs]) fun d hd t ht' =>
        (hin d hd).2.upper hka ("max_elongation_to_keep", (phys d).gridMaxElongation)
          (by simp [upper]) t ht'

/-! ## Examples -/

noncomputable def exLitR (s : String) : ℝ :=
  if s = "-1.0" then -1 else if s = "1.0" then 1 else if s = "10.0" then 10 else 0

/-- A scan of two modes and `eta_bar`. -/
noncomputable def exF (order option : String) : File ℝ :=
  [("qsc", [("nfp", .int 4), ("order_r_option", .str order)]),
   ("scan", [("R0c_min", .arr [.flt 1, .flt (1 / 100)]), ("R0c_max", .arr [.flt 1, .flt (1 / 10)]),
    ("Z0s_min", .arr [.flt 0, .flt (1 / 100)]), ("Z0s_max", .arr [.flt 0, .flt (1 / 10)]),
    ("fourier_scan_option", .str "2 sided log"), ("eta_bar_scan_option", .str option),
    ("eta_bar_min", .flt (-1)), ("eta_bar_max", .int 2), ("keep_all", .int 0),
    ("min_iota_to_keep", .flt (1 / 5)), ("max_attempts_per_proc", .int 50)])]

theorem exF_wellFormed (order option : String) : WellFormed (exF order option) := by
  refine ⟨by simp [exF], ?_⟩
  simp [exF]

/-- The file is accepted, with the linear distribution and with "log". -/
theorem exF_ok (option : String) (ho : option = "linear" ∨ option = "log") : ∃ r,
    scanInput (fun i => (i : ℝ)) 0 (exF "r2" option) (scanNew exLitR false) = .ok r := by
  have key : ∀ e : Except Sections.Err (ScanObj ℝ),
      (match e with | .ok _ => true | .error _ => false) = true → ∃ r, e = .ok r := by
    rintro (e | r) h
    · cases h
    · exact ⟨r, rfl⟩
  rcases ho with rfl | rfl <;> exact key _ (by decide +kernel)

/-- What it says; the arrays that it does not mention are padded. -/
theorem exF_read (order option : String) (r : ScanObj ℝ)
    (h : scanInput (fun i => (i : ℝ)) 0 (exF order option) (scanNew exLitR false) = .ok r) :
    (r.mem "R0c_min" = some (.flts [1, 1 / 100]) ∧ r.mem "R0c_max" = some (.flts [1, 1 / 10]) ∧
     r.mem "R0s_min" = some (.flts [0, 0]) ∧ r.mem "R0s_max" = some (.flts [0, 0]) ∧
     r.mem "Z0c_min" = some (.flts [0, 0]) ∧ r.mem "Z0c_max" = some (.flts [0, 0]) ∧
     r.mem "Z0s_min" = some (.flts [0, 1 / 100]) ∧ r.mem "Z0s_max" = some (.flts [0, 1 / 10])) ∧
    (r.mem "eta_bar_min" = some (.flt (-1)) ∧ r.mem "eta_bar_max" = some (.flt ((2 : ℤ) : ℝ)) ∧
     r.mem "eta_bar_scan_option" = some (.str option)) ∧
    (∀ x ∈ ["sigma0", "B2c", "B2s", "p2"], r.mem (x ++ "_scan_option") = some (.str "linear") ∧
      r.mem (x ++ "_min") = some (.flt (exLitR "0.0")) ∧
      r.mem (x ++ "_max") = some (.flt (exLitR "0.0"))) ∧
    r.mem "fourier_scan_option" = some (.str "2 sided log") ∧
    r.mem "max_keep_per_proc" = some (.int 1000) ∧ r.mem "keep_all" = some (.bool false) ∧
    r.q.order_r_option = order := by
  obtain ⟨⟨tq, hq1, hq2⟩, t, mid, ht, ⟨-, h2, -⟩, ⟨n, ⟨m, hm, hl⟩, h4⟩, h5⟩ :=
    (scanInput_iff _ _ _ (exF_wellFormed order option) _ r).1 h
  have z : exLitR "0.0" = 0 := by simp [exLitR]
  -- the two sections
  simp only [exF, List.mem_cons, Prod.mk.injEq, List.not_mem_nil, or_false] at ht hq1
  obtain ⟨hc, -⟩ | ⟨-, ht⟩ := ht
  · exact absurd hc (by decide)
  obtain ⟨-, rfl⟩ | ⟨hc, -⟩ := hq1
  swap
  · exact absurd hc (by decide)
  -- keys of the file, by type, and absent keys
  have fl (k : String) (hk : scanDoc.Has .flt k) (y : ℝ) (hy : (k, Toml.Value.flt y) ∈ t) :
      mid k = some (.flt y) := by
    obtain ⟨v, ⟨w, hw | ⟨i, hw, -⟩, rfl⟩, e⟩ := (h2 .flt k hk).2 _ hy <;> cases hw
    exact e
  have st (k : String) (hk : scanDoc.Has .str k) (y : String) (hy : (k, Toml.Value.str y) ∈ t) :
      mid k = some (.str y) := by
    obtain ⟨v, ⟨w, hw, rfl⟩, e⟩ := (h2 .str k hk).2 _ hy
    cases hw
    exact e
  have ar (k : String) (hk : scanDoc.Has .flts k) (x y : ℝ)
      (hy : (k, Toml.Value.arr [.flt x, .flt y]) ∈ t) : mid k = some (.flts [x, y]) := by
    obtain ⟨v, ⟨w, hw, rfl⟩, e⟩ := (h2 .flts k hk).2 _ hy
    match w, hw with
    | [a, b], hw => simp at hw; rw [e, hw.1, hw.2]
  have de (κ : Kind) (k : String) (hk : scanDoc.Has κ k) (hn : ∀ x, (k, x) ∉ t) :
      mid k = (scanNew exLitR false).mem k := (h2 κ k hk).1 hn
  -- the arrays
  have c1 := ar "R0c_min" (by simp [Doc.Has, scanDoc]) 1 (1 / 100) (by simp [ht])
  have c2 := ar "R0c_max" (by simp [Doc.Has, scanDoc]) 1 (1 / 10) (by simp [ht])
  have c7 := ar "Z0s_min" (by simp [Doc.Has, scanDoc]) 0 (1 / 100) (by simp [ht])
  have c8 := ar "Z0s_max" (by simp [Doc.Has, scanDoc]) 0 (1 / 10) (by simp [ht])
  have c3 := (de .flts "R0s_min" (by simp [Doc.Has, scanDoc]) (by simp [ht])).trans
    (b := _) (c := some (.flts [exLitR "0.0"])) rfl
  have c4 := (de .flts "R0s_max" (by simp [Doc.Has, scanDoc]) (by simp [ht])).trans
    (b := _) (c := some (.flts [exLitR "0.0"])) rfl
  have c5 := (de .flts "Z0c_min" (by simp [Doc.Has, scanDoc]) (by simp [ht])).trans
    (b := _) (c := some (.flts [exLitR "0.0"])) rfl
  have c6 := (de .flts "Z0c_max" (by simp [Doc.Has, scanDoc]) (by simp [ht])).trans
    (b := _) (c := some (.flts [exLitR "0.0"])) rfl
  have hle : n ≤ 2 := by
    have k (k : String) (l : List ℝ) (e : mid k = some (.flts l)) (hl2 : l.length ≤ 2)
        (hk : m = k) : n ≤ 2 := by
      subst hk
      rcases hl with ⟨w, e', rfl⟩ | ⟨w, e', rfl⟩ | ⟨w, e', rfl⟩ | ⟨w, e', rfl⟩ <;>
        rw [e] at e' <;> cases e'
      exact hl2
    simp only [boundArrays, List.mem_cons, List.not_mem_nil, or_false] at hm
    rcases hm with hm | hm | hm | hm | hm | hm | hm | hm
    · exact k _ _ c1 (by simp) hm
    · exact k _ _ c2 (by simp) hm
    · exact k _ _ c3 (by simp) hm
    · exact k _ _ c4 (by simp) hm
    · exact k _ _ c5 (by simp) hm
    · exact k _ _ c6 (by simp) hm
    · exact k _ _ c7 (by simp) hm
    · exact k _ _ c8 (by simp) hm
  have hn : n = 2 := by
    obtain ⟨l, w, e, -, -, hp, -⟩ := h4 "R0c_min" (by simp [boundArrays])
    rw [c1] at e
    cases e
    simp at hp
    omega
  subst hn
  have two (k : String) (hk : k ∈ boundArrays) (x y : ℝ) (e : mid k = some (.flts [x, y])) :
      r.mem k = some (.flts [x, y]) := by
    obtain ⟨l, w, e', e2, p1, -, p3, -⟩ := h4 k hk
    rw [e] at e'
    cases e'
    match w, p1 with
    | [a, b], _ =>
      have q1 := p3 0 (by simp)
      have q2 := p3 1 (by simp)
      simp at q1 q2
      rw [e2, q1, q2]
  have one (k : String) (hk : k ∈ boundArrays) (x : ℝ) (e : mid k = some (.flts [x])) :
      r.mem k = some (.flts [x, 0]) := by
    obtain ⟨l, w, e', e2, p1, -, p3, p4⟩ := h4 k hk
    rw [e] at e'
    cases e'
    match w, p1 with
    | [a, b], _ =>
      have q1 := p3 0 (by simp)
      have q2 := p4 1 (by simp) (by simp)
      simp at q1 q2
      rw [e2, q1, q2]
  rw [z] at c3 c4 c5 c6
  have ot (k : String) (v : Val ℝ) (hk : k ∉ boundArrays) (e : mid k = some v) :
      r.mem k = some v := (h5 k hk).trans e
  refine ⟨⟨two _ (by simp [boundArrays]) _ _ c1, two _ (by simp [boundArrays]) _ _ c2,
    one _ (by simp [boundArrays]) _ c3, one _ (by simp [boundArrays]) _ c4,
    one _ (by simp [boundArrays]) _ c5, one _ (by simp [boundArrays]) _ c6,
    two _ (by simp [boundArrays]) _ _ c7, two _ (by simp [boundArrays]) _ _ c8⟩,
    ⟨ot _ _ (by simp [boundArrays]) (fl _ (by simp [Doc.Has, scanDoc]) _ (by simp [ht])), ?_,
      ot _ _ (by simp [boundArrays]) (st _ (by simp [Doc.Has, scanDoc]) _ (by simp [ht]))⟩,
    ?_, ot _ _ (by simp [boundArrays]) (st _ (by simp [Doc.Has, scanDoc]) _ (by simp [ht])),
    ot _ _ (by simp [boundArrays]) ((de .int _ (by simp [Doc.Has, scanDoc])
      (by simp [ht])).trans rfl), ?_, ?_⟩
  · refine ot _ _ (by simp [boundArrays]) ?_
    obtain ⟨v, ⟨w, hw | ⟨i, hw, hi⟩, rfl⟩, e⟩ :=
      (h2 .flt "eta_bar_max" (by simp [Doc.Has, scanDoc])).2 (.int 2) (by simp [ht]) <;> cases hw
    rw [e, hi]
  · intro x hx
    have sd (k : String) (hk : k ∉ boundArrays) (hk' : scanDoc.Has .str k)
        (hn : ∀ x, (k, x) ∉ t) (hd : (scanNew exLitR false).mem k = some (.str "linear")) :
        r.mem k = some (.str "linear") := ot _ _ hk ((de _ _ hk' hn).trans hd)
    have fd (k : String) (hk : k ∉ boundArrays) (hk' : scanDoc.Has .flt k)
        (hn : ∀ x, (k, x) ∉ t) (hd : (scanNew exLitR false).mem k = some (.flt (exLitR "0.0"))) :
        r.mem k = some (.flt (exLitR "0.0")) := ot _ _ hk ((de _ _ hk' hn).trans hd)
    simp only [List.mem_cons, List.not_mem_nil, or_false] at hx
    rcases hx with rfl | rfl | rfl | rfl <;>
      exact ⟨sd _ (by simp [boundArrays]) (by simp [Doc.Has, scanDoc]) (by simp [ht]) rfl,
        fd _ (by simp [boundArrays]) (by simp [Doc.Has, scanDoc]) (by simp [ht]) rfl,
        fd _ (by simp [boundArrays]) (by simp [Doc.Has, scanDoc]) (by simp [ht]) rfl⟩
  · refine ot _ _ (by simp [boundArrays]) ?_
    obtain ⟨v, ⟨w, hw | ⟨i, hw, hi⟩, rfl⟩, e⟩ :=
      (h2 .bool "keep_all" (by simp [Doc.Has, scanDoc])).2 (.int 0) (by simp [ht]) <;> cases hw
    rw [e]
    simpa using hi
  · have := Except.ok.inj hq2
    rw [← this]

/-- With the linear distribution the scan starts; the physics here reports `iota = eta_bar`. -/
noncomputable def exPhys (d : Drawn) : Scan.Cand ℝ :=
  ⟨d.etaBar, d.sigma0, d.B2c, d.B2s, d.p2, 1, 1, 1, d.etaBar, 1, 1, 1, 1, 1, 1, 1, 1, 1, 1, 1, 0,
    d.R0c, d.R0s, d.Z0c, d.Z0s⟩

example : Reports exPhys := by constructor <;> intro d <;> rfl

example (rank : Nat) (p : Proc) :
    ∃ s, scanRun 0 exPhys exLitR false (exF "r2" "linear") rank p = .ok s := by
  obtain ⟨r, h⟩ := exF_ok "linear" (Or.inl rfl)
  obtain ⟨⟨a1, a2, a3, a4, a5, a6, a7, a8⟩, ⟨b1, b2, b3⟩, c, d1, d2, d3, d4⟩ :=
    exF_read "r2" "linear" r h
  obtain ⟨n, hn, H⟩ := scan_starts 0 exPhys exLitR false _ (exF_wellFormed _ _) r h (by
    intro k e; rw [d2] at e; cases e; decide)
  refine (H rank p).1 ⟨?_, ?_, Or.inr (Or.inl d4)⟩
  · intro x hx
    by_cases hx' : x = "eta_bar"
    · subst hx'; exact ⟨_, _, _, b3, b1, b2, Or.inl rfl⟩
    · obtain ⟨e1, e2, e3⟩ := c x (by simp at hx ⊢; tauto)
      exact ⟨_, _, _, e1, e2, e3, Or.inl rfl⟩
  · have hn2 : n = 2 := by
      rcases hn "R0c_min" (by simp [boundArrays]) with ⟨l, e, hl⟩ | ⟨l, e, hl⟩ | ⟨l, e, hl⟩ |
        ⟨l, e, hl⟩ <;> rw [a1] at e <;> cases e
      exact hl.symm
    subst hn2
    intro x hx j hj
    simp only [List.mem_cons, List.not_mem_nil, or_false] at hx
    have hj' : j = 0 ∨ j = 1 := by omega
    rcases hx with rfl | rfl | rfl | rfl <;> rcases hj' with rfl | rfl
    · exact ⟨_, _, _, _, _, d1, a1, a2, rfl, rfl, by simp [Acceptable]⟩
    · exact ⟨_, _, _, _, _, d1, a1, a2, rfl, rfl, by simp [Acceptable]⟩
    · exact ⟨_, _, _, _, _, d1, a3, a4, rfl, rfl, by simp [Acceptable]⟩
    · exact ⟨_, _, _, _, _, d1, a3, a4, rfl, rfl, by simp [Acceptable]⟩
    · exact ⟨_, _, _, _, _, d1, a5, a6, rfl, rfl, by simp [Acceptable]⟩
    · exact ⟨_, _, _, _, _, d1, a5, a6, rfl, rfl, by simp [Acceptable]⟩
    · exact ⟨_, _, _, _, _, d1, a7, a8, rfl, rfl, by simp [Acceptable]⟩
    · exact ⟨_, _, _, _, _, d1, a7, a8, rfl, rfl, by simp [Acceptable]⟩

/-- With the distribution "log" and bounds of different sign it does not. -/
example (rank : Nat) (p : Proc) :
    ∃ e, scanRun 0 exPhys exLitR false (exF "r2" "log") rank p = .error e := by
  obtain ⟨r, h⟩ := exF_ok "log" (Or.inr rfl)
  obtain ⟨-, ⟨b1, b2, b3⟩, -, -, d2, -, -⟩ := exF_read "r2" "log" r h
  obtain ⟨n, -, H⟩ := scan_starts 0 exPhys exLitR false _ (exF_wellFormed _ _) r h (by
    intro k e; rw [d2] at e; cases e; decide)
  rcases (H rank p).2 (by
    rintro ⟨k, -, -⟩
    obtain ⟨s, a, b, e1, e2, e3, hA⟩ := k "eta_bar" (by simp)
    rw [show "eta_bar" ++ "_scan_option" = "eta_bar_scan_option" from rfl, b3] at e1
    rw [show "eta_bar" ++ "_min" = "eta_bar_min" from rfl, b1] at e2
    rw [show "eta_bar" ++ "_max" = "eta_bar_max" from rfl, b2] at e3
    cases e1; cases e2; cases e3
    norm_num [Acceptable] at hA
    simp at hA) with ⟨e, he⟩ | he
  · exact ⟨_, he⟩
  · exact ⟨_, he⟩

end Qsc.ScanPipeline
