import Verif.Lemmas.ScanRunEnd

/-!
Helper lemmas for `Verif.Props.ScanRun`: all processes together.
-/

namespace Qsc.ScanRun

open Qsc.Scan Qsc.ScanDraws Qsc.Spec.Scan Qsc.Spec.ScanPipeline Qsc.Spec.ScanRun Qsc.Spec.Sections Qsc.Spec.Single
open Qsc.ScanPipeline (Proc)

/-! ## Lists -/

theorem mapM_get {ε α β : Type} {f : α → Except ε β} (l : List α) : ∀ ys, l.mapM f = .ok ys →
    ys.length = l.length ∧ ∀ (j : Nat) y, ys[j]? = some y → ∃ x, l[j]? = some x ∧ f x = .ok y := by
  induction l with
  | nil =>
    intro ys h
    cases h
    exact ⟨rfl, fun j y hy => by simp at hy⟩
  | cons a l ih =>
    intro ys h
    rw [List.mapM_cons] at h
    cases ha : f a with
    | error e => rw [ha] at h; cases h
    | ok b =>
      cases hl : l.mapM f with
      | error e => rw [ha, hl] at h; cases h
      | ok bs =>
        rw [ha, hl] at h
        cases h
        obtain ⟨h1, h2⟩ := ih bs hl
        refine ⟨by simp [h1], fun j y hy => ?_⟩
        cases j with
        | zero => exact ⟨a, rfl, by simp at hy; rw [ha, hy]⟩
        | succ j => exact h2 j y (by simpa using hy)

theorem flatMap_get {ι α β : Type} (F : ι → α → β) (A : ι → List α) (l : List ι) : ∀ (k : Nat) (a : α),
    (l.flatMap A)[k]? = some a →
    ∃ i, a ∈ A i ∧ (l.flatMap fun i => (A i).map (F i))[k]? = some (F i a) := by
  induction l with
  | nil => intro k a h; simp at h
  | cons i l ih =>
    intro k a h
    rw [List.flatMap_cons] at h ⊢
    by_cases hk : k < (A i).length
    · rw [List.getElem?_append_left hk] at h
      refine ⟨i, List.mem_of_getElem? h, ?_⟩
      rw [List.getElem?_append_left (by simpa using hk), List.getElem?_map, h]
      rfl
    · rw [List.getElem?_append_right (by omega)] at h
      obtain ⟨i', h1, h2⟩ := ih _ a h
      refine ⟨i', h1, ?_⟩
      rw [List.getElem?_append_right (by simpa using hk), List.length_map]
      exact h2

theorem sum_swap {ι κ : Type} (f : ι → κ → Nat) (is : List ι) (ks : List κ) :
    (ks.map fun k => (is.map fun i => f i k).sum).sum = (is.map fun i => (ks.map (f i)).sum).sum := by
  induction is with
  | nil => simp
  | cons i is ih => simp [List.sum_map_add, ih]

theorem triedOf_prefix {l l' : List ((Bool × Bool) × Drawn)} {x : Local ℝ × Members} (h : l' <+: l)
    (hl : x.1.filters .attempts ≤ l'.length) : triedOf l' x = triedOf l x := by
  obtain ⟨s, rfl⟩ := h
  unfold triedOf
  rw [List.map_append, List.take_append_of_le_length (by simpa using hl)]

theorem At.le {e : Env} (hk : 1 ≤ e.cfg.maxKeep) {c0 : Cand ℝ} {l : List ((Bool × Bool) × Drawn)}
    {x : Local ℝ × Members} (h : At e c0 l x) : x.1.filters .attempts ≤ l.length := by
  have := (Scan.inv_run ScanPipeline.realOps e.cfg hk (stepsOf e c0 l)).le_len
  rwa [← h.filters, stepsOf_length] at this

/-! ## The counters -/

/-- The counters that the file names. -/
noncomputable def countOf (g : Collect.Gathered ℝ) (s : String) : Nat :=
  (rejections.find? fun k => nameOf k == s).elim 0 (counter g)

theorem countOf_nameOf (g : Collect.Gathered ℝ) {k : Counter} (hk : k ∈ rejections) :
    countOf g (nameOf k) = counter g k := by
  have : rejections.find? (fun k' => nameOf k' == nameOf k) = some k := by
    revert hk
    cases k <;> decide +kernel
  unfold countOf
  rw [this]
  rfl

theorem filed_rejected : ∀ a ∈ rejected, ∃ k ∈ rejections, a.1 = nameOf k ∧ ∃ b, (a.1, k, b, a.2) ∈ filed := by
  have h : ∀ a ∈ rejected, (rejections.any fun k => a.1 == nameOf k &&
      filed.any fun x => x.1 == a.1 && decide (x.2.1 = k) && decide (x.2.2.2 = a.2)) = true := by decide +kernel
  intro a ha
  have := h a ha
  simp only [List.any_eq_true, Bool.and_eq_true, beq_iff_eq, decide_eq_true_eq] at this
  obtain ⟨k, hk, h1, x, hx, ⟨h2, h3⟩, h4⟩ := this
  refine ⟨k, hk, h1, x.2.2.1, ?_⟩
  rw [← h2, ← h3, ← h4]
  exact hx

section
variable {N : Nat} {L : Single.Lib ℝ} {left : (Nat → Nat → ℝ) → Nat → Nat → ℝ} {r : Sections.ScanObj ℝ} {n modes : Nat}
  {cfg : Cfg ℝ} {ord : Setup.Order} {c0 : Fin (N + 1) → Cand ℝ} {l : Fin (N + 1) → List ((Bool × Bool) × Drawn)}
  {x : Fin (N + 1) → Local ℝ × Members}

/-- What holds on all processes. -/
structure Common (L : Single.Lib ℝ) (r : Sections.ScanObj ℝ) (n modes : Nat) (cfg : Cfg ℝ) (ord : Setup.Order) : Prop where
  ops : L.ops = Qsc.realOps
  lits : Literals L.lit
  valid : Setup.validate r.q.order_r_option = .ok ord
  r2 : ord.atLeastR2 = cfg.r2
  isCfg : ScanPipeline.IsCfg r.mem cfg
  meets : ∀ c, Passes ScanPipeline.realOps cfg c = true ↔ Meets r.mem r.q.order_r_option c
  keep : 1 ≤ cfg.maxKeep
  odd : n % 2 = 1
  modes : 0 < modes
  nfp : 0 < r.q.nfp

open Classical in
theorem keptOf_eq (C : Common L r n modes cfg ord) {c0 : Cand ℝ} {l : List ((Bool × Bool) × Drawn)}
    {x : Local ℝ × Members} (h : At ⟨L, left, r.q, n, cfg⟩ c0 l x) (hs : ∀ d ∈ l.map (·.2), Sized modes d) :
    keptOf ⟨L, left, r.q, n, cfg⟩ c0 l x =
      (toKeep L r.mem r.q n (triedOf l x)).map (candOf ⟨L, left, r.q, n, cfg⟩ c0) ∧
    ∀ d ∈ toKeep L r.mem r.q n (triedOf l x), Computes L (Spec.ScanRun.configuration r.q d n) d
      (candOf ⟨L, left, r.q, n, cfg⟩ c0 d) ∧ Meets r.mem r.q.order_r_option (candOf ⟨L, left, r.q, n, cfg⟩ c0 d) := by
  have key : ∀ d ∈ triedOf l x, (Keep L r.mem r.q n d ↔
        Passes ScanPipeline.realOps cfg (candOf ⟨L, left, r.q, n, cfg⟩ c0 d) = true) ∧
      (Keep L r.mem r.q n d → Computes L (Spec.ScanRun.configuration r.q d n) d
        (candOf ⟨L, left, r.q, n, cfg⟩ c0 d)) := fun d hd => by
    obtain ⟨s, m, s', m', h1, h2⟩ := h.tried d hd
    exact keep_iff (e := ⟨L, left, r.q, n, cfg⟩) (c0 := c0) (o := r.mem) C.ops C.lits C.valid C.r2 C.odd
      (hs d (List.mem_of_mem_take hd)) C.modes C.nfp h1 h2 C.meets
  constructor
  · unfold keptOf toKeep
    rw [List.filter_map]
    congr 1
    refine List.filter_congr fun d hd => ?_
    rw [Bool.eq_iff_iff, decide_eq_true_iff]
    exact (key d hd).1.symm
  · intro d hd
    obtain ⟨h1, h2⟩ := List.mem_filter.1 hd
    rw [decide_eq_true_iff] at h2
    exact ⟨(key d h1).2 h2, (C.meets _).1 ((key d h1).1.1 h2)⟩

open Classical in
theorem file_output (C : Common L r n modes cfg ord) (hx : ∀ i, At ⟨L, left, r.q, n, cfg⟩ (c0 i) (l i) (x i))
    (hs : ∀ i, ∀ d ∈ (l i).map (·.2), Sized modes d) {g : Collect.Gathered ℝ} {m : Members} {f : Netcdf.File ℝ}
    {toF : Nat → ℝ}
    (S : Snapshot ⟨L, left, r.q, n, cfg⟩ c0 modes g l x
      ((List.finRange (N + 1)).flatMap fun i => keptOf ⟨L, left, r.q, n, cfg⟩ (c0 i) (l i) (x i)))
    (W : Written toF r n g m
      ((List.finRange (N + 1)).flatMap fun i => keptOf ⟨L, left, r.q, n, cfg⟩ (c0 i) (l i) (x i)) f) :
    Output f toF L r.mem r.q n ((List.finRange (N + 1)).flatMap fun i => triedOf (l i) (x i)) := by
  obtain ⟨e, he⟩ : ∃ e : Env, e = ⟨L, left, r.q, n, cfg⟩ := ⟨_, rfl⟩
  have keptEq := fun i => keptOf_eq C (hx i) (hs i)
  have hcfg : e.cfg = cfg := by rw [he]
  rw [← he] at hx S W keptEq
  have hk : 1 ≤ e.cfg.maxKeep := by rw [hcfg]; exact C.keep
  obtain ⟨T, hT⟩ : ∃ T, T = (List.finRange (N + 1)).flatMap fun i => triedOf (l i) (x i) := ⟨_, rfl⟩
  obtain ⟨K, hK⟩ : ∃ K, K = (List.finRange (N + 1)).flatMap fun i => keptOf e (c0 i) (l i) (x i) := ⟨_, rfl⟩
  rw [← hT]
  rw [← hK] at S W
  have hKD : toKeep L r.mem r.q n T =
      (List.finRange (N + 1)).flatMap fun i => toKeep L r.mem r.q n (triedOf (l i) (x i)) := by
    rw [hT]; unfold toKeep; rw [List.filter_flatMap]
  have hKC : K = (List.finRange (N + 1)).flatMap fun i =>
      (toKeep L r.mem r.q n (triedOf (l i) (x i))).map (candOf e (c0 i)) := by
    rw [hK]
    exact List.flatMap_congr fun i _ => (keptEq i).1
  have hlen : K.length = (toKeep L r.mem r.q n T).length := by
    rw [hKC, hKD, List.length_flatMap, List.length_flatMap]
    congr 1
    exact List.map_congr_left fun i _ => List.length_map _
  have hTl : counter g .attempts = T.length := by
    rw [S.counter .attempts (by decide), hT, List.length_flatMap]
    congr 1
    exact List.map_congr_left fun i _ => (tried_length hk (hx i)).symm
  have hkey : ∀ k ∈ rejections, counter g k = ((List.finRange (N + 1)).map fun i => howMany
      (fun c => decide (charged ScanPipeline.realOps e.cfg c = some k)) ((triedOf (l i) (x i)).map (candOf e (c0 i)))).sum := by
    intro k hk'
    rw [S.counter k (by rintro rfl; exact absurd hk' (by decide))]
    congr 1
    refine List.map_congr_left fun i _ => ?_
    obtain ⟨n', h1, -, -, h4, -⟩ := Scan.scan_saves_exactly ScanPipeline.realOps e.cfg hk (stepsOf e (c0 i) (l i))
    rw [(hx i).filters, h4 k hk', ← tried_eq (hx i), h1]
  refine ⟨W.settings, ⟨?_, ?_, ?_, countOf g, ?_, ?_, ?_, ?_⟩, ?_⟩
  · have := W.n_scan
    rwa [hlen] at this
  · have := (W.counters ("attempts", .attempts, "ATTEMPTS", none) (by simp [filed])).1
    rwa [hTl] at this
  · intro _
    have := W.fraction
    rwa [S.kept, hTl, hlen] at this
  · have h1 : (rejected.map fun a => countOf g a.1) = rejections.map (counter g) := by
      have : (rejected.map fun a => countOf g a.1) = (rejected.map (·.1)).map (countOf g) := by rw [List.map_map]; rfl
      rw [this, rejected_names, List.map_map]
      exact List.map_congr_left fun k hk => countOf_nameOf g hk
    rw [h1, ← hTl, ← hlen, ← S.nScan]
    have h2 : rejections.map (counter g) = rejections.map fun k =>
        ((List.finRange (N + 1)).map fun i => (x i).1.filters k).sum :=
      List.map_congr_left fun k hk' => S.counter k (by rintro rfl; exact absurd hk' (by decide))
    rw [h2, sum_swap fun i k => (x i).1.filters k, S.counter .attempts (by decide)]
    have h3 : g.nScan = ((List.finRange (N + 1)).map fun i => (x i).1.jScan).sum := by
      rw [S.nScan, hK, List.length_flatMap]
      congr 1
      refine List.map_congr_left fun i _ => ?_
      rw [(hx i).jScan, (Scan.inv_run ScanPipeline.realOps e.cfg hk (stepsOf e (c0 i) (l i))).saved]
      unfold Scan.firstCands
      rw [tried_eq (hx i)]
      rfl
    rw [h3, ← List.sum_map_add]
    congr 1
    refine List.map_congr_left fun i _ => ?_
    have := (Scan.scan_bookkeeping ScanPipeline.realOps e.cfg hk (stepsOf e (c0 i) (l i))).1
    rw [← (hx i).filters, ← (hx i).jScan] at this
    exact this
  · intro a ha
    obtain ⟨k, hk', h1, b, h2⟩ := filed_rejected a ha
    obtain ⟨h3, h4⟩ := W.counters _ h2
    rw [h1, countOf_nameOf g hk', ← hTl]
    rw [h1] at h3
    refine ⟨h3, fun b hb _ => h4 b hb⟩
  · have : countOf g (nameOf .r0Crude) = counter g .r0Crude := countOf_nameOf g (by decide)
    rw [show "rejected_due_to_R0_crude" = nameOf .r0Crude from rfl, this, hkey _ (by decide), hT, List.filter_flatMap,
      List.length_flatMap]
    congr 1
    refine List.map_congr_left fun i _ => ?_
    unfold howMany
    rw [List.filter_map, List.length_map]
    congr 1
    refine List.filter_congr fun d _ => ?_
    rw [Bool.eq_iff_iff, Function.comp_apply, decide_eq_true_iff, decide_eq_true_iff]
    have hcr : Rejects ScanPipeline.realOps e.cfg (candOf e (c0 i) d) .r0Crude = true ↔ ¬ Positive d := by
      rw [crude_iff, candOf_r0c]; rfl
    rw [← hcr]
    have hord : Spec.Scan.order = .r0Crude :: Spec.Scan.order.tail := rfl
    unfold charged
    rw [hord, List.find?_cons]
    constructor
    · intro h
      split at h
      · assumption
      · exact absurd (List.mem_of_find?_eq_some h) (by decide)
    · intro h
      rw [h]
  · intro hc a ha
    obtain ⟨k, hk', h1, -⟩ := filed_rejected a ha
    rw [h1, countOf_nameOf g hk', hkey k hk', hT, List.filter_flatMap, List.length_flatMap]
    congr 1
    refine List.map_congr_left fun i _ => ?_
    unfold howMany
    rw [List.filter_map, List.length_map]
    congr 1
    refine List.filter_congr fun d hd => ?_
    rw [Bool.eq_iff_iff, Function.comp_apply, decide_eq_true_iff, decide_eq_true_iff]
    rw [he]
    exact charged_iff C.ops C.lits C.valid C.r2 C.isCfg C.odd (hs i d (List.mem_of_mem_take hd)) C.modes C.nfp
      (hc d (by rw [hT]; exact List.mem_flatMap.2 ⟨i, List.mem_finRange i, hd⟩)) k
  · intro k d hd
    rw [hKD] at hd
    obtain ⟨i, h1, h2⟩ := flatMap_get (fun i => candOf e (c0 i)) _ _ k d hd
    rw [← hKC] at h2
    obtain ⟨h3, h4⟩ := (keptEq i).2 d h1
    rw [← hlen]
    exact ⟨_, h3, h4, W.records k _ h2⟩

end

/-! ## The processes -/

theorem sized_of_inBounds {o : Sections.Obj ℝ} {q : Toml.QscIn ℝ} {modes : Nat} {d : Drawn}
    (h : InBounds o q modes d) : Sized modes d :=
  ⟨(h.modes ("R0c", d.R0c) (by simp)).1, (h.modes ("R0s", d.R0s) (by simp)).1, (h.modes ("Z0c", d.Z0c) (by simp)).1,
    (h.modes ("Z0s", d.Z0s) (by simp)).1⟩

theorem odd_points {q : Toml.QscIn ℝ} (h : 0 ≤ q.nphi) : Points q (Setup.oddNphi q.nphi.toNat) ∧
    Setup.oddNphi q.nphi.toNat % 2 = 1 := by
  unfold Points Setup.oddNphi
  split <;> omega

theorem attempt_filters {F : Type} (o : Scan.Ops F) (cfg : Cfg F) (c : Cand F) (s : Local F) :
    (Scan.attempt o cfg c s).filters .attempts = s.filters .attempts + 1 := by
  rw [attempt_eq]
  simp only [save]
  repeat' split
  all_goals rfl

theorem attempt_status {F : Type} (o : Scan.Ops F) (cfg : Cfg F) (c : Cand F) (s : Local F)
    (h : (Scan.attempt o cfg c s).status ≠ .ub) : (Scan.attempt o cfg c s).status = s.status := by
  rw [attempt_eq] at h ⊢
  simp only [save] at h ⊢
  repeat' split
  all_goals first
    | rfl
    | simp_all

/-- Why the loop ended. -/
theorem finished_why {F : Type} (o : Scan.Ops F) (cfg : Cfg F) (hk : 1 ≤ cfg.maxKeep) (env : List (Scan.Step F)) :
    (Scan.run o cfg env).status = .finished → cfg.maxKeep ≤ (Scan.run o cfg env).jScan ∨
      (0 < cfg.maxAttempts ∧ cfg.maxAttempts ≤ (Scan.run o cfg env).filters .attempts) ∨
      0 < (Scan.run o cfg env).filters .attempts ∧
        ∃ e, env[(Scan.run o cfg env).filters .attempts - 1]? = some e ∧ e.timeUp = true := by
  induction env using List.reverseRecOn with
  | nil => intro h; cases h
  | append_singleton l x ih =>
    have I := Scan.inv_run o cfg hk l
    have I' := Scan.inv_run o cfg hk (l ++ [x])
    rw [Scan.run_concat] at I' ⊢
    generalize Scan.run o cfg l = s at *
    by_cases hr : s.status = .running
    swap
    · have e : Scan.iter o cfg s x = s := by unfold Scan.iter; rw [if_neg hr]
      rw [e]
      intro h
      rcases ih h with h | h | ⟨h, e, h1, h2⟩
      · exact Or.inl h
      · exact Or.inr (Or.inl h)
      · refine Or.inr (Or.inr ⟨h, e, ?_, h2⟩)
        rw [List.getElem?_append_left (List.getElem?_eq_some_iff.1 h1).1]
        exact h1
    · obtain ⟨ha, -⟩ := I.running hr
      unfold Scan.iter at I' ⊢
      rw [if_pos hr] at I' ⊢
      dsimp only at I' ⊢
      have hsf : (if x.checkpointDue = true then { s with checkpoints := s.checkpoints ++ [s.jScan] } else s).filters =
        s.filters := by split <;> rfl
      have hss : (if x.checkpointDue = true then { s with checkpoints := s.checkpoints ++ [s.jScan] } else s).status =
        s.status := by split <;> rfl
      generalize (if x.checkpointDue = true then { s with checkpoints := s.checkpoints ++ [s.jScan] } else s) = s1 at *
      split
      · next h1 =>
        intro _
        simp only [Bool.and_eq_true, decide_eq_true_eq] at h1
        exact Or.inr (Or.inl ⟨h1.1, h1.2⟩)
      next h1 =>
      rw [if_neg h1] at I'
      split
      · next h2 => intro h; rw [h2] at h; cases h
      next h2 =>
      rw [if_neg h2] at I'
      have hat : (Scan.attempt o cfg x.cand s1).filters .attempts = l.length + 1 := by
        rw [attempt_filters, hsf, ha]
      by_cases h4 : (Scan.attempt o cfg x.cand s1).jScan ≠ s1.jScan ∧ ((Scan.attempt o cfg x.cand s1).jScan : Int) ≥ cfg.maxKeep
      · rw [if_pos h4]
        simp only [Bool.false_eq_true, if_false]
        exact fun _ => Or.inl h4.2
      rw [if_neg h4]
      cases ht : x.timeUp with
      | false =>
        simp only [Bool.not_false, if_true]
        intro h
        rw [attempt_status _ _ _ _ h2, hss, hr] at h
        cases h
      | true =>
        simp only [Bool.not_true, Bool.false_eq_true, if_false]
        rw [hat]
        exact fun _ => Or.inr (Or.inr ⟨by omega, x, by simp, ht⟩)

/-- What is known of processes that have come to the end. -/
structure Runs {N : Nat} (w : World N) (r : Sections.ScanObj ℝ) (modes n : Nat) (ord : Setup.Order)
    (snaps : Fin (N + 1) → List (Local ℝ × Members)) (cfg : Cfg ℝ) (l : Fin (N + 1) → List ((Bool × Bool) × Drawn)) :
    Prop where
  common : Common w.L r n modes cfg ord
  start : Startable r.mem r.q.order_r_option modes
  points : Points r.q n
  bounds : ∀ i, ∀ d ∈ (l i).map (·.2), InBounds r.mem r.q modes d
  at_ : ∀ i, ∀ x ∈ snaps i, ∃ l', l' <+: l i ∧ At ⟨w.L, w.left, r.q, n, cfg⟩ (w.c0 i) l' x
  mono : ∀ i, (snaps i).Pairwise fun x y => x.1.filters .attempts ≤ y.1.filters .attempts
  nonempty : ∀ i, snaps i ≠ []
  why : ∀ i x, (snaps i).getLast? = some x → cfg.maxKeep ≤ (toKeep w.L r.mem r.q n (triedOf (l i) x)).length ∨
    (0 < cfg.maxAttempts ∧ cfg.maxAttempts ≤ (triedOf (l i) x).length) ∨
    0 < (triedOf (l i) x).length ∧ ∃ b, (w.proc i).clock[(triedOf (l i) x).length - 1]? = some (true, b)

section
variable {N : Nat} {w : World N} {r : Sections.ScanObj ℝ} {modes n : Nat} {ord : Setup.Order}
  {snaps : Fin (N + 1) → List (Local ℝ × Members)} {cfg : Cfg ℝ} {l : Fin (N + 1) → List ((Bool × Bool) × Drawn)}

theorem process_ok {L : Single.Lib ℝ} {left : (Nat → Nat → ℝ) → Nat → Nat → ℝ} {l0 : ℝ} {c0 : Cand ℝ} {rank : Nat}
    {p : Proc} {sn : List (Local ℝ × Members)} (h : process L left l0 c0 r rank p = .ok (n, ord, sn)) :
    ∃ cfg l t, ScanPipeline.prepare l0 r rank p = .ok (cfg, ord, l) ∧ 0 ≤ r.q.nphi ∧ 0 < r.q.nfp ∧
      n = Setup.oddNphi r.q.nphi.toNat ∧ loop ⟨L, left, r.q, n, cfg⟩ (members0 c0) l = .ok t ∧
      t.loc.status = .finished ∧ sn = t.snaps ++ [(t.loc, t.mem)] := by
  unfold process at h
  cases hp : ScanPipeline.prepare l0 r rank p with
  | error e => rw [hp] at h; cases h
  | ok v =>
    obtain ⟨cfg, o, l⟩ := v
    rw [hp] at h
    dsimp only at h
    split at h
    · cases h
    next h1 =>
    split at h
    · cases h
    next h2 =>
    cases hl : loop ⟨L, left, r.q, Setup.oddNphi r.q.nphi.toNat, cfg⟩ (members0 c0) l with
    | error e => rw [hl] at h; cases h
    | ok t =>
      rw [hl] at h
      dsimp only at h
      cases hs : t.loc.status with
      | running => rw [hs] at h; cases h
      | ub => rw [hs] at h; cases h
      | finished =>
        rw [hs] at h
        cases h
        exact ⟨cfg, l, t, rfl, not_lt.1 h1, not_le.1 h2, rfl, hl, hs, rfl⟩

theorem runs_of (ho : w.L.ops = Qsc.realOps) (hl : Literals w.L.lit)
    (hu : ∀ i k, 0 ≤ (w.proc i).u k ∧ (w.proc i).u k ≤ 1) (ht : Typed scanDoc r.mem) (hn : ModeCount r.mem modes)
    (h0 : 0 < modes) (hk : ∀ k, r.mem "max_keep_per_proc" = some (.int k) → 1 ≤ k)
    (h : ∀ i : Fin (N + 1), process w.L w.left w.l0 (w.c0 i) r i.val (w.proc i) = .ok (n, ord, snaps i)) :
    ∃ cfg l, Runs w r modes n ord snaps cfg l := by
  have h' := fun i => process_ok (h i)
  choose cfg l t h1 h2 h3 h4 h5 h6 h7 using h'
  have P := fun i => prepare_ok ht hn (fun k e => le_trans zero_le_one (hk k e)) (hu i) (h1 i)
  have hc : ∀ i, cfg i = cfg 0 := by
    intro i
    have a := (P i).same
    rw [(P 0).same] at a
    injection a with a
    exact a.symm
  simp only [hc] at h5 P
  have hk0 : 1 ≤ (cfg 0).maxKeep := hk _ (P 0).isCfg.maxKeep
  have I := fun i => loop_inv (e := ⟨w.L, w.left, r.q, n, cfg 0⟩) hk0 (w.c0 i) (l i) (h5 i)
  have C : Common w.L r n modes (cfg 0) ord := ⟨ho, hl, (P 0).valid, (P 0).r2, (P 0).isCfg, (P 0).meets, hk0,
    by rw [h4 0]; exact (odd_points (h2 0)).2, h0, h3 0⟩
  refine ⟨cfg 0, l, C, (P 0).start, ?_, fun i => (P i).bounds, ?_, ?_, ?_, ?_⟩
  · rw [h4 0]; exact (odd_points (h2 0)).1
  · intro i x hx
    rw [h7 i] at hx
    rcases List.mem_append.1 hx with hx | hx
    · exact (I i).snaps x hx
    · rw [List.mem_singleton] at hx
      subst hx
      exact ⟨l i, List.prefix_rfl, (I i).now⟩
  · intro i
    rw [h7 i]
    exact (I i).mono
  · intro i
    rw [h7 i]
    simp
  · intro i x hx
    rw [h7 i, List.getLast?_append, List.getLast?_singleton, Option.some_or] at hx
    obtain rfl := Option.some.inj hx
    have A := (I i).now
    have hs : ∀ d ∈ (l i).map (·.2), Sized modes d := fun d hd => sized_of_inBounds ((P i).bounds d hd)
    have e1 := (keptOf_eq C A hs).1
    have e2 : (keptOf ⟨w.L, w.left, r.q, n, cfg 0⟩ (w.c0 i) (l i) ((t i).loc, (t i).mem)).length = (t i).loc.jScan := by
      have := A.jScan
      dsimp only at this
      rw [this, (Scan.inv_run ScanPipeline.realOps (cfg 0) hk0 _).saved]
      unfold Scan.firstCands keptOf
      rw [← tried_eq A]
    rw [e1, List.length_map] at e2
    rw [e2, tried_length hk0 A]
    have W := finished_why ScanPipeline.realOps (cfg 0) hk0 (stepsOf ⟨w.L, w.left, r.q, n, cfg 0⟩ (w.c0 i) (l i))
    have hloc := (I i).loc
    dsimp only at hloc ⊢
    rw [← hloc] at W
    rcases W (h6 i) with h | h | ⟨h, e, he1, he2⟩
    · exact Or.inl h
    · exact Or.inr (Or.inl h)
    · refine Or.inr (Or.inr ⟨h, ?_⟩)
      unfold stepsOf at he1
      rw [List.getElem?_map] at he1
      obtain ⟨y, hy, rfl⟩ := Option.map_eq_some_iff.1 he1
      rw [← (P i).clock, List.getElem?_map, hy]
      exact ⟨y.1.2, by rw [← he2]; rfl⟩

/-- The grid does not depend on the attempt. -/
theorem axis_grid {e : Env} {d : Drawn} {a : Axis.Axis ℝ} (ho : e.L.ops = Qsc.realOps) (hn : 0 < e.q.nfp)
    (h : AxisOf e d a) : a.dPhi = 2 * Real.pi / (e.q.nfp * e.n) ∧ ∀ j, a.phi j = grid e.q e.n j := by
  unfold AxisOf Axis.initAxis at h
  rw [ho] at h
  have hd : Axis.dPhi Qsc.realOps (Single.coeffs (atDraw e.q d e.n)).nfp e.n = 2 * Real.pi / (e.q.nfp * e.n) := by
    change 2 * Real.pi / (((e.q.nfp.toNat * e.n : Nat)) : ℝ) = _
    have : ((e.q.nfp.toNat : Nat) : ℝ) = (e.q.nfp : ℝ) := by
      rw [← Int.cast_natCast, Int.toNat_of_nonneg hn.le]
    push_cast
    rw [this]
  have key : a.dPhi = Axis.dPhi Qsc.realOps (Single.coeffs (atDraw e.q d e.n)).nfp e.n ∧
      a.phi = Axis.phiGrid (Axis.dPhi Qsc.realOps (Single.coeffs (atDraw e.q d e.n)).nfp e.n) := by
    split at h
    · generalize (Single.coeffs (atDraw e.q d e.n)).modes = z at h
      cases z with
      | error er => cases h
      | ok ms =>
        simp only [Except.bind] at h
        split at h
        · cases h
        · cases h; exact ⟨rfl, rfl⟩
    · cases h
  rw [key.1, key.2, hd]
  refine ⟨rfl, fun j => ?_⟩
  unfold grid
  induction j with
  | zero => simp [Axis.phiGrid]
  | succ j ih => rw [Axis.phiGrid, ih]; push_cast; ring

/-- The file of one collection. -/
theorem Runs.file (R : Runs w r modes n ord snaps cfg l) (ht : Typed scanDoc r.mem) (hn : ModeCount r.mem modes)
    {x : Fin (N + 1) → Local ℝ × Members} (hx : ∀ i, x i ∈ snaps i) (timing : Fin (N + 1) → List ℝ) :
    ∃ f, write w.L.toF r n ord w.m0 w.junk (Spec.Collect.combine (4 * modes) fun i =>
        Collect.ofScan w.junkColumn (timing i) (x i).1) (x 0).2 = .ok f ∧
      Output f w.L.toF w.L r.mem r.q n ((List.finRange (N + 1)).flatMap fun i => triedOf (l i) (x i)) ∧
      (r.q.order_r_option ≠ "r1" → ∀ d, (triedOf (l 0) (x 0)).getLast? = some d → Scalar f "p2" d.p2) ∧
      ((∃ d ∈ triedOf (l 0) (x 0), Positive d) →
        Scalar f "d_phi" (2 * Real.pi / (r.q.nfp * n)) ∧ Profile f "phi" n (grid r.q n)) := by
  have h' := fun i => R.at_ i (x i) (hx i)
  choose l' h1 h2 using h'
  have hs : ∀ i, ∀ d ∈ (l' i).map (·.2), Sized modes d := fun i d hd =>
    sized_of_inBounds (R.bounds i d (((h1 i).map (·.2)).subset hd))
  have htr : ∀ i, triedOf (l' i) (x i) = triedOf (l i) (x i) := fun i =>
    triedOf_prefix (h1 i) (At.le (e := ⟨w.L, w.left, r.q, n, cfg⟩) R.common.keep (h2 i))
  have S := snapshot (e := ⟨w.L, w.left, r.q, n, cfg⟩) R.common.keep h2 hs w.junkColumn timing
  have hodd := R.common.odd
  obtain ⟨f, f1, f2⟩ := write_file (m := (x 0).2) (n := n) w.L.toF w.m0 w.junk ht hn R.common.modes R.start (by omega)
    R.common.valid S.arrays S.nScan S.lengths
  have O := file_output R.common h2 hs S f2
  simp only [htr] at O
  refine ⟨f, f1, O, fun hr d hd => ?_, ?_⟩
  · rw [← htr] at hd
    rw [← (h2 0).p2 d hd]
    exact f2.p2 hr
  · rintro ⟨d, hd, hpos⟩
    rw [← htr] at hd
    obtain ⟨d', a, g1, g2⟩ := (h2 0).axis ⟨d, hd, by
      rw [← Bool.not_eq_true, crude_iff, (candOf_axis _ _ d).1]
      exact not_not.2 hpos⟩
    obtain ⟨k1, k2⟩ := f2.grid a g2
    obtain ⟨k3, k4⟩ := axis_grid R.common.ops R.common.nfp g1
    rw [k3] at k1
    refine ⟨k1, ?_⟩
    rw [show grid r.q n = a.phi from funext fun j => (k4 j).symm]
    exact k2

theorem Runs.locals_ok (R : Runs w r modes n ord snaps cfg l) (i : Fin (N + 1)) :
    ∀ y ∈ w.locals i (snaps i), Spec.Collect.Ok (4 * modes) y := by
  intro y hy
  unfold World.locals at hy
  obtain ⟨z, hz, rfl⟩ := List.mem_map.1 hy
  have hz' : z.1 ∈ snaps i := by
    obtain ⟨a, b⟩ := z
    exact List.fst_mem_of_mem_zipIdx hz
  obtain ⟨l', h1, h2⟩ := R.at_ i z.1 hz'
  exact ofScan_ok (e := ⟨w.L, w.left, r.q, n, cfg⟩) R.common.keep h2
    (fun d hd => sized_of_inBounds (R.bounds i d ((h1.map (·.2)).subset hd))) _ _

theorem locals_length (w : World N) (i : Fin (N + 1)) (sn : List (Local ℝ × Members)) :
    (w.locals i sn).length = sn.length := by
  unfold World.locals
  rw [List.length_map, List.length_zipIdx]

theorem locals_get (w : World N) (i : Fin (N + 1)) (sn : List (Local ℝ × Members)) (j : Nat) :
    (w.locals i sn)[j]? = sn[j]?.map fun x => Collect.ofScan w.junkColumn (w.timing i j) x.1 := by
  unfold World.locals
  rw [List.getElem?_map, List.getElem?_zipIdx]
  cases sn[j]? <;> simp

theorem rows_eq (ht : Typed scanDoc r.mem) (hn : ModeCount r.mem modes) :
    (ScanPipeline.getFlts r.mem "R0c_max").elim 0 List.length = modes := by
  obtain ⟨v, h1, h2⟩ := ScanPipeline.scan_flts ht hn (k := "R0c_max") (by simp [boundArrays])
  unfold ScanPipeline.getFlts
  rw [h1]
  exact h2

end

end Qsc.ScanRun
