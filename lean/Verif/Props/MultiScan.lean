import Verif.Lemmas.MultiScanEnd

/-!
# Properties C20 to C23: master/worker scan
-/

namespace Qsc.MultiScan
open Qsc.Mpi Qsc.Spec.MultiScan Function

variable {F : Type} {W : Nat} (o : Ops F) (cfg : Cfg F) (zero : F) (nm n N : Nat)
  (save : Nat → Bool) (res : Nat → Final F) (time : Nat → F)

/-- **C20.** Between 2 and `n + 1` processes, any checkpoints, any choice of which sends are
buffered, any schedule: when all processes have returned, there is an order in which the results
arrived such that every index occurs exactly once, worker `w` evaluated exactly the indices
received from it and in that order, process 0 has the two messages of index `i` in column `i`, the
counters per process count the arrivals, and no message is left anywhere between process 0 and a
worker (so each worker got a single stop message). -/
theorem each_index_once (hW : 0 < W) (hWn : W ≤ n) (hN : n < N)
    (hres : ∀ i, i < n → Sized nm (res i))
    {cb : Fin (W + 1) → Fin (W + 1) → Msg F → Prop} {k : Nat}
    {t : St (Fin (W + 1)) (Msg F) (Res F)}
    (h : Steps cb k (St.start (scan (W := W) o cfg zero nm n N save res time)) t)
    (hf : t.Finished) :
    ∃ arrivals : List (Fin W × Nat), (arrivals.map Prod.snd).Perm (List.range n) ∧
      (∀ w : Fin W, t.procs w.succ =
        .done (.worker ((arrivals.filter fun x => decide (x.1 = w)).map Prod.snd))) ∧
      (∃ m sv f, t.procs 0 = .done (.master m sv f) ∧
        m.params = (List.range n).map (fun i => packFloats zero nm (time i) (res i)) ∧
        m.ints = (List.range n).map (fun i => (packInts o cfg i (res i)).take 4) ∧
        m.attemptsPerProc = (List.range (W + 1)).map (fun r =>
          arrivals.countP fun x => decide (x.1.val + 1 = r))) ∧
      ∀ w : Fin W, t.chan (0, w.succ, 0) = [] ∧ t.chan (w.succ, 0, 0) = [] := by
  have hok := fun i hi => report_ok o cfg (res i) zero nm (time i) i
    (packFloats_length (res i) zero (time i) nm (hres i hi))
  obtain ⟨log, sv, hF⟩ := reach_finished hW hWn hN _ hok h hf
  obtain ⟨f, _, hm⟩ := hF.master
  refine ⟨log, hF.perm, hF.workers, ⟨_, sv, f, hm, ?_, ?_, stored_attempts ..⟩, hF.chans⟩
  · rw [stored_params]
    apply List.map_congr_left
    intro i hi
    rw [if_pos (hF.perm.mem_iff.mpr hi)]
    rfl
  · rw [stored_ints]
    apply List.map_congr_left
    intro i hi
    rw [if_pos (hF.perm.mem_iff.mpr hi)]
    rfl

/-- **C21 (termination).** Every execution has at most `6 n + 2 W + 1` units of work (a send, a
receive and the barrier count 1), whatever the schedule. -/
theorem bounded_work (hW : 0 < W) (hWn : W ≤ n) (hN : n < N)
    (hres : ∀ i, i < n → Sized nm (res i))
    {cb : Fin (W + 1) → Fin (W + 1) → Msg F → Prop} {k : Nat}
    {t : St (Fin (W + 1)) (Msg F) (Res F)}
    (h : Steps cb k (St.start (scan (W := W) o cfg zero nm n N save res time)) t) :
    k ≤ 6 * n + 2 * W + 1 := by
  have hok := fun i hi => report_ok o cfg (res i) zero nm (time i) i
    (packFloats_length (res i) zero (time i) nm (hres i hi))
  obtain ⟨r, e, _⟩ := reach hW hWn hN _ hok h
  omega

/-- **C21 (no deadlock).** If the messages of process 0 are buffered, or those of the workers are,
then a state in which no step is possible is one in which every process has returned. -/
theorem no_deadlock (hW : 0 < W) (hWn : W ≤ n) (hN : n < N)
    (hres : ∀ i, i < n → Sized nm (res i))
    {cb : Fin (W + 1) → Fin (W + 1) → Msg F → Prop}
    (hcb : (∀ j m, cb 0 j m) ∨ ∀ i m, cb i 0 m) {k : Nat}
    {t : St (Fin (W + 1)) (Msg F) (Res F)}
    (h : Steps cb k (St.start (scan (W := W) o cfg zero nm n N save res time)) t)
    (hstuck : ∀ w u, ¬ Step cb w t u) : t.Finished := by
  have hok := fun i hi => report_ok o cfg (res i) zero nm (time i) i
    (packFloats_length (res i) zero (time i) nm (hres i hi))
  obtain ⟨r, _, hi⟩ := reach hW hWn hN _ hok h
  rcases hi with ⟨out, stop, rem, log, md, a, r0, hr⟩ | ⟨_, log, sv, hr⟩
  · obtain ⟨w, u, hs⟩ := hr.progress hW hN hcb
    exact absurd hs (hstuck w u)
  · intro i
    refine Fin.cases ?_ (fun w => ?_) i
    · obtain ⟨f, _, hm⟩ := hr.master
      exact ⟨_, hm⟩
    · exact ⟨_, hr.workers w⟩

/-- **C21 (completion).** Under the same buffering, every reachable state can be continued to one
in which every process has returned. -/
theorem can_finish (hW : 0 < W) (hWn : W ≤ n) (hN : n < N)
    (hres : ∀ i, i < n → Sized nm (res i))
    {cb : Fin (W + 1) → Fin (W + 1) → Msg F → Prop}
    (hcb : (∀ j m, cb 0 j m) ∨ ∀ i m, cb i 0 m) {k : Nat}
    {t : St (Fin (W + 1)) (Msg F) (Res F)}
    (h : Steps cb k (St.start (scan (W := W) o cfg zero nm n N save res time)) t) :
    ∃ k' u, Steps cb k' t u ∧ u.Finished := by
  obtain ⟨d, hd⟩ : ∃ d, k + d = 6 * n + 2 * W + 1 := by
    have := bounded_work o cfg zero nm n N save res time hW hWn hN hres h
    exact ⟨6 * n + 2 * W + 1 - k, by omega⟩
  induction d using Nat.strongRecOn generalizing k t with
  | ind d ih =>
    by_cases hs : ∀ w u, ¬ Step cb w t u
    · exact ⟨0, t, .refl, no_deadlock o cfg zero nm n N save res time hW hWn hN hres hcb h hs⟩
    · simp only [not_forall, not_not] at hs
      obtain ⟨w, u, hu⟩ := hs
      have hpos := hu.weight_pos
      have h2 := h.trans (.single hu)
      have hb := bounded_work o cfg zero nm n N save res time hW hWn hN hres h2
      obtain ⟨k', v, hv, hf⟩ := ih (d - w) (by omega) h2 (by omega)
      exact ⟨w + k', v, .head hu hv, hf⟩

/-- **C21 (same result).** Two executions, with any schedules and any buffering, that have both
finished: process 0 holds the same arrays, the same counters and the same saved columns. -/
theorem schedule_independent (hW : 0 < W) (hWn : W ≤ n) (hN : n < N)
    (hres : ∀ i, i < n → Sized nm (res i))
    {cb cb' : Fin (W + 1) → Fin (W + 1) → Msg F → Prop} {k k' : Nat}
    {t t' : St (Fin (W + 1)) (Msg F) (Res F)}
    (h : Steps cb k (St.start (scan (W := W) o cfg zero nm n N save res time)) t)
    (h' : Steps cb' k' (St.start (scan (W := W) o cfg zero nm n N save res time)) t')
    (hf : t.Finished) (hf' : t'.Finished) :
    ∃ m sv f m' sv', t.procs 0 = .done (.master m sv f) ∧ t'.procs 0 = .done (.master m' sv' f) ∧
      m.params = m'.params ∧ m.ints = m'.ints ∧ m.filters = m'.filters ∧ m.nEvals = m'.nEvals := by
  have hok := fun i hi => report_ok o cfg (res i) zero nm (time i) i
    (packFloats_length (res i) zero (time i) nm (hres i hi))
  obtain ⟨log, sv, hF⟩ := reach_finished hW hWn hN _ hok h hf
  obtain ⟨log', sv', hF'⟩ := reach_finished hW hWn hN _ hok h' hf'
  obtain ⟨f, hfl, hm⟩ := hF.master
  obtain ⟨f', hfl', hm'⟩ := hF'.master
  have hp : (log.map Prod.snd).Perm (log'.map Prod.snd) := hF.perm.trans hF'.perm.symm
  have hlt : ∀ x ∈ log, x.2 < n := fun x hx =>
    List.mem_range.mp (hF.perm.mem_iff.mp (List.mem_map.mpr ⟨x, hx, rfl⟩))
  have hlt' : ∀ x ∈ log', x.2 < n := fun x hx =>
    List.mem_range.mp (hF'.perm.mem_iff.mp (List.mem_map.mpr ⟨x, hx, rfl⟩))
  have hff : f' = f := by
    rw [filterGlobal_stored zero _ n _ _ log (hF.perm.nodup_iff.mpr List.nodup_range) hlt hok,
      keptColumns_all n _ _ _ hF.perm] at hfl
    rw [filterGlobal_stored zero _ n _ _ log' (hF'.perm.nodup_iff.mpr List.nodup_range) hlt' hok,
      keptColumns_all n _ _ _ hF'.perm] at hfl'
    rw [hfl'] at hfl
    exact Except.ok.inj hfl
  subst hff
  refine ⟨_, sv, f', _, sv', hm, hm', ?_, ?_, ?_, ?_⟩
  · rw [stored_params, stored_params]
    simp only [hp.mem_iff]
  · rw [stored_ints, stored_ints]
    simp only [hp.mem_iff]
  · rw [stored_filters zero _ n (fun i => report o cfg zero nm (time i) i (res i)) log fun x hx => (hok x.2 (hlt x hx)).len,
      stored_filters zero _ n (fun i => report o cfg zero nm (time i) i (res i)) log' fun x hx => (hok x.2 (hlt' x hx)).len]
    apply List.map_congr_left
    intro s _
    have := sum_perm hp fun i => (report o cfg zero nm (time i) i (res i)).ints.getD (4 + s) 0
    rw [List.map_map, List.map_map] at this
    exact this
  · rw [stored_nEvals, stored_nEvals]
    have := sum_perm hp fun i => (report o cfg zero nm (time i) i (res i)).ints.getD 2 0
    rw [List.map_map, List.map_map] at this
    exact this

/-- **C22 (no failure).** In no reachable state has a process failed: the exception "mismatch in
number of configs saved" is thrown neither at the end nor at a checkpoint, no array is written out
of bounds, no message of an unexpected kind or size is received, and the bound on the passes of the
worker loop is never met. -/
theorem never_fails (hW : 0 < W) (hWn : W ≤ n) (hN : n < N)
    (hres : ∀ i, i < n → Sized nm (res i))
    {cb : Fin (W + 1) → Fin (W + 1) → Msg F → Prop} {k : Nat}
    {t : St (Fin (W + 1)) (Msg F) (Res F)}
    (h : Steps cb k (St.start (scan (W := W) o cfg zero nm n N save res time)) t)
    (i : Fin (W + 1)) (e : Err) : t.procs i ≠ .done (.fail e) := by
  have hok := fun i hi => report_ok o cfg (res i) zero nm (time i) i
    (packFloats_length (res i) zero (time i) nm (hres i hi))
  obtain ⟨r, _, hi⟩ := reach hW hWn hN _ hok h
  rcases hi with ⟨out, stop, rem, log, md, a, r0, hr⟩ | ⟨_, log, sv, hr⟩
  · exact fun hx => hr.not_done hN i hx
  · refine Fin.cases ?_ (fun w => ?_) i
    · obtain ⟨f, _, hm⟩ := hr.master
      rw [hm]; simp
    · rw [hr.workers w]; simp

open Classical in
/-- The counters after the results in a list have arrived. -/
theorem counted (hres : ∀ i, i < n → Sized nm (res i)) (log : List (Fin W × Nat)) (hlt : ∀ x ∈ log, x.2 < n) :
    Counted o cfg res (log.map Prod.snd)
      (stored zero (58 + 8 * nm) n (fun i => report o cfg zero nm (time i) i (res i)) log) := by
  have hok := fun i hi => report_ok o cfg (res i) zero nm (time i) i
    (packFloats_length (res i) zero (time i) nm (hres i hi))
  have hslot : ∀ s, s < 17 → ((stored zero (58 + 8 * nm) n
      (fun i => report o cfg zero nm (time i) i (res i)) log).filters).getD s 0 =
      ((log.map Prod.snd).map fun i => (runFilters o cfg (res i)).1.getD s 0).sum := by
    intro s hs
    rw [stored_filters zero _ n (fun i => report o cfg zero nm (time i) i (res i)) log fun x hx => (hok x.2 (hlt x hx)).len, List.getD_eq_getElem?_getD,
      List.getElem?_map, List.getElem?_range hs, List.map_map]
    refine congrArg List.sum (List.map_congr_left fun x _ => ?_)
    show ([(x.2 : Int), _, _, _] ++ (runFilters o cfg (res x.2)).1).getD (4 + s) 0 = _
    rw [List.getD_eq_getElem?_getD, List.getElem?_append_right (by simp)]
    simp
  refine ⟨?_, ?_, ?_, fun c hc => ?_, ?_⟩
  · rw [stored_filters zero _ n (fun i => report o cfg zero nm (time i) i (res i)) log fun x hx => (hok x.2 (hlt x hx)).len]
    simp
  · rw [hslot 0 (by omega)]
    have : ((log.map Prod.snd).map fun i => (runFilters o cfg (res i)).1.getD 0 0) =
        (log.map Prod.snd).map fun _ => (1 : Int) :=
      List.map_congr_left fun i _ => (runFilters_spec o cfg (res i)).2.2.1
    rw [this]
    simp [Function.comp_def]
  · rw [hslot 1 (by omega), ← sum_ite]
    congr 1
    apply List.map_congr_left
    intro i _
    have hk : (runFilters o cfg (res i)).2 = decide (Keep o cfg (res i)) := by
      rw [Bool.eq_iff_iff, decide_eq_true_iff]
      exact (runFilters_spec o cfg (res i)).2.1
    rw [(runFilters_spec o cfg (res i)).2.2.2.1, hk]
  · have h17 : c.1 < 17 := by
      simp only [counterMeaning, List.mem_cons, List.not_mem_nil, or_false] at hc
      rcases hc with rfl | rfl | rfl | rfl | rfl | rfl | rfl | rfl | rfl | rfl | rfl | rfl | rfl |
        rfl | rfl <;> simp
    rw [hslot c.1 h17, ← sum_ite]
    congr 1
    apply List.map_congr_left
    intro i _
    exact (runFilters_spec o cfg (res i)).2.2.2.2 c hc
  · rw [stored_nEvals, List.map_map]
    rfl

open Classical in
/-- **C22 (counters).** At the end the first counter is the number of indices, the second the
number of indices that satisfy every threshold (all, with `keep_all`), which is the number of saved
columns; every other counter is the number of indices rejected by its own threshold; the evaluation
counter is the sum over the indices. -/
theorem counters (hW : 0 < W) (hWn : W ≤ n) (hN : n < N)
    (hres : ∀ i, i < n → Sized nm (res i))
    {cb : Fin (W + 1) → Fin (W + 1) → Msg F → Prop} {k : Nat}
    {t : St (Fin (W + 1)) (Msg F) (Res F)}
    (h : Steps cb k (St.start (scan (W := W) o cfg zero nm n N save res time)) t)
    (hf : t.Finished) :
    ∃ m sv f, t.procs 0 = .done (.master m sv f) ∧
      m.filters.length = 17 ∧
      m.filters.getD 0 0 = n ∧
      m.filters.getD 1 0 = (List.range n).countP (fun i => decide (Keep o cfg (res i))) ∧
      f.length = (List.range n).countP (fun i => decide (Keep o cfg (res i))) ∧
      (∀ c ∈ counterMeaning o cfg, m.filters.getD c.1 0 =
        (List.range n).countP fun i => !cfg.keepAll && c.2 (res i)) ∧
      m.nEvals = ((List.range n).map fun i => (res i).nEvals).sum := by
  have hok := fun i hi => report_ok o cfg (res i) zero nm (time i) i
    (packFloats_length (res i) zero (time i) nm (hres i hi))
  obtain ⟨log, sv, hF⟩ := reach_finished hW hWn hN _ hok h hf
  obtain ⟨f, hfl, hm⟩ := hF.master
  have hlt : ∀ x ∈ log, x.2 < n := fun x hx =>
    List.mem_range.mp (hF.perm.mem_iff.mp (List.mem_map.mpr ⟨x, hx, rfl⟩))
  have hkeep : ∀ i, (runFilters o cfg (res i)).2 = decide (Keep o cfg (res i)) := by
    intro i
    rw [Bool.eq_iff_iff, decide_eq_true_iff]
    exact (runFilters_spec o cfg (res i)).2.1
  have C := counted o cfg zero nm n res time hres log hlt
  refine ⟨_, sv, f, hm, C.size, ?_, ?_, ?_, fun c hc => ?_, ?_⟩
  · rw [C.attempts, hF.perm.length_eq, List.length_range]
  · rw [C.kept, hF.perm.countP_eq]
  · rw [filterGlobal_stored zero _ n _ _ log (hF.perm.nodup_iff.mpr List.nodup_range) hlt hok,
      keptColumns_all n _ _ _ hF.perm] at hfl
    rw [← Except.ok.inj hfl, List.length_map, ← List.countP_eq_length_filter]
    apply List.countP_congr
    intro i _
    rw [hkeep]
  · rw [C.rejected c hc, hF.perm.countP_eq]
  · rw [C.evals]
    exact sum_perm hF.perm fun i => (res i).nEvals

/-- The column saved for index `i`. -/
def column (i : Nat) : List Int × List F :=
  ((packInts o cfg i (res i)).take 4, packFloats zero nm (time i) (res i))

open Classical in
/-- **C22 (checkpoints), C23 (order).** The saved columns are those of the indices to keep, in
increasing order of the index; each checkpoint holds, in increasing order, the columns of the
indices to keep among the results that had arrived so far, and the counters for these results. -/
theorem saved_in_order (hW : 0 < W) (hWn : W ≤ n) (hN : n < N)
    (hres : ∀ i, i < n → Sized nm (res i))
    {cb : Fin (W + 1) → Fin (W + 1) → Msg F → Prop} {k : Nat}
    {t : St (Fin (W + 1)) (Msg F) (Res F)}
    (h : Steps cb k (St.start (scan (W := W) o cfg zero nm n N save res time)) t)
    (hf : t.Finished) :
    ∃ (arrivals : List Nat) (m : Master F) (sv : List (Master F × Saved F)), arrivals.Perm (List.range n) ∧
      Counted o cfg res (List.range n) m ∧
      t.procs 0 = .done (.master m sv (((List.range n).filter fun i => decide (Keep o cfg (res i))).map
        (column o cfg zero nm res time))) ∧
      ∀ s ∈ sv, ∃ sofar, sofar <+: arrivals ∧
        Counted o cfg res sofar s.1 ∧
        s.2 = ((List.range n).filter fun i => decide (i ∈ sofar ∧ Keep o cfg (res i))).map
          (column o cfg zero nm res time) := by
  have hok := fun i hi => report_ok o cfg (res i) zero nm (time i) i
    (packFloats_length (res i) zero (time i) nm (hres i hi))
  obtain ⟨log, sv, hF⟩ := reach_finished hW hWn hN _ hok h hf
  obtain ⟨f, hfl, hm⟩ := hF.master
  have hlt : ∀ x ∈ log, x.2 < n := fun x hx =>
    List.mem_range.mp (hF.perm.mem_iff.mp (List.mem_map.mpr ⟨x, hx, rfl⟩))
  have hnd := hF.perm.nodup_iff.mpr List.nodup_range
  have hkeep : ∀ i, (runFilters o cfg (res i)).2 = decide (Keep o cfg (res i)) := by
    intro i
    rw [Bool.eq_iff_iff, decide_eq_true_iff]
    exact (runFilters_spec o cfg (res i)).2.1
  refine ⟨log.map Prod.snd, stored zero (58 + 8 * nm) n
    (fun i => report o cfg zero nm (time i) i (res i)) log, sv, hF.perm, ?_, ?_, fun s hs => ?_⟩
  · have C := counted o cfg zero nm n res time hres log hlt
    exact ⟨C.size, by rw [C.attempts, hF.perm.length_eq], by rw [C.kept, hF.perm.countP_eq],
      fun c hc => by rw [C.rejected c hc, hF.perm.countP_eq],
      by rw [C.evals]; exact sum_perm hF.perm fun i => (res i).nEvals⟩
  · rw [hm]
    congr 2
    rw [filterGlobal_stored zero _ n _ _ log hnd hlt hok, keptColumns_all n _ _ _ hF.perm] at hfl
    rw [← Except.ok.inj hfl]
    simp only [hkeep]
    rfl
  · obtain ⟨pre, hpre, hs1, hs⟩ := hF.saves s hs
    have hsub := hpre.subset
    refine ⟨pre.map Prod.snd, hpre.map _, ?_, ?_⟩
    · rw [hs1]
      exact counted o cfg zero nm n res time hres pre fun x hx => hlt x (hsub hx)
    rw [hs1, filterGlobal_stored zero _ n _ _ pre ((hpre.map _).sublist.nodup hnd)
      (fun x hx => hlt x (hsub hx)) hok] at hs
    rw [← Except.ok.inj hs, keptColumns]
    simp only [hkeep, Bool.decide_and]
    rfl

/-- **C23 (scalars).** Every scalar output variable holds, for every saved column, the quantity it
stands for. -/
theorem saved_scalar (x : String × String) (hx : x ∈ meaning) (idx : List Nat)
    (hres : ∀ i ∈ idx, Sized nm (res i)) :
    Saved.scalar (idx.map (column o cfg zero nm res time)) x.1 =
      idx.map fun i => some ((res i).get x.2) := by
  have key : ∀ x ∈ meaning, (unpackRows.lookup x.1).any fun row =>
      decide (1 ≤ row ∧ row < 58 ∧ rowSources[row - 1]? = some x.2) := by decide
  have hk := key x hx
  cases hr : unpackRows.lookup x.1 with
  | none => rw [hr] at hk; cases hk
  | some row =>
    rw [hr] at hk
    have hk' := of_decide_eq_true hk
    unfold Saved.scalar
    rw [hr]
    dsimp only
    rw [List.map_map]
    apply List.map_congr_left
    intro i hi
    have := packFloats_row (res i) zero (time i) nm (hres i hi) (row - 1) (by omega)
    rw [hk'.2.2, show row - 1 + 1 = row by omega] at this
    exact this

/-- **C23 (Fourier coefficients).** Every Fourier output variable holds, for every saved column and
every mode number, the coefficient of the array it stands for, and zero past its end. -/
theorem saved_mode (x : String × String) (hx : x ∈ modeMeaning) (idx : List Nat)
    (hres : ∀ i ∈ idx, Sized nm (res i)) (j : Nat) (hj : j < nm) :
    Saved.mode (idx.map (column o cfg zero nm res time)) nm x.1 j =
      idx.map fun i => some (((res i).vec x.2).getD j zero) := by
  have key : ∀ x ∈ modeMeaning, (unpackBlocks.lookup x.1).any fun b =>
      decide ((x.2, b) ∈ blockSources.zipIdx) := by decide
  have hk := key x hx
  cases hr : unpackBlocks.lookup x.1 with
  | none => rw [hr] at hk; cases hk
  | some b =>
    rw [hr] at hk
    have hk' := of_decide_eq_true hk
    unfold Saved.mode
    rw [hr]
    dsimp only
    rw [List.map_map]
    apply List.map_congr_left
    intro i hi
    exact packFloats_mode (res i) zero (time i) nm (hres i hi) x.2 b j hk' hj

/-- **C23 (integers).** -/
theorem saved_ints (idx : List Nat) :
    Saved.nEvals (idx.map (column o cfg zero nm res time)) =
      idx.map (fun i => some (res i).nEvals) ∧
    Saved.helicity (idx.map (column o cfg zero nm res time)) =
      idx.map fun i => some (res i).helicity := by
  unfold Saved.nEvals Saved.helicity
  rw [List.map_map, List.map_map]
  exact ⟨rfl, rfl⟩

/-- Every output variable has a meaning: the tables of the specification cover all of them. -/
theorem meaning_complete :
    (∀ x ∈ unpackRows, x.1 ∈ meaning.map Prod.fst) ∧
    (∀ x ∈ unpackBlocks, x.1 ∈ modeMeaning.map Prod.fst) := by
  constructor <;> decide

/-- **C20 (guards).** With a single process, or with more than `n + 1`, every process throws. -/
theorem guards (h : W = 0 ∨ n < W) (i : Fin (W + 1)) :
    ∃ msg, scan (W := W) o cfg zero nm n N save res time i = .done (.fail (.throw msg)) := by
  unfold scan system
  by_cases h1 : W + 1 < 2
  · exact ⟨_, if_pos h1⟩
  · rw [if_neg h1, if_pos (by omega)]
    exact ⟨_, rfl⟩

/-- **C21 (deadlock).** If no send is buffered, the final loop can deadlock, because a stop message
goes to rank `j` and not to the process whose result was just received: two workers, two indices,
any results.  Worker 2 reports first; process 0 then sends the stop message to worker 1, which is
itself sending its result to process 0. -/
theorem synchronous_deadlock (hN : 2 < N) (hres : ∀ i, i < 2 → Sized nm (res i)) :
    ∃ k t, Steps noBuf k (St.start (scan (W := 2) o cfg zero nm 2 N save res time)) t ∧
      (∀ w u, ¬ Step noBuf w t u) ∧ ¬ t.Finished := by
  have hok := fun i hi => report_ok o cfg (res i) zero nm (time i) i
    (packFloats_length (res i) zero (time i) nm (hres i hi))
  obtain ⟨f, rfl⟩ : ∃ f, N = f + 2 := ⟨N - 2, by omega⟩
  obtain ⟨rep, hrep⟩ : ∃ rep, (fun i => report o cfg zero nm (time i) i (res i)) = rep := ⟨_, rfl⟩
  have hok1 : RepOk (58 + 8 * nm) 1 (rep 1) (runFilters o cfg (res 1)).2 := by
    rw [← hrep]; exact hok 1 (by omega)
  have hst := store_ok zero (58 + 8 * nm) 2 rep [] (1 : Fin 2) 1 (by omega) _ hok1
  rw [List.nil_append] at hst
  have hw2 : ∀ f ev, (worker rep (f + 1) ev : P 2 F) = .recv 0 0 fun msg => match msg with
    | .idx z =>
      if z < 0 then .barrier (.done (.worker ev))
      else .send 0 0 (.ints (rep z.toNat).ints) <|
        .send 0 0 (.flts (rep z.toNat).flts) <| worker rep f (ev ++ [z.toNat])
    | _ => .done (.fail (.undefined "message type")) := fun _ _ => rfl
  let tl : Master F → P 2 F := fun m => lastResults (58 + 8 * nm) (finish []) [2] m
  let p1 : P 2 F := .send 0 0 (.ints (rep 0).ints) <|
        .send 0 0 (.flts (rep 0).flts) <| worker rep (f + 1) [0]
  let p2 : P 2 F := .send 0 0 (.ints (rep 1).ints) <|
        .send 0 0 (.flts (rep 1).flts) <| worker rep (f + 1) [1]
  let q0 : P 2 F := proc0Recv (58 + 8 * nm) (Master.init zero (58 + 8 * nm) 2 2) fun _ m' =>
    .send 1 0 (.idx (-1)) (tl m')
  let q1 : P 2 F := recvFloats (58 + 8 * nm) (Master.init zero (58 + 8 * nm) 2 2) 2 (rep 1).ints
    fun _ m' => .send 1 0 (.idx (-1)) (tl m')
  let q2 : P 2 F := .send 1 0 (.idx (-1)) (tl (stored zero (58 + 8 * nm) 2 rep [((1 : Fin 2), 1)]))
  let mk : P 2 F → P 2 F → P 2 F → St (Fin 3) (Msg F) (Res F) := fun a b c =>
    ⟨fun i => if i = 0 then a else if i = 1 then b else c, fun _ => []⟩
  have e0 : St.start (scan (W := 2) o cfg zero nm 2 (f + 2) save res time) =
      mk (.send 1 0 (.idx 0) (.send 2 0 (.idx 1) q0)) (worker rep (f + 2) []) (worker rep (f + 2) []) := by
    apply St.ext'
    · funext i
      rw [← hrep]
      match i with
      | 0 => rfl
      | 1 => rfl
      | 2 => rfl
    · rfl
  have s1 : Step noBuf 2 (mk (.send 1 0 (.idx 0) (.send 2 0 (.idx 1) q0)) (worker rep (f + 2) [])
      (worker rep (f + 2) [])) (mk (.send 2 0 (.idx 1) q0) p1 (worker rep (f + 2) [])) := by
    have := Step.sync (canBuf := noBuf) (s := mk (.send 1 0 (.idx 0) (.send 2 0 (.idx 1) q0))
      (worker rep (f + 2) []) (worker rep (f + 2) [])) (i := 0) (j := 1) rfl rfl rfl
    convert this using 1
    apply St.ext'
    · funext i
      match i with
      | 0 => rfl
      | 1 => rfl
      | 2 => rfl
    · rfl
  have s2 : Step noBuf 2 (mk (.send 2 0 (.idx 1) q0) p1 (worker rep (f + 2) [])) (mk q0 p1 p2) := by
    have := Step.sync (canBuf := noBuf) (s := mk (.send 2 0 (.idx 1) q0) p1
      (worker rep (f + 2) [])) (i := 0) (j := 2) rfl rfl rfl
    convert this using 1
    apply St.ext'
    · funext i
      match i with
      | 0 => rfl
      | 1 => rfl
      | 2 => rfl
    · rfl
  have s3 : Step noBuf 2 (mk q0 p1 p2) (mk q1 p1 (.send 0 0 (.flts (rep 1).flts) <|
      worker rep (f + 1) [1])) := by
    have := Step.syncAny (canBuf := noBuf) (s := mk q0 p1 p2) (i := 2) (j := 0) rfl rfl rfl
    convert this using 1
    apply St.ext'
    · funext i
      match i with
      | 0 => rfl
      | 1 => rfl
      | 2 => rfl
    · rfl
  have s4 : Step noBuf 2 (mk q1 p1 (.send 0 0 (.flts (rep 1).flts) <| worker rep (f + 1) [1]))
      (mk q2 p1 (worker rep (f + 1) [1])) := by
    have := Step.sync (canBuf := noBuf) (s := mk q1 p1 (.send 0 0 (.flts (rep 1).flts) <|
      worker rep (f + 1) [1])) (i := 2) (j := 0) rfl rfl rfl
    convert this using 1
    apply St.ext'
    · funext i
      match i with
      | 0 =>
        show q2 = match store (58 + 8 * nm) (Master.init zero (58 + 8 * nm) 2 2)
          ((1 : Fin 2).succ : Fin 3) (rep 1).ints (rep 1).flts with
          | some m' => (.send 1 0 (.idx (-1)) (tl m') : P 2 F)
          | none => .done (.fail (.undefined "global array index"))
        have : store (58 + 8 * nm) (Master.init zero (58 + 8 * nm) 2 2) ((1 : Fin 2).succ : Fin 3)
          (rep 1).ints (rep 1).flts = some (stored zero (58 + 8 * nm) 2 rep [((1 : Fin 2), 1)]) := hst
        rw [this]
      | 1 => rfl
      | 2 => rfl
    · rfl
  rw [e0]
  refine ⟨_, _, .head s1 (.head s2 (.head s3 (.single s4))), ?_, ?_⟩
  · intro w u hstep
    have h0 : (mk q2 p1 (worker rep (f + 1) [1])).procs 0 = q2 := rfl
    have h1 : (mk q2 p1 (worker rep (f + 1) [1])).procs 1 = p1 := rfl
    have h2 : (mk q2 p1 (worker rep (f + 1) [1])).procs 2 = worker rep (f + 1) [1] := rfl
    generalize hs : mk q2 p1 (worker rep (f + 1) [1]) = s at hstep h0 h1 h2
    have hch : ∀ c, s.chan c = [] := fun c => by rw [← hs]
    rw [hw2] at h2
    have hr : ∀ (j src : Fin 3) tag k, s.procs j = .recv src tag k → j = 2 ∧ src = 0 := by
      intro j src tag k hj
      match j with
      | 0 => rw [h0] at hj; exact nomatch (show (.send _ _ _ _ : P 2 F) = .recv _ _ _ from hj)
      | 1 => rw [h1] at hj; exact nomatch (show (.send _ _ _ _ : P 2 F) = .recv _ _ _ from hj)
      | 2 => rw [h2] at hj; exact ⟨rfl, by injection hj with e; exact e.symm⟩
    have hr' : ∀ (j : Fin 3) k, s.procs j ≠ .recvAny k := by
      intro j k hj
      match j with
      | 0 => rw [h0] at hj; exact nomatch (show (.send _ _ _ _ : P 2 F) = .recvAny _ from hj)
      | 1 => rw [h1] at hj; exact nomatch (show (.send _ _ _ _ : P 2 F) = .recvAny _ from hj)
      | 2 => rw [h2] at hj; exact nomatch hj
    cases hstep with
    | sendBuf _ h => exact h
    | recv _ h => rw [hch] at h; cases h
    | recvAny _ h => rw [hch] at h; cases h
    | @sync _ i j tag m k k' ha hb =>
      obtain ⟨rfl, rfl⟩ := hr j i tag k' hb
      rw [h0] at ha
      have hd : (1 : Fin 3) = 2 := by injection ha
      exact absurd hd (by decide)
    | @syncAny _ i j tag m k k' ha hb => exact hr' j k' hb
    | barrier k hk =>
      have := hk 0
      rw [h0] at this
      exact nomatch (show (.send _ _ _ _ : P 2 F) = .barrier _ from this)
  · intro hfin
    obtain ⟨r, hr⟩ := hfin 0
    cases hr

/-! ## Instances -/

/-- Three results with one axis mode (`nm = 1`); index 1 has a
rotational transform below the threshold of the example. -/
def sampleRes (i : Nat) : Final Int where
  nEvals := 10 + i
  helicity := 0
  get x := if x = "q.iota" then (if i = 1 then 0 else -5) else 1
  vec x := if x = "iter_R0s" then [] else [(i : Int)]

/-- Integer comparisons; only the threshold on the rotational transform is active. -/
def sampleOps : Ops Int := ⟨fun a b => decide (a < b), fun a => a.natAbs⟩
def sampleCfg : Cfg Int := ⟨false, fun x => if x = "min_iota_to_keep" then 2 else 1⟩

example : ∀ i, i < 3 → Sized 1 (sampleRes i) := fun i _ =>
  ⟨by intro v hv; simp at hv; rcases hv with rfl | rfl | rfl | rfl <;> rfl,
   by intro v hv; simp at hv; rcases hv with rfl | rfl | rfl | rfl <;> simp [sampleRes]⟩

example : (runFilters sampleOps sampleCfg (sampleRes 0)).2 = true ∧
    (runFilters sampleOps sampleCfg (sampleRes 1)).2 = false ∧
    (runFilters sampleOps sampleCfg (sampleRes 2)).2 = true := by decide

/-- With two workers the hypotheses of the theorems above hold and a finished state is reachable;
indices 0 and 2 are saved. -/
example : ∃ k t, Steps (fun _ _ _ => True) k (St.start (scan (W := 2) sampleOps sampleCfg 0 1 3 4
      (fun j => decide (j = 2)) sampleRes fun _ => 0)) t ∧ t.Finished ∧
    ∃ m sv, t.procs 0 = .done (.master m sv
      ([0, 2].map (column sampleOps sampleCfg 0 1 sampleRes fun _ => 0))) := by
  have hres : ∀ i, i < 3 → Sized 1 (sampleRes i) := fun i _ =>
    ⟨by intro v hv; simp at hv; rcases hv with rfl | rfl | rfl | rfl <;> rfl,
     by intro v hv; simp at hv; rcases hv with rfl | rfl | rfl | rfl <;> simp [sampleRes]⟩
  obtain ⟨k, t, h, hf⟩ := can_finish sampleOps sampleCfg 0 1 3 4 (fun j => decide (j = 2))
    sampleRes (fun _ => 0) (W := 2) (by omega) (by omega) (by omega) hres
    (cb := fun _ _ _ => True) (.inl fun _ _ => trivial) .refl
  refine ⟨k, t, h, hf, ?_⟩
  obtain ⟨_, m, sv, _, _, h0, _⟩ := saved_in_order sampleOps sampleCfg 0 1 3 4 (fun j => decide (j = 2))
    sampleRes (fun _ => 0) (W := 2) (by omega) (by omega) (by omega) hres h hf
  refine ⟨m, sv, h0.trans ?_⟩
  have hk : ∀ i, (runFilters sampleOps sampleCfg (sampleRes i)).2 = true ↔
      Keep sampleOps sampleCfg (sampleRes i) := fun i => (runFilters_spec _ _ _).2.1
  simp only [← hk, Bool.decide_eq_true]
  rfl

end Qsc.MultiScan
