import Verif.Lemmas.GridReversal
import Verif.Lemmas.ScanReversal
import Verif.Props.MultiScanRun
import Verif.Props.OptMemory
import Verif.Props.Program
import Verif.Props.ScanRun

/-!
# What the memory contained before a scan (C111)
-/

namespace Qsc.ScanMemory
open Qsc.Netcdf Qsc.Output Qsc.Single

theorem set_congr {m m' : Mem ℝ} {a b : String} {v : Data ℝ} (h : b = a ∨ m b = m' b) : set m a v b = set m' a v b := by
  unfold Output.set
  by_cases e : b = a
  · rw [if_pos e, if_pos e]
  · rw [if_neg e, if_neg e]
    exact h.resolve_left e

theorem assign_congr {m m' : Mem ℝ} (l : List (String × Data ℝ)) {b : String} (h : b ∈ l.map (·.1)) :
    assign m l b = assign m' l b :=
  foldl_set_congr l Prod.fst Prod.snd (Or.inl h)

/-- Two lists that give the same values to the same members except for `x`. -/
theorem assign_except {x b : String} (hb : b ≠ x) {l l' : List (String × Data ℝ)}
    (h : List.Forall₂ (fun p q => p.1 = q.1 ∧ (p.1 ≠ x → p.2 = q.2)) l l') :
    ∀ {m m' : Mem ℝ}, b ∈ l.map (·.1) ∨ m b = m' b → assign m l b = assign m' l' b := by
  induction h with
  | nil => intro m m' hm; exact hm.resolve_left (by simp)
  | @cons p q l l' hp _ ih =>
    intro m m' hm
    refine ih (m := Output.set m p.1 p.2) (m' := Output.set m' q.1 q.2) ?_
    by_cases e : b = p.1
    · refine Or.inr ?_
      have : p.2 = q.2 := hp.2 (e ▸ hb)
      unfold Output.set
      rw [if_pos e, if_pos (e.trans hp.1), this]
    · rcases hm with hm | hm
      · rw [List.map_cons, List.mem_cons] at hm
        exact Or.inl (hm.resolve_left e)
      · refine Or.inr ?_
        unfold Output.set
        rw [if_neg e, if_neg (hp.1 ▸ e)]
        exact hm

theorem except_refl {x : String} (l : List (String × Data ℝ)) :
    List.Forall₂ (fun p q => p.1 = q.1 ∧ (p.1 ≠ x → p.2 = q.2)) l l :=
  List.forall₂_same.2 fun _ _ => ⟨rfl, fun _ => rfl⟩

/-- The address of a call that reads memory. -/
theorem call_addr {c : Call} {bigs : String → Nat} {a : String} (h : (c.toOp bigs).addr? = some a) :
    c.addr = a ∧ ∃ op, c = .op op := by
  cases c with
  | op op =>
    refine ⟨?_, op, rfl⟩
    cases op <;> simp only [Call.toOp, Op.addr?, Option.some.injEq, reduceCtorEq] at h <;> exact h
  | big _ _ => cases h

def isBig : Call → Bool
  | .op _ => false
  | .big _ _ => true

/-! ## Random scan -/

theorem scan_addrs : ∀ c ∈ scanCalls true false, isBig c = true ∨ c.addr ∈ ScanRun.memberNames ∨
    c.addr ∈ ["general_option", "at_least_order_r2_int", "n_scan_int", "keep_all_int", "deterministic_int"] := by
  have h : (scanCalls true false).all (fun c => isBig c || decide (c.addr ∈ ScanRun.memberNames) || decide (c.addr ∈
    ["general_option", "at_least_order_r2_int", "n_scan_int", "keep_all_int", "deterministic_int"])) = true := by
    decide +kernel
  intro c hc
  have := List.all_eq_true.1 h c hc
  simp only [Bool.or_eq_true, decide_eq_true_eq] at this
  tauto

theorem writeScan_congr (toF : Nat → ℝ) (r2 keepAll det : Bool) (b : String → Nat) {m m' : Mem ℝ}
    (h : ∀ a ∈ ScanRun.memberNames, m a = m' a) :
    writeScan toF ⟨r2, keepAll, det, b, m⟩ = writeScan toF ⟨r2, keepAll, det, b, m'⟩ := by
  have h1 := h "q.nphi" (by decide +kernel)
  have h2 := h "R0c_max" (by decide +kernel)
  unfold writeScan
  simp only [intMember, vectorSize, h1, h2]
  split
  · rfl
  · rfl
  · split
    · rfl
    · refine run_congr toF _ _ fun op hop a ha => ?_
      rcases List.mem_append.1 hop with hop | hop
      · simp only [List.mem_cons, List.not_mem_nil, or_false] at hop
        rcases hop with rfl | rfl | rfl <;> cases ha
      · obtain ⟨c, hc, rfl⟩ := List.mem_map.1 hop
        obtain ⟨hca, op, rfl⟩ := call_addr ha
        have key := scan_addrs _ ((scanCalls_sublist _ _).subset hc)
        rw [hca] at key
        unfold scanScope
        dsimp only
        rcases key with k | k | k
        · cases k
        · exact set_congr (Or.inr (set_congr (Or.inr (set_congr (Or.inr (set_congr (Or.inr (set_congr
            (Or.inr (h a k))))))))))
        · simp only [List.mem_cons, List.not_mem_nil, or_false] at k
          rcases k with k | k | k | k | k
          · exact set_congr (Or.inr (set_congr (Or.inr (set_congr (Or.inr (set_congr (Or.inr (set_congr
              (Or.inl k)))))))))
          · exact set_congr (Or.inr (set_congr (Or.inr (set_congr (Or.inr (set_congr (Or.inl k)))))))
          · exact set_congr (Or.inr (set_congr (Or.inr (set_congr (Or.inl k)))))
          · exact set_congr (Or.inr (set_congr (Or.inl k)))
          · exact set_congr (Or.inl k)

theorem scan_write_congr (toF : Nat → ℝ) (r : Sections.ScanObj ℝ) (n : Nat) (ord : Setup.Order) (m0 m0' : Mem ℝ)
    (junk : ℝ) (g : Collect.Gathered ℝ) (m : ScanRun.Members) :
    ScanRun.write toF r n ord m0 junk g m = ScanRun.write toF r n ord m0' junk g m := by
  unfold ScanRun.write
  split
  · split
    · rfl
    · next ha =>
      rw [writeScan_congr toF _ _ _ _ fun a h => assign_congr (m' := m0') _ ?_]
      have := ScanReversal.arrays_names ha
      simp only [List.map_append, this, List.map_map]
      exact h
  · rfl

theorem scan_mono {N : Nat} {w : ScanRun.World N} (m0 : Mem ℝ) {path name : List Char} {file : Sections.File ℝ}
    {files : List (Netcdf.File ℝ)} (h : ScanRun.Ends w path file name files) :
    ScanRun.Ends { w with m0 := m0 } path file name files := by
  obtain ⟨h0, r, n, ord, snaps, gs, m, s, h1, h2, h3, h4, h5, h6⟩ := h
  refine ⟨h0, r, n, ord, snaps, gs, m, s, h1, h2, h3, h4, h5, ?_⟩
  rw [← h6]
  simp only [scan_write_congr w.L.toF r n ord m0 w.m0]

/-- **C111.** What the members hold before a random scan sets them has no influence on the files that it can write. -/
theorem scan_memory {N : Nat} (w : ScanRun.World N) (m0 : Mem ℝ) (path name : List Char) (file : Sections.File ℝ)
    (files : List (Netcdf.File ℝ)) :
    ScanRun.Ends w path file name files ↔ ScanRun.Ends { w with m0 := m0 } path file name files :=
  ⟨scan_mono m0, fun h => scan_mono (w := { w with m0 := m0 }) w.m0 h⟩

/-! ## Scan over a grid -/

theorem grid_addrs : ∀ c ∈ multioptCalls false, isBig c = true ∨
    (c.addr ∈ MultiScanRun.memberNames ∧ c.addr ≠ "total_cpu_seconds") ∨
    c.addr ∈ ["general_option", "n_scan_int", "keep_all_int"] := by
  have h : (multioptCalls false).all (fun c => isBig c ||
    decide (c.addr ∈ MultiScanRun.memberNames ∧ c.addr ≠ "total_cpu_seconds") ||
    decide (c.addr ∈ ["general_option", "n_scan_int", "keep_all_int"])) = true := by
    decide +kernel
  intro c hc
  have := List.all_eq_true.1 h c hc
  simp only [Bool.or_eq_true, decide_eq_true_eq] at this
  tauto

theorem writeMultiopt_congr (toF : Nat → ℝ) (keepAll : Bool) (b : String → Nat) {m m' : Mem ℝ}
    (h : ∀ a ∈ MultiScanRun.memberNames, a ≠ "total_cpu_seconds" → m a = m' a) :
    writeMultiopt toF ⟨keepAll, b, m⟩ = writeMultiopt toF ⟨keepAll, b, m'⟩ := by
  have h1 := h "axis_nmax_plus_1" (by decide +kernel) (by decide +kernel)
  have h2 := h "n_scan" (by decide +kernel) (by decide +kernel)
  unfold writeMultiopt
  simp only [intMember, h1, h2]
  split
  · rfl
  · rfl
  · split
    · rfl
    · rfl
    · refine run_congr toF _ _ fun op hop a ha => ?_
      rcases List.mem_append.1 hop with hop | hop
      · simp only [List.mem_cons, List.not_mem_nil, or_false] at hop
        rcases hop with rfl | rfl <;> cases ha
      · obtain ⟨c, hc, rfl⟩ := List.mem_map.1 hop
        obtain ⟨hca, op, rfl⟩ := call_addr ha
        have key := grid_addrs _ ((multioptCalls_sublist _).subset hc)
        rw [hca] at key
        unfold multioptScope
        dsimp only
        rcases key with k | k | k
        · cases k
        · exact set_congr (Or.inr (set_congr (Or.inr (set_congr (Or.inr (h a k.1 k.2))))))
        · simp only [List.mem_cons, List.not_mem_nil, or_false] at k
          rcases k with k | k | k
          · exact set_congr (Or.inr (set_congr (Or.inr (set_congr (Or.inl k)))))
          · exact set_congr (Or.inr (set_congr (Or.inl k)))
          · exact set_congr (Or.inl k)

theorem counters_except (m : MultiScan.Master ℝ) (nm : Nat) (cpu cpu' : ℝ) :
    List.Forall₂ (fun p q => p.1 = q.1 ∧ (p.1 ≠ "total_cpu_seconds" → p.2 = q.2))
      (MultiScanRun.counters m nm cpu) (MultiScanRun.counters m nm cpu') := by
  unfold MultiScanRun.counters
  exact List.rel_append (.cons ⟨rfl, fun _ => rfl⟩ (.cons ⟨rfl, fun _ => rfl⟩ (.cons ⟨rfl, fun h => absurd rfl h⟩ .nil)))
    (except_refl _)

theorem grid_write_congr (toF : Nat → ℝ) (r : Sections.MultiScanObj ℝ) (p : MultiScanPipeline.Plan) (m0 m0' : Mem ℝ)
    (cpu cpu' : ℝ) (m : MultiScan.Master ℝ) (s : MultiScan.Saved ℝ) :
    MultiScanRun.write toF r p m0 cpu m s = MultiScanRun.write toF r p m0' cpu' m s := by
  unfold MultiScanRun.write
  split
  · next q a _ _ ha =>
    rw [writeMultiopt_congr toF _ _ fun b h hb => assign_except (m' := m0') hb
      (List.rel_append (List.rel_append (List.rel_append (List.rel_append (except_refl _) (except_refl _))
        (counters_except m p.nm cpu cpu')) (except_refl _)) (except_refl _)) (Or.inl ?_)]
    have := GridReversal.arrays_names ha
    simp only [List.map_append, this, List.map_map]
    exact h
  · rfl

theorem grid_mono {W : Nat} {w : MultiScanRun.World W} (m0 : Mem ℝ) (cpu : ℝ) {path name : List Char}
    {file : Sections.File ℝ} {files : List (Netcdf.File ℝ)} (h : MultiScanRun.Ends w path file name files) :
    MultiScanRun.Ends { w with m0 := m0, cpu := cpu } path file name files := by
  obtain ⟨h0, r, cfg, p, h1, h⟩ := h
  refine ⟨h0, r, cfg, p, h1, ?_⟩
  rcases h with h | ⟨h2, res, k, t, m, sv, out, h3, h4, h5, h6, h7⟩
  · exact Or.inl h
  · refine Or.inr ⟨h2, res, k, t, m, sv, out, h3, h4, h5, h6, ?_⟩
    rw [← h7]
    simp only [grid_write_congr w.L.toF r p m0 w.m0 cpu w.cpu]

/-- **C111.** The same for a scan over a grid of multi-stage optimizations, for which `total_cpu_seconds` has no influence
either. -/
theorem grid_memory {W : Nat} (w : MultiScanRun.World W) (m0 : Mem ℝ) (cpu : ℝ) (path name : List Char)
    (file : Sections.File ℝ) (files : List (Netcdf.File ℝ)) :
    MultiScanRun.Ends w path file name files ↔ MultiScanRun.Ends { w with m0 := m0, cpu := cpu } path file name files :=
  ⟨grid_mono m0 cpu, fun h => grid_mono (w := { w with m0 := m0, cpu := cpu }) w.m0 w.cpu h⟩

/-! ## The program -/

/-- The same call of the program, with other contents of memory before every kind of calculation. -/
def withMemory {N : Nat} (e : Program.Env N) (m0 m1 : Mem ℝ) (s0 s1 : Nat → Mem ℝ) (r0 g0 : Mem ℝ) : Program.Env N :=
  ⟨e.L, m0, m1, e.gsl, s0, s1, e.stageGsl, { e.scan with m0 := r0 }, { e.multi with m0 := g0 }⟩

/-- **C111.** The whole program, for every `general_option`: with other contents of memory the possible outcomes are the
same (return value, names and contents of all files). -/
theorem program_memory {N : Nat} (e : Program.Env N) (m0 m1 : Mem ℝ) (s0 s1 : Nat → Mem ℝ) (r0 g0 : Mem ℝ) (argc : Nat)
    (path : List Char) (d : Program.Doc) (status : Nat) (outs : List (List Char × Netcdf.File ℝ)) :
    Program.Ends e argc path d status outs ↔
      Program.Ends (withMemory e m0 m1 s0 s1 r0 g0) argc path d status outs := by
  have key : ∀ (e : Program.Env N) (m0 m1 : Mem ℝ) (s0 s1 : Nat → Mem ℝ) (r0 g0 : Mem ℝ),
      Program.Ends e argc path d status outs →
      Program.Ends (withMemory e m0 m1 s0 s1 r0 g0) argc path d status outs := by
    intro e m0 m1 s0 s1 r0 g0 h
    cases h with
    | usage h => exact .usage h
    | single h k => exact .single (r := _) h (by rw [← k]; exact memory_irrelevant e.L m0 e.m0 _ _)
    | random h k => exact .random h (scan_mono r0 k)
    | opt h k => exact .opt (st := _) h (by rw [← k]; exact OptMemory.opt_memory e.L e.gsl m0 m1 e.m0 e.m1 _ _)
    | multiopt h k =>
      exact .multiopt h (by
        rw [← k]; exact OptMemory.stages_memory e.L e.stageGsl s0 s1 e.stageM0 e.stageM1 _ _)
    | multioptScan h k => exact .multioptScan h (grid_mono g0 e.multi.cpu k)
  exact ⟨key e m0 m1 s0 s1 r0 g0,
    key (withMemory e m0 m1 s0 s1 r0 g0) e.m0 e.m1 e.stageM0 e.stageM1 e.scan.m0 e.multi.m0⟩

/-! ## Examples -/

/-- The example of a random scan on two processes: the file is the same for all contents of memory. -/
example (w : ScanRun.World 1) (hL : w.L = exLib) (hu : ∀ i k, 0 ≤ (w.proc i).u k ∧ (w.proc i).u k ≤ 1)
    (hc : ∀ i, (w.proc i).clock = [(true, false)]) : ∃ f, ∀ m0 : Mem ℝ,
      ScanRun.Ends { w with m0 := m0 } "dir/qsc_in.torus".toList ScanRun.exScan "dir/qsc_out.torus.nc".toList [f] := by
  obtain ⟨f, h, -⟩ := ScanRun.exScan_ends w hL hu hc
  exact ⟨f, fun m0 => (scan_memory w m0 _ _ _ _).1 h⟩

/-- The example of a scan over a grid with two workers. -/
example (save : Nat → Bool) (time : Nat → ℝ) : ∃ files f, ∀ m0 : Mem ℝ,
    MultiScanRun.Ends (MultiScanRun.exWorld m0 save time) "dir/qsc_in.torus".toList MultiScanRun.exGrid
      "dir/qsc_out.torus.nc".toList (files ++ [f]) := by
  obtain ⟨files, f, h, -⟩ := MultiScanRun.exGrid_ends (fun _ => .ints []) save time
  exact ⟨files, f, fun m0 => (grid_memory _ m0 0 _ _ _ _).1 h⟩

/-- The whole program, with one file from an optimization. -/
example {N : Nat} (e : Program.Env N) (hL : e.L = exLib) (hG : e.gsl = OptRun.exGsl) : ∃ f,
    ∀ (m0 m1 : Mem ℝ) (s0 s1 : Nat → Mem ℝ) (r0 g0 : Mem ℝ),
      Program.Ends (withMemory e m0 m1 s0 s1 r0 g0) 2 "dir/qsc_in.torus".toList Program.exDoc 0
        [("dir/qsc_out.torus.nc".toList, f)] := by
  obtain ⟨f, h⟩ := Program.ex_ends e hL hG
  exact ⟨f, fun m0 m1 s0 s1 r0 g0 => (program_memory e m0 m1 s0 s1 r0 g0 _ _ _ _ _).1 h⟩

end Qsc.ScanMemory
