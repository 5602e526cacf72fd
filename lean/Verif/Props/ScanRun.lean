import Verif.Lemmas.ScanRunOut
import Verif.Props.Single
import Verif.Props.Collect

/-!
# A random scan from the input file to the output file (C89, C90)
-/

namespace Qsc.ScanRun

open Qsc.Scan Qsc.ScanDraws Qsc.Spec.Scan Qsc.Spec.ScanPipeline Qsc.Spec.ScanRun Qsc.Spec.Sections Qsc.Spec.Single
open Qsc.ScanPipeline (Proc)

section
variable {N : Nat} {w : World N} {r : Sections.ScanObj ℝ} {modes n : Nat} {ord : Setup.Order}
  {snaps : Fin (N + 1) → List (Local ℝ × Members)} {cfg : Cfg ℝ} {l : Fin (N + 1) → List ((Bool × Bool) × Drawn)}

/-- The keep limit of a process. -/
theorem Runs.limits (R : Runs w r modes n ord snaps cfg l) {i : Fin (N + 1)} {x : Local ℝ × Members}
    (hx : x ∈ snaps i) : (toKeep w.L r.mem r.q n (triedOf (l i) x)).length ≤ cfg.maxKeep ∧
      (0 < cfg.maxAttempts → ((triedOf (l i) x).length : Int) ≤ cfg.maxAttempts) := by
  obtain ⟨l', h1, h2⟩ := R.at_ i x hx
  have hs : ∀ d ∈ l'.map (·.2), Sized modes d := fun d hd =>
    sized_of_inBounds (R.bounds i d ((h1.map (·.2)).subset hd))
  have htr := triedOf_prefix h1 (At.le (e := ⟨w.L, w.left, r.q, n, cfg⟩) R.common.keep h2)
  have I := Scan.inv_run ScanPipeline.realOps cfg R.common.keep (stepsOf ⟨w.L, w.left, r.q, n, cfg⟩ (w.c0 i) l')
  have hk := R.common.keep
  constructor
  · have e1 := (keptOf_eq R.common h2 hs).1
    have e2 : (keptOf ⟨w.L, w.left, r.q, n, cfg⟩ (w.c0 i) l' x).length = x.1.jScan := by
      rw [h2.jScan]
      dsimp only
      rw [I.saved]
      unfold Scan.firstCands keptOf
      rw [← tried_eq h2]
    rw [e1, List.length_map, htr] at e2
    rw [e2, h2.jScan]
    have := I.cap
    dsimp only
    omega
  · intro hp
    rw [← htr, tried_length (e := ⟨w.L, w.left, r.q, n, cfg⟩) R.common.keep h2]
    have := I.limit hp
    rw [h2.filters]
    exact this

/-- The collections give one file after the other. -/
theorem Runs.collected (R : Runs w r modes n ord snaps cfg l) (ht : Typed scanDoc r.mem) (hn : ModeCount r.mem modes)
    (hlen : ∀ i, (snaps i).length = (snaps 0).length) {gs : List (Collect.Gathered ℝ)}
    (hgs : ∀ j, j < (snaps 0).length → ∃ y : Fin (N + 1) → Collect.Local ℝ,
      (∀ i, (w.locals i (snaps i))[j]? = some (y i)) ∧ gs[j]? = some (Spec.Collect.combine (4 * modes) y))
    (hg : gs.length = (snaps 0).length) :
    ∀ (j : Nat) (z : Collect.Gathered ℝ × Local ℝ × Members), (gs.zip (snaps 0))[j]? = some z →
    ∃ (x : Fin (N + 1) → Local ℝ × Members) (f : Netcdf.File ℝ), (∀ i, (snaps i)[j]? = some (x i)) ∧
      write w.L.toF r n ord w.m0 w.junk z.1 z.2.2 = .ok f ∧
      Output f w.L.toF w.L r.mem r.q n ((List.finRange (N + 1)).flatMap fun i => triedOf (l i) (x i)) ∧
      (r.q.order_r_option ≠ "r1" → ∀ d, (triedOf (l 0) (x 0)).getLast? = some d → Scalar f "p2" d.p2)  ∧
      ((∃ d ∈ triedOf (l 0) (x 0), Positive d) →
        Scalar f "d_phi" (2 * Real.pi / (r.q.nfp * n)) ∧ Profile f "phi" n (grid r.q n)) := by
  intro j z hz
  obtain ⟨z1, z2⟩ := List.getElem?_zip_eq_some.1 hz
  have hj : j < (snaps 0).length := (List.getElem?_eq_some_iff.1 z2).1
  have hx : ∀ i, ∃ x, (snaps i)[j]? = some x := fun i => by
    have : j < (snaps i).length := by rw [hlen i]; exact hj
    exact ⟨_, List.getElem?_eq_getElem this⟩
  choose x hx using hx
  obtain ⟨y, y1, y2⟩ := hgs j hj
  have hy : y = fun i => Collect.ofScan w.junkColumn (w.timing i j) (x i).1 := by
    funext i
    have := y1 i
    rw [locals_get, hx i] at this
    exact (Option.some.inj this).symm
  rw [z1, hy] at y2
  have e1 := Option.some.inj y2
  have e2 : z.2 = x 0 := by rw [hx 0] at z2; exact (Option.some.inj z2).symm
  obtain ⟨f, f1, f2, f3⟩ := R.file ht hn (fun i => List.mem_of_getElem? (hx i)) fun i => w.timing i j
  rw [← e1, ← e2] at f1
  exact ⟨x, f, hx, f1, f2, f3⟩

end

/-- **C89.** A scan that ends with an output file.  Each content of the file belongs to attempts that the processes
made, in the bounds of the input file, not more than it allows, and more and more of them from one checkpoint to the
next, until a limit is reached or time is up.  The file counts them, and says why attempts were not kept.
It holds those attempts for which the output of a single run meets the requirements, exactly those and in the order
of the processes, with the values that the single run gives.  It also repeats the settings.  The scalar `p2` at second
order is the one of the last attempt of process 0.  The grid is in the file if an attempt of process 0 had a positive
radius. -/
theorem scan_file {N : Nat} {w : World N} (ho : w.L.ops = Qsc.realOps) (hl : Literals w.L.lit)
    (hu : ∀ i k, 0 ≤ (w.proc i).u k ∧ (w.proc i).u k ≤ 1) {path name : List Char} {file : Sections.File ℝ}
    (hf : WellFormed file) {r : Sections.ScanObj ℝ}
    (hr : Sections.scanInput (fun i => (i : ℝ)) 0 file (Pipeline.scanNew w.L.lit w.L.single) = .ok r)
    (hk : ∀ k, r.mem "max_keep_per_proc" = some (.int k) → 1 ≤ k) {modes : Nat} (hn : ModeCount r.mem modes)
    (h0 : 0 < modes) {files : List (Netcdf.File ℝ)} (h : Ends w path file name files) :
    ∃ (n : Nat) (tried : Nat → Fin (N + 1) → List Drawn), Points r.q n ∧ files ≠ [] ∧
      (∀ i j j', j ≤ j' → j' < files.length → tried j i <+: tried j' i) ∧
      (∀ j i, ∀ d ∈ tried j i, InBounds r.mem r.q modes d) ∧
      (∀ j i k, r.mem "max_keep_per_proc" = some (.int k) → (toKeep w.L r.mem r.q n (tried j i)).length ≤ k) ∧
      (∀ j i k, r.mem "max_attempts_per_proc" = some (.int k) → 0 < k → (tried j i).length ≤ k) ∧
      (∀ i, let t := tried (files.length - 1) i
        (∃ k, r.mem "max_keep_per_proc" = some (.int k) ∧ k ≤ (toKeep w.L r.mem r.q n t).length) ∨
        (∃ k, r.mem "max_attempts_per_proc" = some (.int k) ∧ 0 < k ∧ k ≤ t.length) ∨
        0 < t.length ∧ ∃ b, (w.proc i).clock[t.length - 1]? = some (true, b)) ∧
      ∀ j f, files[j]? = some f →
        Output f w.L.toF w.L r.mem r.q n ((List.finRange (N + 1)).flatMap (tried j)) ∧
        (r.q.order_r_option ≠ "r1" → ∀ d, (tried j 0).getLast? = some d → Scalar f "p2" d.p2)  ∧
        ((∃ d ∈ tried j 0, Positive d) →
          Scalar f "d_phi" (2 * Real.pi / (r.q.nfp * n)) ∧ Profile f "phi" n (grid r.q n)) := by
  obtain ⟨r', n, ord, snaps, gs, m, s, e1, e2, e3, e4, e5, e6⟩ := h.exec
  have er : r' = r := by rw [hr] at e1; exact (Except.ok.inj e1).symm
  subst er
  obtain ⟨ht, -⟩ := Sections.scanInput_ready _ _ file hf _ r' (Pipeline.scanNew_typed w.L.lit w.L.single) hr
  obtain ⟨cfg, l, R⟩ := runs_of ho hl hu ht hn h0 hk e2
  rw [rows_eq ht hn] at e3
  have hlen : ∀ i, (snaps i).length = (snaps 0).length := by
    intro i
    by_contra hne
    exact Collect.collect_mismatch_never_returns 0 (4 * modes) (fun i => w.locals i (snaps i)) i 0
      (by rw [locals_length, locals_length]; exact hne) w.buffered m s e3 e4
  obtain ⟨bound, t, gs', hfin, g0, g1, g2, g3⟩ := Collect.collect_all_schedules 0 (4 * modes) (snaps 0).length
    (fun i => w.locals i (snaps i)) (fun i => by rw [locals_length]; exact hlen i) R.locals_ok w.buffered
  have est : s = t := (g3 m s e3).2.2 fun v u => Mpi.Finished.no_step (fun i => by
    obtain ⟨x, hx⟩ := e4 i
    exact ⟨_, hx⟩)
  have eg : gs' = gs := by
    rw [est, g0] at e5
    injection e5 with e5
    exact Option.some.inj e5
  subst eg
  have Q := R.collected ht hn hlen g2 g1
  obtain ⟨m1, m2⟩ := mapM_get _ _ e6
  rw [List.length_zip, g1, min_self] at m1
  have hmem : ∀ {i j x}, (snaps i)[j]? = some x → x ∈ snaps i := fun hx => List.mem_of_getElem? hx
  refine ⟨n, fun j i => (snaps i)[j]?.elim [] (triedOf (l i)), R.points, ?_, ?_, ?_, ?_, ?_, ?_, ?_⟩
  · intro e
    rw [e] at m1
    exact R.nonempty 0 (List.length_eq_zero_iff.1 m1.symm)
  · intro i j j' hj hj'
    rw [m1] at hj'
    have a1 : j' < (snaps i).length := by rw [hlen i]; exact hj'
    have a2 : j < (snaps i).length := by omega
    dsimp only
    rw [List.getElem?_eq_getElem a1, List.getElem?_eq_getElem a2]
    change triedOf _ _ <+: triedOf _ _
    unfold triedOf
    apply List.take_prefix_take_left
    rcases Nat.lt_or_eq_of_le hj with hlt | rfl
    · exact List.pairwise_iff_getElem.1 (R.mono i) j j' a2 a1 hlt
    · exact le_rfl
  · intro j i d hd
    dsimp only at hd
    cases hx : (snaps i)[j]? with
    | none => rw [hx] at hd; cases hd
    | some x =>
      rw [hx] at hd
      exact R.bounds i d (List.mem_of_mem_take hd)
  · intro j i k hk'
    have ek := hk'.symm.trans R.common.isCfg.maxKeep
    injection ek with ek
    injection ek with ek
    dsimp only
    cases hx : (snaps i)[j]? with
    | none =>
      have := hk k hk'
      simp [toKeep]
      omega
    | some x =>
      rw [ek]
      exact (R.limits (hmem hx)).1
  · intro j i k hk' hp
    have ek := hk'.symm.trans R.common.isCfg.maxAttempts
    injection ek with ek
    injection ek with ek
    dsimp only
    cases hx : (snaps i)[j]? with
    | none => simp; omega
    | some x =>
      rw [ek]
      exact (R.limits (hmem hx)).2 (ek ▸ hp)
  · intro i
    have hx : (snaps i)[files.length - 1]? = some ((snaps i).getLast (R.nonempty i)) := by
      rw [m1, ← hlen i, ← List.getLast?_eq_getElem?, List.getLast?_eq_some_getLast]
    dsimp only
    rw [hx]
    rcases R.why i _ (List.getLast?_eq_some_getLast (R.nonempty i)) with h | ⟨h1, h2⟩ | h
    · exact Or.inl ⟨_, R.common.isCfg.maxKeep, h⟩
    · exact Or.inr (Or.inl ⟨_, R.common.isCfg.maxAttempts, h1, h2⟩)
    · exact Or.inr (Or.inr h)
  · intro j f hf'
    obtain ⟨z, z1, z2⟩ := m2 j f hf'
    obtain ⟨x, f', x1, x2, x3, x4⟩ := Q j z z1
    have ef : f' = f := by rw [z2] at x2; exact (Except.ok.inj x2).symm
    subst ef
    have ex : ∀ i, (snaps i)[j]?.elim [] (triedOf (l i)) = triedOf (l i) (x i) := fun i => by rw [x1 i]; rfl
    dsimp only
    simp only [ex]
    exact ⟨x3, x4⟩

/-- **C90.** How a scan goes whose input file is acceptable.  Without a failure of LAPACK every process whose clock
says in some pass that time is up comes to the end of its loop.  Then the run ends with an output file if and only if
all processes make the same number of checkpoints; the contents of the file do not depend on the schedule of the
processes, and no schedule can go on for ever or get stuck. -/
theorem scan_ends {N : Nat} {w : World N} (ho : w.L.ops = Qsc.realOps) (hl : Literals w.L.lit)
    (hu : ∀ i k, 0 ≤ (w.proc i).u k ∧ (w.proc i).u k ≤ 1) {path name : List Char}
    (hname : Outfile.outfile path = .ok name) {file : Sections.File ℝ} (hf : WellFormed file) {r : Sections.ScanObj ℝ}
    (hr : Sections.scanInput (fun i => (i : ℝ)) 0 file (Pipeline.scanNew w.L.lit w.L.single) = .ok r)
    (hk : ∀ k, r.mem "max_keep_per_proc" = some (.int k) → 1 ≤ k) {modes : Nat} (hn : ModeCount r.mem modes)
    (h0 : 0 < modes) (hs : Startable r.mem r.q.order_r_option modes) (h1 : 0 ≤ r.q.nphi) (h2 : 0 < r.q.nfp) :
    (∃ i : Fin (N + 1), (process w.L w.left w.l0 (w.c0 i) r i.val (w.proc i) =
        .error (.single (.throw "LAPACK error in *gesv")) ∧ ∃ n m b, w.L.gesv n m b = none) ∨
      (process w.L w.left w.l0 (w.c0 i) r i.val (w.proc i) =
        .error (.single (.throw "LAPACK error in *geev")) ∧ ∃ m, w.L.geev m = none)) ∨
    (∃ i : Fin (N + 1), process w.L w.left w.l0 (w.c0 i) r i.val (w.proc i) = .error .running ∧
      ∀ x ∈ (w.proc i).clock, x.1 = false) ∨
    ∃ (n : Nat) (ord : Setup.Order) (snaps : Fin (N + 1) → List (Local ℝ × Members)),
      (∀ i : Fin (N + 1), process w.L w.left w.l0 (w.c0 i) r i.val (w.proc i) = .ok (n, ord, snaps i)) ∧
      (∀ i, (∀ x ∈ (w.proc i).clock, x.2 = false) → (snaps i).length = 1) ∧
      ((∃ files, Ends w path file name files) ↔ ∀ i, (snaps i).length = (snaps 0).length) ∧
      (∀ files files', Ends w path file name files → Ends w path file name files' → files = files') ∧
      (∀ files, Ends w path file name files → files.length = (snaps 0).length) ∧
      ((∀ i, (snaps i).length = (snaps 0).length) → ∃ bound t, (∀ i, ∃ x, t.procs i = .done (some x)) ∧
        ∀ m s, Mpi.Steps w.buffered m (Mpi.St.start (Collect.system 0 (4 * modes) fun i => w.locals i (snaps i))) s →
          m ≤ bound ∧ ∃ k, Mpi.Steps w.buffered k s t) := by
  obtain ⟨ht, -⟩ := Sections.scanInput_ready _ _ file hf _ r (Pipeline.scanNew_typed w.L.lit w.L.single) hr
  have hp := fun i : Fin (N + 1) => process_ends (left := w.left) (l0 := w.l0) (c0 := w.c0 i) (rank := i.val) ho (hu i)
    ht hn h0 hk hs h1 h2
  by_cases hA : ∃ i : Fin (N + 1), ∃ e, process w.L w.left w.l0 (w.c0 i) r i.val (w.proc i) = .error (.single e) ∧
      Single.LapackFails w.L e
  · obtain ⟨i, e, a, b | b⟩ := hA
    · exact Or.inl ⟨i, Or.inl ⟨by rw [a, b.1], b.2⟩⟩
    · exact Or.inl ⟨i, Or.inr ⟨by rw [a, b.1], b.2⟩⟩
  by_cases hB : ∃ i : Fin (N + 1), process w.L w.left w.l0 (w.c0 i) r i.val (w.proc i) = .error .running ∧
      ∀ x ∈ (w.proc i).clock, x.1 = false
  · exact Or.inr (Or.inl hB)
  refine Or.inr (Or.inr ?_)
  have hC : ∀ i : Fin (N + 1), ∃ ord sn, Setup.validate r.q.order_r_option = .ok ord ∧
      process w.L w.left w.l0 (w.c0 i) r i.val (w.proc i) = .ok (Setup.oddNphi r.q.nphi.toNat, ord, sn) ∧
      ((∀ x ∈ (w.proc i).clock, x.2 = false) → sn.length = 1) := by
    intro i
    rcases hp i with h | h | h
    · exact h
    · exact absurd ⟨i, h⟩ hB
    · exact absurd ⟨i, h⟩ hA
  choose ords snaps c1 c2 c3 using hC
  have eo : ∀ i, ords i = ords 0 := fun i => by
    have := (c1 i).symm.trans (c1 0)
    exact Except.ok.inj this
  simp only [eo] at c2
  obtain ⟨cfg, l, R⟩ := runs_of ho hl hu ht hn h0 hk c2
  have hexec : ∀ files, Ends w path file name files → ∃ gs m s,
      Mpi.Steps w.buffered m (Mpi.St.start (Collect.system 0 (4 * modes) fun i => w.locals i (snaps i))) s ∧
      (∀ i, ∃ x, s.procs i = .done (some x)) ∧ s.procs 0 = .done (some gs) ∧
      (gs.zip (snaps 0)).mapM (fun x => write w.L.toF r (Setup.oddNphi r.q.nphi.toNat) (ords 0) w.m0 w.junk x.1 x.2.2) =
        .ok files := by
    intro files h
    obtain ⟨r', n, ord, snaps', gs, m, s, e1, e2, e3, e4, e5, e6⟩ := h.exec
    have er : r' = r := by rw [hr] at e1; exact (Except.ok.inj e1).symm
    subst er
    rw [rows_eq ht hn] at e3
    have e7 : ∀ i, (n, ord, snaps' i) = (Setup.oddNphi r'.q.nphi.toNat, ords 0, snaps i) := fun i => by
      have := (e2 i).symm.trans (c2 i)
      exact Except.ok.inj this
    have e8 : snaps' = snaps := funext fun i => (Prod.mk.inj (Prod.mk.inj (e7 i)).2).2
    have e9 : n = Setup.oddNphi r'.q.nphi.toNat := (Prod.mk.inj (e7 0)).1
    have e10 : ord = ords 0 := (Prod.mk.inj (Prod.mk.inj (e7 0)).2).1
    subst e8 e9 e10
    exact ⟨gs, m, s, e3, e4, e5, e6⟩
  have hmis : ∀ files, Ends w path file name files → ∀ i, (snaps i).length = (snaps 0).length := by
    intro files h i
    obtain ⟨gs, m, s, e3, e4, -⟩ := hexec files h
    by_contra hne
    exact Collect.collect_mismatch_never_returns 0 (4 * modes) (fun i => w.locals i (snaps i)) i 0
      (by rw [locals_length, locals_length]; exact hne) w.buffered m s e3 e4
  have hall : (∀ i, (snaps i).length = (snaps 0).length) → ∃ (bound : Nat)
      (t : Mpi.St (Fin (N + 1)) (Collect.Msg ℝ) (Option (List (Collect.Gathered ℝ)))) (gs : List (Collect.Gathered ℝ)),
      (∀ i, ∃ x, t.procs i = .done (some x)) ∧ t.procs 0 = .done (some gs) ∧ gs.length = (snaps 0).length ∧
      (∀ j, j < (snaps 0).length → ∃ y : Fin (N + 1) → Collect.Local ℝ,
        (∀ i, (w.locals i (snaps i))[j]? = some (y i)) ∧ gs[j]? = some (Spec.Collect.combine (4 * modes) y)) ∧
      ∀ m s, Mpi.Steps w.buffered m (Mpi.St.start (Collect.system 0 (4 * modes) fun i => w.locals i (snaps i))) s →
        m ≤ bound ∧ (∃ k, Mpi.Steps w.buffered k s t) ∧ ((∀ v u, ¬ Mpi.Step w.buffered v s u) → s = t) := by
    intro hlen
    have hlen' : ∀ i, (w.locals i (snaps i)).length = (snaps 0).length := fun i => by rw [locals_length]; exact hlen i
    obtain ⟨bound, t, gs, hfin, g0, g1, g2, g3⟩ := Collect.collect_all_schedules 0 (4 * modes) (snaps 0).length
      (fun i => w.locals i (snaps i)) hlen' R.locals_ok w.buffered
    obtain ⟨v, gs', hst, -⟩ := Collect.complete 0 (4 * modes) (snaps 0).length (fun i => w.locals i (snaps i)) [] hlen'
      R.locals_ok
    have hst' := Mpi.Steps.mono (cb' := w.buffered) (fun _ _ _ h => h.elim) hst
    have et := (g3 _ _ hst').2.2 fun v u => Mpi.Finished.no_step fun i => by
      dsimp only
      by_cases hi : i = 0
      · exact ⟨_, by rw [if_pos hi]⟩
      · exact ⟨_, by rw [if_neg hi]⟩
    refine ⟨bound, t, gs, fun i => ?_, g0, g1, g2, g3⟩
    rw [← et]
    dsimp only
    by_cases hi : i = 0
    · exact ⟨_, by rw [if_pos hi]⟩
    · exact ⟨_, by rw [if_neg hi]⟩
  refine ⟨_, ords 0, snaps, c2, c3, ⟨fun ⟨files, h⟩ => hmis files h, fun hlen => ?_⟩, ?_, ?_, ?_⟩
  · obtain ⟨bound, t, gs, t1, t2, t3, t4, t5⟩ := hall hlen
    obtain ⟨-, ⟨k, hk'⟩, -⟩ := t5 0 _ .refl
    have Q := R.collected ht hn hlen t4 t3
    obtain ⟨files, f1, -⟩ := ScanPipeline.mapM_ok (Q := fun _ _ => True)
      (f := fun x : Collect.Gathered ℝ × Local ℝ × Members =>
        write w.L.toF r (Setup.oddNphi r.q.nphi.toNat) (ords 0) w.m0 w.junk x.1 x.2.2) (gs.zip (snaps 0)) (by
        intro z hz
        obtain ⟨j, hj⟩ := List.getElem?_of_mem hz
        obtain ⟨x, f, -, hw, -⟩ := Q j z hj
        exact ⟨f, hw, trivial⟩)
    refine ⟨files, hname, r, _, ords 0, snaps, gs, k, t, hr, c2, ?_, t1, t2, f1⟩
    rw [rows_eq ht hn]
    exact hk'
  · intro files files' h h'
    obtain ⟨gs, m, s, e3, e4, e5, e6⟩ := hexec files h
    obtain ⟨gs', m', s', e3', e4', e5', e6'⟩ := hexec files' h'
    obtain ⟨bound, t, g, t1, t2, t3, t4, t5⟩ := hall (hmis files h)
    have a1 : s = t := (t5 m s e3).2.2 fun v u => Mpi.Finished.no_step fun i => by
      obtain ⟨x, hx⟩ := e4 i
      exact ⟨_, hx⟩
    have a2 : s' = t := (t5 m' s' e3').2.2 fun v u => Mpi.Finished.no_step fun i => by
      obtain ⟨x, hx⟩ := e4' i
      exact ⟨_, hx⟩
    rw [a1] at e5
    rw [a2, e5] at e5'
    injection e5' with e5'
    obtain rfl := Option.some.inj e5'
    exact Except.ok.inj (e6.symm.trans e6')
  · intro files h
    obtain ⟨gs, m, s, e3, e4, e5, e6⟩ := hexec files h
    obtain ⟨bound, t, g, t1, t2, t3, t4, t5⟩ := hall (hmis files h)
    have a1 : s = t := (t5 m s e3).2.2 fun v u => Mpi.Finished.no_step fun i => by
      obtain ⟨x, hx⟩ := e4 i
      exact ⟨_, hx⟩
    rw [a1, t2] at e5
    injection e5 with e5
    obtain rfl := Option.some.inj e5
    obtain ⟨m1, -⟩ := mapM_get _ _ e6
    rw [m1, List.length_zip, t3, min_self]
  · intro hlen
    obtain ⟨bound, t, gs, t1, -, -, -, t5⟩ := hall hlen
    exact ⟨bound, t, t1, fun m s h => ⟨(t5 m s h).1, (t5 m s h).2.1⟩⟩

/-- **C90.** What a scan refuses: an input file that cannot be read, limits that the distributions do not allow, an
unknown order, a negative number of grid points, and a number of field periods that is not positive.  In these cases
there is no output file.  The same holds if the calculation of one process fails or goes on for ever. -/
theorem scan_refused {N : Nat} (w : World N) (path name : List Char) (file : Sections.File ℝ) (hf : WellFormed file) :
    (∀ e, Sections.scanInput (fun i => (i : ℝ)) 0 file (Pipeline.scanNew w.L.lit w.L.single) = .error e →
      ∀ files, ¬ Ends w path file name files) ∧
    ∀ r, Sections.scanInput (fun i => (i : ℝ)) 0 file (Pipeline.scanNew w.L.lit w.L.single) = .ok r →
      (∀ i : Fin (N + 1), ∀ e, process w.L w.left w.l0 (w.c0 i) r i.val (w.proc i) = .error e →
        ∀ files, ¬ Ends w path file name files) ∧
      ∀ modes, ModeCount r.mem modes → (∀ k, r.mem "max_keep_per_proc" = some (.int k) → 0 ≤ k) →
        (¬ Startable r.mem r.q.order_r_option modes → ∀ i : Fin (N + 1),
          ∃ e, process w.L w.left w.l0 (w.c0 i) r i.val (w.proc i) = .error (.scan e)) ∧
        (Startable r.mem r.q.order_r_option modes → r.q.nphi < 0 → ∀ i : Fin (N + 1),
          process w.L w.left w.l0 (w.c0 i) r i.val (w.proc i) = .error (.single (.outside "nphi"))) ∧
        (Startable r.mem r.q.order_r_option modes → 0 ≤ r.q.nphi → r.q.nfp ≤ 0 → ∀ i : Fin (N + 1),
          process w.L w.left w.l0 (w.c0 i) r i.val (w.proc i) = .error (.single (.outside "nfp"))) := by
  refine ⟨fun e he files h => ?_, fun r hr => ⟨fun i e he files h => ?_, fun modes hn hk => ?_⟩⟩
  · obtain ⟨r, n, ord, snaps, gs, m, s, e1, -⟩ := h.exec
    rw [he] at e1
    cases e1
  · obtain ⟨r', n, ord, snaps, gs, m, s, e1, e2, -⟩ := h.exec
    rw [hr] at e1
    injection e1 with e1
    subst e1
    have := e2 i
    rw [he] at this
    cases this
  · obtain ⟨ht, -⟩ := Sections.scanInput_ready _ _ file hf _ r (Pipeline.scanNew_typed w.L.lit w.L.single) hr
    refine ⟨fun hs i => ?_, fun hs hq i => ?_, fun hs hq hq' i => ?_⟩ <;>
      rcases prepare_ends w.l0 ht hn hk i.val (w.proc i) with ⟨h1, ⟨a, b, c⟩, h2⟩ | ⟨h1, e, h2⟩
    · exact absurd h1 hs
    · exact ⟨e, by unfold process; rw [h2]⟩
    · unfold process; rw [h2]; dsimp only; rw [if_pos hq]
    · exact absurd hs h1
    · unfold process; rw [h2]; dsimp only; rw [if_neg (by omega), if_pos hq']
    · exact absurd hs h1

/-- If LAPACK never fails, every attempt can be calculated, so that the counters in the file are exactly the numbers of
attempts with each of the reasons. -/
theorem calculable {L : Single.Lib ℝ} (ho : L.ops = Qsc.realOps) (hl : Literals L.lit)
    (hg : ∀ n m b, L.gesv n m b ≠ none) (he : ∀ m, L.geev m ≠ none) {o : Sections.Obj ℝ} {q : Toml.QscIn ℝ}
    {modes n : Nat} (hq : q.order_r_option = "r1" ∨ q.order_r_option = "r2" ∨ q.order_r_option = "r2.1")
    (hn : 0 < q.nfp) (hp : Points q n) (h0 : 0 < modes) {d : Drawn} (hd : InBounds o q modes d)
    (c0 : Cand ℝ) : ∃ c, Computes L (Spec.ScanRun.configuration q d n) d c := by
  have hs := sized_of_inBounds hd
  obtain ⟨file, w1, w2⟩ := OptRun.describable L.single (Spec.ScanRun.configuration q d n) (N := modes) hs.1 hs.2.1 hs.2.2.1
    hs.2.2.2
  have hS : Sound (Spec.ScanRun.configuration q d n) := by
    refine ⟨by change q.order_r_option ∈ _; simpa using hq, Int.natCast_nonneg n, hn, fun e => ?_⟩
    have : d.R0c.length = 0 := List.length_eq_zero_iff.2 e
    have := hs.1
    omega
  rcases Single.ends ho hl (fun _ => .ints []) (dir := []) (ext := "x".toList) (path := "qsc_in.x".toList)
    ⟨Or.inl rfl, by decide +kernel, by decide +kernel⟩ w1 w2 hS with ⟨r, f, h⟩ | ⟨-, a, b, c, h⟩ | ⟨-, a, h⟩
  · obtain ⟨q', ord', n', -, u2, u3, -, u5, -, u7, -⟩ := Single.unpack h
    rw [(Single.input_iff hl L.single w1 _).2 w2] at u2
    injection u2 with u2
    subst u2
    have hodd : n % 2 = 1 := by rcases hp with ⟨-, h⟩ | ⟨-, h⟩ <;> exact h
    have en : n' = n := by
      have : (n' : Int) = if (n : Int) % 2 = 0 then (n : Int) + 1 else n := u5
      rw [if_neg (by omega)] at this
      omega
    subst en
    rw [configuration_eq] at u7
    exact ⟨_, computes_of (c0 := c0) hl u3 hodd hs h0 hn u7⟩
  · exact absurd h (hg _ _ _)
  · exact absurd h (he _)

/-! ## Example -/

open Qsc.Single (exLib exLiterals)

/-- A scan at second order of the axis and of `eta_bar`, one attempt per process; everything is kept. -/
noncomputable def exScan : Sections.File ℝ :=
  [("qsc", [("nfp", .int 4), ("nphi", .int 20), ("order_r_option", .str "r2")]),
   ("scan", [("R0c_min", .arr [.flt 1, .flt (1 / 100)]), ("R0c_max", .arr [.flt 1, .flt (1 / 10)]),
    ("Z0s_min", .arr [.flt 0, .flt (1 / 100)]), ("Z0s_max", .arr [.flt 0, .flt (1 / 10)]),
    ("fourier_scan_option", .str "linear"), ("eta_bar_scan_option", .str "linear"),
    ("eta_bar_min", .flt (1 / 2)), ("eta_bar_max", .int 2), ("keep_all", .int 1), ("max_keep_per_proc", .int 10),
    ("max_attempts_per_proc", .int 1)])]

theorem exScan_wellFormed : WellFormed exScan := by
  refine ⟨by simp [exScan], ?_⟩
  simp [exScan]

theorem exScan_read : ∃ r, Sections.scanInput (fun i => (i : ℝ)) 0 exScan (Pipeline.scanNew exLib.lit exLib.single) = .ok r ∧
    (r.mem "R0c_min" = some (.flts [1, 1 / 100]) ∧ r.mem "R0c_max" = some (.flts [1, 1 / 10]) ∧
     r.mem "R0s_min" = some (.flts [exLib.lit "0.0", 0]) ∧ r.mem "R0s_max" = some (.flts [exLib.lit "0.0", 0]) ∧
     r.mem "Z0c_min" = some (.flts [exLib.lit "0.0", 0]) ∧ r.mem "Z0c_max" = some (.flts [exLib.lit "0.0", 0]) ∧
     r.mem "Z0s_min" = some (.flts [0, 1 / 100]) ∧ r.mem "Z0s_max" = some (.flts [0, 1 / 10])) ∧
    (r.mem "eta_bar_min" = some (.flt (1 / 2)) ∧ r.mem "eta_bar_max" = some (.flt ((2 : ℤ) : ℝ)) ∧
     r.mem "eta_bar_scan_option" = some (.str "linear")) ∧
    (∀ x ∈ ["sigma0", "B2c", "B2s", "p2"], r.mem (x ++ "_scan_option") = some (.str "linear") ∧
      r.mem (x ++ "_min") = some (.flt (exLib.lit "0.0")) ∧ r.mem (x ++ "_max") = some (.flt (exLib.lit "0.0"))) ∧
    r.mem "fourier_scan_option" = some (.str "linear") ∧ r.mem "max_keep_per_proc" = some (.int 10) ∧
    r.mem "max_attempts_per_proc" = some (.int 1) ∧ r.mem "keep_all" = some (.bool true) ∧
    r.q.order_r_option = "r2" ∧ r.q.nphi = 20 ∧ r.q.nfp = 4 ∧ r.q.sG = 1 := by
  refine ⟨_, rfl, ⟨rfl, rfl, rfl, rfl, rfl, rfl, rfl, rfl⟩, ⟨rfl, rfl, rfl⟩, ?_, rfl, rfl, rfl, rfl, rfl, rfl, rfl, rfl⟩
  intro x hx
  simp only [List.mem_cons, List.not_mem_nil, or_false] at hx
  rcases hx with rfl | rfl | rfl | rfl <;> exact ⟨rfl, rfl, rfl⟩

theorem exScan_modes {r : Sections.ScanObj ℝ}
    (a : r.mem "R0c_min" = some (.flts [1, 1 / 100]) ∧ r.mem "R0c_max" = some (.flts [1, 1 / 10]) ∧
     r.mem "R0s_min" = some (.flts [exLib.lit "0.0", 0]) ∧ r.mem "R0s_max" = some (.flts [exLib.lit "0.0", 0]) ∧
     r.mem "Z0c_min" = some (.flts [exLib.lit "0.0", 0]) ∧ r.mem "Z0c_max" = some (.flts [exLib.lit "0.0", 0]) ∧
     r.mem "Z0s_min" = some (.flts [0, 1 / 100]) ∧ r.mem "Z0s_max" = some (.flts [0, 1 / 10])) : ModeCount r.mem 2 := by
  obtain ⟨a1, a2, a3, a4, a5, a6, a7, a8⟩ := a
  intro m hm
  simp only [boundArrays, List.mem_cons, List.not_mem_nil, or_false] at hm
  rcases hm with rfl | rfl | rfl | rfl | rfl | rfl | rfl | rfl
  exacts [Or.inl ⟨_, a1, rfl⟩, Or.inl ⟨_, a2, rfl⟩, Or.inl ⟨_, a3, rfl⟩, Or.inl ⟨_, a4, rfl⟩, Or.inl ⟨_, a5, rfl⟩,
    Or.inl ⟨_, a6, rfl⟩, Or.inl ⟨_, a7, rfl⟩, Or.inl ⟨_, a8, rfl⟩]

/-- On two processes, whatever MPI buffers, the scan ends with one output file, which holds two configurations, one
of each process. -/
theorem exScan_ends (w : World 1) (hL : w.L = exLib) (hu : ∀ i k, 0 ≤ (w.proc i).u k ∧ (w.proc i).u k ≤ 1)
    (hc : ∀ i, (w.proc i).clock = [(true, false)]) : ∃ f,
      Ends w "dir/qsc_in.torus".toList exScan "dir/qsc_out.torus.nc".toList [f] ∧ Scalar f "attempts" 2 ∧
      Integer f "n_scan" 2 ∧ Integer f "sG" 1 ∧ ∃ x, 1 / 100 ≤ x ∧ x ≤ 1 / 10 ∧ AxisColumn f 2 "scan_R0c" 1 [1, x] := by
  obtain ⟨r, hr, a, b, c, d1, d2, d3, d4, d5, d6, d7, d8⟩ := exScan_read
  have hn := exScan_modes a
  obtain ⟨a1, a2, a3, a4, a5, a6, a7, a8⟩ := a
  have hs : Startable r.mem r.q.order_r_option 2 := by
    refine ⟨?_, ?_, Or.inr (Or.inl d5)⟩
    · intro x hx
      by_cases hx' : x = "eta_bar"
      · subst hx'; exact ⟨_, _, _, b.2.2, b.1, b.2.1, Or.inl rfl⟩
      · obtain ⟨e1, e2, e3⟩ := c x (by simp at hx ⊢; tauto)
        exact ⟨_, _, _, e1, e2, e3, Or.inl rfl⟩
    · intro x hx j hj
      simp only [List.mem_cons, List.not_mem_nil, or_false] at hx
      have hj' : j = 0 ∨ j = 1 := by omega
      rcases hx with rfl | rfl | rfl | rfl <;> rcases hj' with rfl | rfl
      · exact ⟨_, _, _, _, _, d1, a1, a2, rfl, rfl, by simp [Spec.Random.Acceptable]⟩
      · exact ⟨_, _, _, _, _, d1, a1, a2, rfl, rfl, by simp [Spec.Random.Acceptable]⟩
      · exact ⟨_, _, _, _, _, d1, a3, a4, rfl, rfl, by simp [Spec.Random.Acceptable]⟩
      · exact ⟨_, _, _, _, _, d1, a3, a4, rfl, rfl, by simp [Spec.Random.Acceptable]⟩
      · exact ⟨_, _, _, _, _, d1, a5, a6, rfl, rfl, by simp [Spec.Random.Acceptable]⟩
      · exact ⟨_, _, _, _, _, d1, a5, a6, rfl, rfl, by simp [Spec.Random.Acceptable]⟩
      · exact ⟨_, _, _, _, _, d1, a7, a8, rfl, rfl, by simp [Spec.Random.Acceptable]⟩
      · exact ⟨_, _, _, _, _, d1, a7, a8, rfl, rfl, by simp [Spec.Random.Acceptable]⟩
  have hk : ∀ k, r.mem "max_keep_per_proc" = some (.int k) → 1 ≤ k := by
    intro k e; rw [d2] at e; cases e; decide
  have hl : Literals w.L.lit := by rw [hL]; exact exLiterals
  have ho : w.L.ops = Qsc.realOps := by rw [hL]; rfl
  have hr' : Sections.scanInput (fun i => (i : ℝ)) 0 exScan (Pipeline.scanNew w.L.lit w.L.single) = .ok r := by
    rw [hL]; exact hr
  have hname := Outfile.outfile_ok _ _ _ Single.ex_path
  -- the run ends
  have hE : ∃ f, Ends w "dir/qsc_in.torus".toList exScan "dir/qsc_out.torus.nc".toList [f] := by
    rcases scan_ends ho hl hu hname exScan_wellFormed hr' hk hn (by decide) hs (by rw [d6]; decide) (by rw [d7]; decide) with
      ⟨i, ⟨-, n, m, b, h⟩ | ⟨-, m, h⟩⟩ | ⟨i, -, h⟩ | ⟨n, ord, snaps, -, h1, h2, -, h3, -⟩
    · rw [hL] at h; cases h
    · rw [hL] at h; cases h
    · have := h (true, false) (by rw [hc]; simp)
      cases this
    · have h4 : ∀ i, (snaps i).length = 1 := fun i => h1 i (by rw [hc]; simp)
      obtain ⟨files, h5⟩ := h2.2 fun i => by rw [h4, h4]
      have h6 := (h3 files h5).trans (h4 0)
      match files, h6 with
      | [f], _ => exact ⟨f, h5⟩
  obtain ⟨f, hE⟩ := hE
  refine ⟨f, hE, ?_⟩
  obtain ⟨n, tried, p1, -, -, p4, -, p6, p7, p8⟩ := scan_file ho hl hu exScan_wellFormed hr' hk hn (by decide) hE
  obtain ⟨q1, -⟩ := p8 0 f rfl
  -- every process made one attempt
  have h1 : ∀ i, ∃ d, tried 0 i = [d] := by
    intro i
    have e1 := p6 0 i 1 d3 (by decide)
    have e2 : 0 < (tried 0 i).length := by
      rcases p7 i with ⟨k, e, e'⟩ | ⟨k, e, e', e''⟩ | ⟨e, -⟩
      · have := hk k e
        have h2 : (toKeep w.L r.mem r.q n (tried 0 i)).length ≤ (tried 0 i).length := List.length_filter_le _ _
        have e3 : k ≤ (toKeep w.L r.mem r.q n (tried 0 i)).length := e'
        omega
      · have e3 : k ≤ (tried 0 i).length := e''
        omega
      · exact e
    exact List.length_eq_one_iff.1 (by omega)
  choose d hd using h1
  have hin : ∀ i, InBounds r.mem r.q 2 (d i) := fun i => p4 0 i _ (by rw [hd]; simp)
  have hR : ∀ i, ∃ x, 1 / 100 ≤ x ∧ x ≤ 1 / 10 ∧ (d i).R0c = [1, x] := by
    intro i
    obtain ⟨e1, e2⟩ := (hin i).modes ("R0c", (d i).R0c) (by simp)
    obtain ⟨x, y, e3⟩ := List.length_eq_two.1 e1
    dsimp only at e2 e3
    rw [e3] at e2 ⊢
    obtain ⟨s, la, lb, a, b, k1, k2, k3, k4, k5, -, -, k6⟩ := e2 0 x rfl
    obtain ⟨s', la', lb', a', b', m1, m2, m3, m4, m5, m6, -⟩ := e2 1 y rfl
    change r.mem "R0c_min" = _ at k2 m2
    change r.mem "R0c_max" = _ at k3 m3
    rw [a1] at k2 m2
    rw [a2] at k3 m3
    cases k2; cases m2; cases k3; cases m3; cases k4; cases k5; cases m4; cases m5
    rw [d1] at m1
    cases m1
    have m6' := m6 (by simp)
    refine ⟨y, ?_, ?_, by rw [k6 rfl]⟩ <;> rcases m6' with ⟨u, v⟩ | ⟨u, v⟩ <;> linarith
  have hkeep : ∀ i, Keep w.L r.mem r.q n (d i) := by
    intro i
    obtain ⟨c, hc'⟩ := calculable ho hl (by rw [hL]; intro n m b h; cases h) (by rw [hL]; intro m h; cases h)
      (Or.inr (Or.inl d5)) (by rw [d7]; decide) p1 (by decide) (hin i) (w.c0 0)
    refine ⟨c, hc', ?_⟩
    have hax : c.R0c = (d i).R0c := by
      obtain ⟨⟨file, g1, g2⟩, g3⟩ := hc'
      obtain ⟨g5, g6, g7, g4⟩ := g3 w.m0 _ _ file hname g1 g2
      exact g4.axis.1
    obtain ⟨x, x1, x2, x3⟩ := hR i
    have hb : r.mem "keep_all" ≠ some (.bool false) := by rw [d4]; intro h; cases h
    refine ⟨?_, ?_, fun h => absurd h hb, fun h => absurd h hb, fun h => absurd h hb, fun h => absurd h hb,
      fun h => absurd h hb⟩
    · rw [hax, x3]; simp [Finset.sum_range_succ]; linarith
    · rw [hax, x3]; simp [Finset.sum_range_succ]; linarith
  have ht : (List.finRange (1 + 1)).flatMap (tried 0) = [d 0, d 1] := by
    have : List.finRange (1 + 1) = [0, 1] := by decide
    rw [this]
    simp [hd]
  have hkp : toKeep w.L r.mem r.q n [d 0, d 1] = [d 0, d 1] := by
    unfold toKeep
    rw [List.filter_eq_self]
    intro y hy
    simp only [List.mem_cons, List.not_mem_nil, or_false] at hy
    rcases hy with rfl | rfl <;> simp [hkeep]
  rw [ht] at q1
  refine ⟨?_, ?_, ?_, ?_⟩
  · have := q1.counts.attempts
    rw [hL] at this
    simpa [exLib] using this
  · have := q1.counts.n_scan
    rw [hkp] at this
    exact this
  · have := q1.settings.integers ("sG", r.q.sG) (by simp)
    rwa [d8] at this
  · obtain ⟨c, g1, -, g3⟩ := q1.records 1 (d 1) (by rw [hkp]; rfl)
    rw [hkp] at g3
    obtain ⟨x, x1, x2, x3⟩ := hR 1
    refine ⟨x, x1, x2, ?_⟩
    have hax : c.R0c = (d 1).R0c := by
      obtain ⟨⟨file, g1, g2⟩, g3⟩ := g1
      obtain ⟨g5, g6, g7, g4⟩ := g3 w.m0 _ _ file hname g1 g2
      exact g4.axis.1
    have := g3.axis ("scan_R0c", c.R0c) (by simp)
    rw [hax, x3] at this
    exact this

/-- A scan with an unknown order. -/
noncomputable def exRefused : Sections.File ℝ :=
  [("qsc", [("order_r_option", .str "r7")]), ("scan", [("R0c_min", .arr [.flt 1]), ("R0c_max", .arr [.flt 1])])]

example (w : World 1) (hL : w.L = exLib) (path name : List Char) (files : List (Netcdf.File ℝ)) :
    ¬ Ends w path exRefused name files := by
  have hf : WellFormed exRefused := by
    refine ⟨by simp [exRefused], ?_⟩
    simp [exRefused]
  obtain ⟨r, h1, h2, h3, h4⟩ : ∃ r, Sections.scanInput (fun i => (i : ℝ)) 0 exRefused
      (Pipeline.scanNew exLib.lit exLib.single) = .ok r ∧ r.q.order_r_option = "r7" ∧
      r.mem "max_keep_per_proc" = some (.int 1000) ∧ ∀ m ∈ boundArrays, ∃ x, r.mem m = some (.flts [x]) := by
    refine ⟨_, rfl, rfl, rfl, ?_⟩
    intro m hm
    simp only [boundArrays, List.mem_cons, List.not_mem_nil, or_false] at hm
    rcases hm with rfl | rfl | rfl | rfl | rfl | rfl | rfl | rfl <;> exact ⟨_, rfl⟩
  obtain ⟨h5, h6⟩ := (scan_refused w path name _ hf).2 r (by rw [hL]; exact h1)
  obtain ⟨h7, -, -⟩ := h6 1 (fun m hm => by obtain ⟨x, hx⟩ := h4 m hm; exact Or.inl ⟨_, hx, rfl⟩)
    (by intro k e; rw [h3] at e; cases e; decide)
  obtain ⟨e, he⟩ := h7 (fun hs => by
    have := hs.order
    rw [h2] at this
    revert this
    decide) 0
  exact h5 0 _ he files

end Qsc.ScanRun
