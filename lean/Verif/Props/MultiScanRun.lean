import Verif.Lemmas.MultiScanRun

/-!
# A scan of multi-stage optimizations from the input file to the output file (C93, C94)
-/

namespace Qsc.MultiScanRun

open Qsc.Netcdf Qsc.Toml Qsc.Single Qsc.OptState
open Qsc.MultiScan (Final Cfg Master Saved)
open Qsc.MultiScanPipeline (Accepted Plan)
open Qsc.MultiOptRun (Readable)
open Qsc.Spec.Single Qsc.Spec.Pipeline Qsc.Spec.OptLoop Qsc.Spec.MultiOptRun Qsc.Spec.MultiScanPipeline
open Qsc.Spec.OptRun hiding Column IntColumn AxisColumn
open Qsc.Spec.MultiScanRun (Point IsPoint added)

section
variable {W : Nat} {w : World W} {path : List Char} {file : Sections.File ℝ} {name : List Char}
  {files : List (Netcdf.File ℝ)} {r : Sections.MultiScanObj ℝ} {ds : List Scanned} {p : Plan}

theorem start_cfg {lit : String → ℝ} {single : Bool} (hf : Spec.Sections.WellFormed file) {cfg : Cfg ℝ}
    (h : MultiScanPipeline.start lit single file = .ok (r, cfg, p)) :
    r.mem "keep_all" = some (.bool cfg.keepAll) ∧
    ∀ x ∈ Spec.MultiScanPipeline.thresholds, r.mem x = some (.flt (cfg.thr x)) := by
  obtain ⟨ha, hi⟩ := MultiScanPipeline.started hf h
  obtain ⟨c, h1, h2, h3⟩ := MultiScanPipeline.cfgOf_file lit single file r ha
  unfold MultiScanPipeline.start at h
  rw [ha.read] at h
  simp only [MultiScanPipeline.lift, Except.bind, hi, h1, Except.ok.injEq, Prod.mk.injEq] at h
  obtain ⟨-, rfl, -⟩ := h
  exact ⟨h2, h3⟩

/-- A scan of an accepted file that has a plan starts. -/
theorem start_ok {lit : String → ℝ} {single : Bool} (ha : Accepted lit single file r)
    (hi : MultiScanPipeline.init r = .ok p) : ∃ cfg, MultiScanPipeline.start lit single file = .ok (r, cfg, p) := by
  obtain ⟨c, h1, -⟩ := MultiScanPipeline.cfgOf_file lit single file r ha
  refine ⟨c, ?_⟩
  unfold MultiScanPipeline.start
  rw [ha.read]
  simp only [MultiScanPipeline.lift, Except.bind, hi, h1]

theorem quit_bool {lit : String → ℝ} {single : Bool} (ha : Accepted lit single file r) (b : Bool) :
    Pipeline.getBool r.mem "quit_after_init" = some b ↔ r.mem "quit_after_init" = some (.bool b) := by
  obtain ⟨v, e, b', rfl⟩ := ha.typed.1 .bool "quit_after_init" (by simp [Spec.Sections.Doc.Has, Spec.Sections.multiScanDoc])
  simp [Pipeline.getBool, e]

/-- The section `[qsc]` of the file and the number of modes in the output. -/
theorem plan_modes (hl : Literals w.L.lit) (ha : Accepted w.L.lit w.L.single file r) (hs : NaturalSizes r.ref.opts)
    (hd : IsScanned r.mem ds) (hi : MultiScanPipeline.init r = .ok p) :
    ∃ q, MultiOptRun.firstQ r.ref.opts = some q ∧ (∀ o ∈ r.ref.opts, o.q = q) ∧ Input w.L.single file q ∧
      0 < q.R0c.length ∧ p.nm = q.R0c.length + (r.ref.opts.map added).sum ∧ p.total = points ds := by
  obtain ⟨o0, rest, hro, hsame, hinp, -, hpos⟩ := MultiOptRun.first_section hl ha.wellFormed ha.ref
  obtain ⟨h1, h2⟩ := (MultiScanPipeline.init_iff w.L.lit w.L.single file r ha hs ds hd).2.2 p hi
  refine ⟨o0.q, by rw [hro]; rfl, hsame, hinp, hpos, ?_, h1⟩
  rw [added_eq]
  exact h2 o0 (by rw [hro]; rfl)

open Classical in
/-- The contents of the file after a finished run of the processes. -/
theorem finished_files (hl : Literals w.L.lit) (ho : w.L.ops = realOps) (hf : Spec.Sections.WellFormed file)
    {cfg : Cfg ℝ} (hst : MultiScanPipeline.start w.L.lit w.L.single file = .ok (r, cfg, p))
    (hs : NaturalSizes r.ref.opts) (hd : IsScanned r.mem ds) (hp : Positive ds) {q : QscIn ℝ}
    (hq : MultiOptRun.firstQ r.ref.opts = some q) (hW : 0 < W) (hWn : W ≤ p.total) {res : Nat → Final ℝ}
    (hev : ∀ i, i < p.total → evalPoint w.L (w.gsl i) r p i = .ok (res i)) {k : Nat}
    {t : Mpi.St (Fin (W + 1)) (MultiScan.Msg ℝ) (MultiScan.Res ℝ)}
    (hsteps : Mpi.Steps w.buffered k (Mpi.St.start (w.system cfg p res)) t) (hfin : t.Finished) :
    ∃ (pts : Nat → Point) (arrivals : List Nat) (m : Master ℝ) (sv : List (Master ℝ × Saved ℝ)) (out : Saved ℝ)
      (saved : List (Netcdf.File ℝ)) (f : Netcdf.File ℝ),
      (∀ i, i < p.total → IsPoint w.L (w.gsl i) p.nm ds r.ref.opts i (pts i)) ∧ arrivals.Perm (List.range p.total) ∧
      t.procs 0 = .done (.master m sv out) ∧
      (sv ++ [(m, out)]).mapM (fun x => write w.L.toF r p w.m0 w.cpu x.1 x.2) = .ok (saved ++ [f]) ∧
      (∀ x ∈ saved, ∃ sofar, sofar <+: arrivals ∧
        Spec.MultiScanRun.Output x w.L.toF r.mem q p.nm p.total pts sofar) ∧
      Spec.MultiScanRun.Output f w.L.toF r.mem q p.nm p.total pts (List.range p.total) := by
  obtain ⟨ha, hi⟩ := MultiScanPipeline.started hf hst
  obtain ⟨c1, c2⟩ := start_cfg hf hst
  obtain ⟨q', b1, -, -, b4, b5, -⟩ := plan_modes hl ha hs hd hi
  obtain rfl : q' = q := Option.some.inj (b1.symm.trans hq)
  have hnm : 0 < p.nm := by omega
  have hpt : ∀ i, ∃ P, i < p.total → IsPoint w.L (w.gsl i) p.nm ds r.ref.opts i P ∧ Describes p.nm (res i) P := by
    intro i
    by_cases h : i < p.total
    · obtain ⟨P, hP⟩ := point_of hl ho ha hs hd hp hi (hev i h)
      exact ⟨P, fun _ => hP⟩
    · exact ⟨⟨[], q', [], 0, fun _ => 0, 0⟩, fun h' => absurd h' h⟩
  choose pts hpts using hpt
  have hsz : ∀ i, i < p.total → Spec.MultiScan.Sized p.nm (res i) := fun i h => (hpts i h).2.sized
  obtain ⟨arr, m, sv, hperm, hcnt, hproc, hsv⟩ := MultiScan.saved_in_order cmp cfg 0 p.nm p.total (p.total + 1) w.save
    res w.time hW hWn (by omega) hsz hsteps hfin
  have one : ∀ (sofar : List Nat) (m : Master ℝ) (s : Saved ℝ), sofar.Nodup → (∀ i ∈ sofar, i < p.total) →
      Spec.MultiScan.Counted cmp cfg res sofar m →
      s = ((List.range p.total).filter fun i => decide (i ∈ sofar ∧ Spec.MultiScan.Keep cmp cfg (res i))).map
          (MultiScan.column cmp cfg 0 p.nm res w.time) →
      ∃ f, write w.L.toF r p w.m0 w.cpu m s = .ok f ∧
        Spec.MultiScanRun.Output f w.L.toF r.mem q' p.nm p.total pts sofar := by
    intro sofar m s h1 h2 h3 h4
    have hkept : counter m 1 = ((List.range p.total).filter fun i =>
        decide (i ∈ sofar ∧ Spec.MultiScan.Keep cmp cfg (res i))).length := by
      rw [← count_kept h1 h2]
      exact h3.kept
    have harr : arrays s p.nm = some (arraysOf p.nm ((List.range p.total).filter fun i =>
        decide (i ∈ sofar ∧ Spec.MultiScan.Keep cmp cfg (res i))) res) := by
      rw [h4]
      exact arrays_eq cfg p.nm _ res w.time fun i hi' => hsz i (List.mem_range.1 (List.mem_filter.1 hi').1)
    obtain ⟨f, e1, e2⟩ := write_file w.L.toF w.m0 w.cpu ha.typed.1 b1 hnm harr hkept
    exact ⟨f, e1, output_of c1 c2 (fun i h => (hpts i h).2) h2 h3 hkept e2⟩
  have hall : ∀ l : List (Master ℝ × Saved ℝ), (∀ x ∈ l, ∃ sofar, sofar <+: arr ∧
      Spec.MultiScan.Counted cmp cfg res sofar x.1 ∧
      x.2 = ((List.range p.total).filter fun i => decide (i ∈ sofar ∧ Spec.MultiScan.Keep cmp cfg (res i))).map
          (MultiScan.column cmp cfg 0 p.nm res w.time)) →
      ∃ fs, l.mapM (fun x => write w.L.toF r p w.m0 w.cpu x.1 x.2) = .ok fs ∧
        ∀ x ∈ fs, ∃ sofar, sofar <+: arr ∧ Spec.MultiScanRun.Output x w.L.toF r.mem q' p.nm p.total pts sofar := by
    intro l
    induction l with
    | nil => intro _; exact ⟨[], rfl, by simp⟩
    | cons a l ih =>
      intro h
      obtain ⟨fs, e1, e2⟩ := ih fun x hx => h x (by simp [hx])
      obtain ⟨sofar, g1, g2, g3⟩ := h a (by simp)
      have hnd : arr.Nodup := hperm.nodup_iff.2 List.nodup_range
      obtain ⟨f, k1, k2⟩ := one sofar a.1 a.2 (hnd.sublist g1.sublist)
        (fun i hi' => List.mem_range.1 (hperm.mem_iff.1 (g1.subset hi'))) g2 g3
      refine ⟨f :: fs, ?_, ?_⟩
      · rw [List.mapM_cons, k1, e1]; rfl
      · intro x hx
        rcases List.mem_cons.1 hx with rfl | hx
        · exact ⟨sofar, g1, k2⟩
        · exact e2 x hx
  obtain ⟨saved, s1, s2⟩ := hall sv hsv
  obtain ⟨f, f1, f2⟩ := one (List.range p.total) m _ List.nodup_range (fun i h => List.mem_range.1 h) hcnt rfl
  have hfil : ((List.range p.total).filter fun i => decide (Spec.MultiScan.Keep cmp cfg (res i))) =
      (List.range p.total).filter fun i => decide (i ∈ List.range p.total ∧ Spec.MultiScan.Keep cmp cfg (res i)) := by
    refine List.filter_congr fun i hi' => ?_
    simp only [hi', true_and]
  rw [hfil] at hproc
  refine ⟨pts, arr, m, sv, _, saved, f, fun i h => (hpts i h).1, hperm, hproc, ?_, s2, f2⟩
  rw [List.mapM_append, s1]
  simp only [List.mapM_cons, List.mapM_nil, f1]
  rfl

/-- **C93.** What a scan of multi-stage optimizations leaves in its output file.  With `quit_after_init` there is none.
Otherwise, for every number of workers, every schedule and all checkpoints: every grid point was optimized with its own
settings; the file at the end has exactly the grid points to be kept, in the order of the grid, each with its settings, its
initial and final parameters and what a single run for its final configuration calculates, and the counters of all grid
points; each file before is of the same form for the grid points that had arrived. -/
theorem scan_file (hl : Literals w.L.lit) (ho : w.L.ops = realOps) (hf : Spec.Sections.WellFormed file)
    (hr : Sections.multiScanInput (fun i => (i : ℝ)) 0 file (Pipeline.optNew w.L.lit w.L.single)
      (Pipeline.multiScanNew w.L.lit) = .ok r)
    (hs : NaturalSizes r.ref.opts) (hd : IsScanned r.mem ds) (hp : Positive ds) (h : Ends w path file name files) :
    ∃ dir ext q nm, Outfile.IsInputPath path dir ext ∧ name = dir ++ "qsc_out.".toList ++ ext ++ ".nc".toList ∧
      (∀ o ∈ r.ref.opts, o.q = q) ∧ Input w.L.single file q ∧ nm = q.R0c.length + (r.ref.opts.map added).sum ∧
      (r.mem "quit_after_init" = some (.bool true) ∧ files = [] ∨
       r.mem "quit_after_init" = some (.bool false) ∧ 0 < W ∧ W ≤ points ds ∧
       ∃ (pts : Nat → Point) (arrivals : List Nat) (saved : List (Netcdf.File ℝ)) (f : Netcdf.File ℝ),
        (∀ i, i < points ds → IsPoint w.L (w.gsl i) nm ds r.ref.opts i (pts i)) ∧
        arrivals.Perm (List.range (points ds)) ∧ files = saved ++ [f] ∧
        (∀ x ∈ saved, ∃ sofar, sofar <+: arrivals ∧
          Spec.MultiScanRun.Output x w.L.toF r.mem q nm (points ds) pts sofar) ∧
        Spec.MultiScanRun.Output f w.L.toF r.mem q nm (points ds) pts (List.range (points ds))) := by
  obtain ⟨dir, ext, hpath, hname⟩ := OptRun.outfile_cases h.name
  obtain ⟨r', cfg, p, hst, h'⟩ := h.exec
  obtain ⟨ha, hi⟩ := MultiScanPipeline.started hf hst
  obtain rfl : r' = r := Except.ok.inj (ha.read.symm.trans hr)
  obtain ⟨q, b1, b2, b3, -, b5, b6⟩ := plan_modes hl ha hs hd hi
  refine ⟨dir, ext, q, p.nm, hpath, hname, b2, b3, b5, ?_⟩
  rcases h' with ⟨h1, h2⟩ | ⟨h1, res, k, t, m, sv, out, e1, e2, e3, e4, e5⟩
  · exact Or.inl ⟨(quit_bool ha true).1 h1, h2⟩
  · right
    have hW : 0 < W ∧ W ≤ p.total := by
      by_contra hc
      obtain ⟨msg, hm⟩ := MultiScan.guards (W := W) cmp cfg 0 p.nm p.total (p.total + 1) w.save res w.time (by omega) 0
      cases e2 with
      | refl =>
        rw [show (Mpi.St.start (w.system cfg p res)).procs 0 = w.system cfg p res 0 from rfl] at e4
        rw [show w.system cfg p res 0 = _ from hm] at e4
        cases e4
      | head h1 _ =>
        refine absurd h1 (Mpi.Finished.no_step fun i => ?_)
        obtain ⟨msg, hm⟩ := MultiScan.guards (W := W) cmp cfg 0 p.nm p.total (p.total + 1) w.save res w.time (by omega) i
        exact ⟨_, hm⟩
    obtain ⟨pts, arr, m', sv', out', saved, f, g1, g2, g3, g4, g5, g6⟩ :=
      finished_files hl ho hf hst hs hd hp b1 hW.1 hW.2 e1 e2 e3
    rw [e4] at g3
    injection g3 with g3
    injection g3 with x1 x2 x3
    subst x1 x2 x3
    rw [e5] at g4
    rw [b6] at g1 g2 g5 g6 hW
    exact ⟨(quit_bool ha false).1 h1, hW.1, hW.2, pts, arr, saved, f, g1, g2, Except.ok.inj g4, g5, g6⟩

/-! ## How a grid point ends -/

theorem idle_of_zero {L : Lib ℝ} {q : QscIn ℝ} {m0 m1 : Nat → Mem ℝ} {os : List (Sections.OptObj ℝ)}
    {sts : List (OptLoop.St ℝ (Result ℝ))} {fs : List (Netcdf.File ℝ)} :
    ∀ {j N : Nat}, os.length = sts.length → MultiOptRun.writeStages L m0 m1 q j N os sts = .ok fs →
      ∀ st ∈ sts, st.nIter ≠ 0 := by
  induction os generalizing sts fs with
  | nil =>
    intro j N hlen _ st hst
    rw [List.length_eq_zero_iff.1 hlen.symm] at hst
    cases hst
  | cons o os ih =>
    intro j N hlen h
    cases sts with
    | nil => simp at hlen
    | cons st sts =>
      rw [MultiOptRun.writeStages] at h
      split at h
      · by_cases h0 : st.nIter = 0
        · rw [if_pos h0] at h; cases h
        · rw [if_neg h0] at h
          split at h
          · cases h
          · split at h
            · cases h
            · rename_i fs' hfs
              intro st' hst'
              rcases List.mem_cons.1 hst' with rfl | hst'
              · exact h0
              · exact ih (by simpa using hlen) hfs st' hst'
      · cases h

/-- **C94.** How the evaluation of a grid point can end: with its results, with an exception in some stage for one of the
reasons of `Refused`, or in a stage that makes no iteration.  The last happens only in single precision, for an order
other than `r2.1`, or if the stage may make fewer than two iterations. -/
theorem point_outcomes {L : Lib ℝ} {gsl : Nat → Nat → (p : Nat) → OptLoop.Gsl ℝ p} (hl : Literals L.lit)
    (ho : L.ops = realOps) (ha : Accepted L.lit L.single file r) (hs : NaturalSizes r.ref.opts)
    (hd : IsScanned r.mem ds) (hp : Positive ds) (hi : MultiScanPipeline.init r = .ok p) {q : QscIn ℝ}
    (hq : ∀ o ∈ r.ref.opts, o.q = q) (hnfp : 0 < q.nfp)
    (hsc : ∀ d ∈ ds, Scannable q.R0c.length r.ref.opts.length d) {ss : List Pipeline.Raw}
    (hss : List.Forall₂ (fun o s => IsRaw o.mem s) r.ref.opts ss) (i : Nat) :
    ∃ os q', os.length = r.ref.opts.length ∧
      (∀ j o o', r.ref.opts[j]? = some o → os[j]? = some o' → StageAt p.nm ds i j o o') ∧
      (∃ o, os[0]? = some o ∧ o.q = q') ∧
      ((∃ F, evalPoint L gsl r p i = .ok F) ∨
       (∃ m, evalPoint L gsl r p i = .error (.scan (.run (.run (.throw m)))) ∧ Stops L q' os ss m) ∨
       evalPoint L gsl r p i = .error .idle ∧ (L.single = true ∨ q.order_r_option ≠ "r2.1" ∨ ∃ s ∈ ss, s.maxIter < 2)) := by
  obtain ⟨o0, rest, hro, hsame, -, hsize, hpos⟩ := MultiOptRun.first_section hl ha.wellFormed ha.ref
  have h0 : r.ref.opts[0]? = some o0 := by rw [hro]; rfl
  obtain rfl : o0.q = q := hq o0 (by rw [hro]; simp)
  obtain ⟨o1, h1⟩ : ∃ o1, r.ref.opts.getLast? = some o1 := by
    rw [hro]; exact ⟨_, List.getLast?_cons⟩
  obtain ⟨os, p0, p1, hos, hlen, hlpos, hp0, hp1, hS0, hS1, hnm, hrefine, -⟩ :=
    MultiScanPipeline.prepared (fun j => OptRun.world L (gsl j) o0.q) L.lit L.single file r ha hs ds hd hp p hi o0 o1 h0 h1
      hsc i
  obtain ⟨os', _, _, hos', -, -, hp0', -, -, -, -, -, hfine⟩ :=
    MultiScanPipeline.prepared (fun j => OptRun.world L (gsl j) p0.q) L.lit L.single file r ha hs ds hd hp p hi o0 o1 h0 h1
      hsc i
  obtain rfl : os = os' := Except.ok.inj (hos.symm.trans hos')
  obtain rfl := Option.some.inj (hp0.symm.trans hp0')
  obtain ⟨-, hst⟩ := (MultiScanPipeline.stages_of_point L.lit L.single file r ha hs ds hd hp p hi o0 h0 i).2 os hos
  refine ⟨os, p0.q, hlen, hst, ⟨p0, hp0, rfl⟩, ?_⟩
  obtain ⟨ot, rfl⟩ : ∃ ot, os = p0 :: ot := by
    cases os with
    | nil => simp at hp0
    | cons a l => exact ⟨l, by rw [show a = p0 by simpa using hp0]⟩
  have hread : ∀ o' ∈ p0 :: ot, Readable o' := by
    intro o' ho'
    obtain ⟨j, hj⟩ := List.getElem?_of_mem ho'
    have hj' : j < r.ref.opts.length := by rw [← hlen]; exact (List.getElem?_eq_some_iff.1 hj).1
    have hso := hst j _ o' (List.getElem?_eq_getElem hj') hj
    have hoo := List.getElem_mem hj'
    exact ⟨MultiScanPipeline.StageAt.typed hso (ha.typed.2 _ hoo),
      fun s h => ((hs _ hoo).2 s (MultiScanPipeline.StageAt.raw hso h)).1.refine.2,
      fun s h _ => ha.nphis hs hoo (MultiScanPipeline.StageAt.raw hso h)⟩
  have hss' : List.Forall₂ (fun o s => IsRaw o.mem s ∧ Natural s ∧ Readable o) (p0 :: ot) ss := by
    rw [List.forall₂_iff_get] at hss ⊢
    refine ⟨hlen.trans hss.1, fun j j1 j2 => ?_⟩
    have hj' : j < r.ref.opts.length := by omega
    have hso := hst j _ _ (List.getElem?_eq_getElem hj') (List.getElem?_eq_getElem j1)
    have hr := hread _ (List.getElem_mem j1)
    obtain ⟨s, -, -, -, -, -, hr', -⟩ := hr.parts
    have hr1 := hss.2 j hj' j2
    obtain rfl := Pipeline.isRaw_unique (MultiScanPipeline.StageAt.raw hso hr') hr1
    exact ⟨hr', ((hs _ (List.getElem_mem hj')).2 _ hr1).1, hr⟩
  have hnat : ∀ o' ∈ p0 :: ot, ∀ s, IsRaw o'.mem s → Natural s := by
    intro o' ho' s h
    obtain ⟨j, hj⟩ := List.getElem?_of_mem ho'
    have hj' : j < r.ref.opts.length := by rw [← hlen]; exact (List.getElem?_eq_some_iff.1 hj).1
    exact ((hs _ (List.getElem_mem hj')).2 s
      (MultiScanPipeline.StageAt.raw (hst j _ o' (List.getElem?_eq_getElem hj') hj) h)).1
  have hR : p0.q.R0c.length = o0.q.R0c.length := hS0.R0c.1
  have hc0 : AllSize p0.q.R0c.length (Pipeline.configOf p0.q) := by
    rw [hR]; exact MultiScanPipeline.StageAt.config hS0 hsize
  have hnfp' : p0.q.nfp = o0.q.nfp := by rw [hS0.others]
  have hord : p0.q.order_r_option = o0.q.order_r_option := by rw [hS0.others]
  have hnphi : 0 ≤ p0.q.nphi := by
    rw [show p0.q.nphi = o0.q.nphi by rw [hS0.others]]
    exact (hs o0 (List.mem_of_getElem? h0)).1
  unfold evalPoint
  rw [hos]
  simp only [MultiOptRun.firstQ]
  rw [if_neg (by omega)]
  cases hsingle : L.single with
  | true => exact Or.inr (Or.inr ⟨by simp, Or.inl rfl⟩)
  | false =>
    rw [if_neg (by simp)]
    have hnone := MultiOptRun.runStages_none (L := L) (gsl := gsl) (q := p0.q) (o := p0) (os := ot) rfl hnphi 0
    rcases MultiOptRun.stages_end (L := L) (gsl := gsl) (q := p0.q) (j := 0) (k := 0) ho hss' (n := p0.q.nphi.toNat) hc0
      (by omega) with ⟨⟨sts, tot⟩, hx⟩ | ⟨m, hx, hm⟩
    · obtain ⟨ch, -⟩ := MultiOptRun.chain_some hx
      rw [hnone, hx]
      rw [← hnone] at hx
      rw [hx] at hfine
      obtain ⟨l1, l2, l3, l4⟩ := hfine
      dsimp only at ch l1 l2 l3 l4 ⊢
      rcases MultiOptRun.write_ends (m0 := fun _ _ => .flts []) (m1 := fun _ _ => .flts []) ch hss' hc0 (by omega) with
        ⟨fs, hw⟩ | ⟨j, s, hw, g1, g2⟩
      · left
        have hid := idle_of_zero l1.symm hw
        obtain ⟨k1, k2, k3, k4⟩ := optimized hl hsingle (by omega) rfl hread hnat hc0 (by omega) hx hid
        rw [if_neg (by
          simp only [List.any_eq_true, beq_iff_eq, not_exists, not_and]
          exact hid)]
        obtain ⟨st1, hst1⟩ : ∃ st, sts.getLast? = some st :=
          ⟨_, (List.getLast?_eq_getElem?).trans (List.getElem?_eq_getElem (by omega))⟩
        obtain ⟨x, hphys⟩ := (k4 st1 (List.mem_of_getLast? hst1)).2
        obtain ⟨st0, hst0⟩ : ∃ st, sts[0]? = some st := ⟨_, List.getElem?_eq_getElem (by omega)⟩
        obtain ⟨s, hr', FO⟩ := l3 st0 hst0
        obtain ⟨y, hy⟩ : ∃ y, st0.hist[0]? = some (some y) := by
          have hne : st0.log ≠ [] := by
            refine FO.ran.2 ⟨k3.order, ?_⟩
            have hend : (sts.map fun st => (st.q, st.nphi))[0]? = some (st0.q, st0.nphi) := by
              rw [List.getElem?_map, hst0]; rfl
            have := (k3.stage 0 p0 s _ _ _ rfl hr' hend rfl).1
            omega
          cases hlog : st0.log with
          | nil => exact absurd hlog hne
          | cons y l => exact ⟨y, by rw [FO.hist, hlog]; rfl⟩
        have hz := l4 st1 hst1
        rw [hrefine, ← hnm] at hz
        rw [hst1]
        simp only [hphys, MultiScanPipeline.finalOf, hp1, hst0, hst1, hy, MultiScanPipeline.need, Except.bind,
          List.getElem?_cons_zero]
        rw [if_neg (by rw [hz.R0c, hz.R0s, hz.Z0c, hz.Z0s]; simp)]
        exact ⟨_, rfl⟩
      · right; right
        have hex : ¬ ∀ st ∈ sts, st.nIter ≠ 0 := fun h => not_idle h _ hw
        rw [if_pos (by
          simp only [List.any_eq_true, beq_iff_eq]
          by_contra hc
          exact hex fun st h h' => hc ⟨st, h, h'⟩)]
        refine ⟨rfl, Or.inr ?_⟩
        rw [← hord]
        exact g2.imp id fun h => ⟨s, List.mem_of_getElem? g1, h⟩
    · rw [hnone, hx]
      exact Or.inr (Or.inl ⟨m, rfl, hm⟩)

/-- **C94.** When a grid point has results: for order `r2.1`, double precision, and in every stage flags of the right
sizes, a positive weight at this grid point, a varied parameter, at least two iterations, and at least as many residuals
as parameters in every step, it does unless LAPACK fails. -/
theorem point_completes {L : Lib ℝ} {gsl : Nat → Nat → (p : Nat) → OptLoop.Gsl ℝ p} (hl : Literals L.lit)
    (ho : L.ops = realOps) (hdbl : L.single = false) (ha : Accepted L.lit L.single file r) (hs : NaturalSizes r.ref.opts)
    (hd : IsScanned r.mem ds) (hp : Positive ds) (hi : MultiScanPipeline.init r = .ok p) {q : QscIn ℝ}
    (hq : ∀ o ∈ r.ref.opts, o.q = q) (hnfp : 0 < q.nfp) (hord : q.order_r_option = "r2.1")
    (hsc : ∀ d ∈ ds, Scannable q.R0c.length r.ref.opts.length d) {ss : List Pipeline.Raw}
    (hss : List.Forall₂ (fun o s => IsRaw o.mem s) r.ref.opts ss)
    (h2 : ∀ s ∈ ss, 2 ≤ s.maxIter ∧ ∃ v, Spec.OptState.Varied s.fl v) (i : Nat)
    (hst : ∀ (j : Nat) o o' s w N, r.ref.opts[j]? = some o → StageAt p.nm ds i j o o' → ss[j]? = some s →
      IsWeights o'.mem w → N = q.R0c.length + ((ss.take j).map fun s => s.refine.toNat).sum →
      s.fl.R0c.length = N ∧ s.fl.R0s.length = N ∧ s.fl.Z0c.length = N ∧ s.fl.Z0s.length = N ∧
      (∃ b : Spec.OptResid.Block, 0 < b.weight w) ∧
      ∀ n k (ps : List Spec.OptState.Param) es, GridBefore q.nphi.toNat ss j n → k ≤ s.refine.toNat →
        (∀ p, p ∈ ps ↔ MayVary s.fl N k p) → ps.Pairwise Spec.OptState.Before →
        Spec.OptResid.Entries realRes w (gridAt (s.nphis.map Int.toNat) n k) es → ps.length ≤ es.length) :
    (∃ F, evalPoint L gsl r p i = .ok F) ∨
    (evalPoint L gsl r p i = .error (.scan (.run (.run (.throw "LAPACK error in *gesv")))) ∧ ∃ n a b, L.gesv n a b = none) ∨
    (evalPoint L gsl r p i = .error (.scan (.run (.run (.throw "LAPACK error in *geev")))) ∧ ∃ a, L.geev a = none) := by
  obtain ⟨os, q', hlen, hstage, ⟨p0, hp0, rfl⟩, hout⟩ :=
    point_outcomes (gsl := gsl) hl ho ha hs hd hp hi hq hnfp hsc hss i
  have hopos : 0 < r.ref.opts.length := by rw [← hlen]; exact (List.getElem?_eq_some_iff.1 hp0).1
  have hS0 := hstage 0 _ p0 (List.getElem?_eq_getElem hopos) hp0
  have hq0 : r.ref.opts[0].q = q := hq _ (List.getElem_mem hopos)
  have e1 : p0.q.order_r_option = q.order_r_option := by rw [hS0.others, hq0]
  have e2 : p0.q.nphi = q.nphi := by rw [hS0.others, hq0]
  have e3 : p0.q.R0c.length = q.R0c.length := by rw [hS0.R0c.1, hq0]
  rcases hout with h | ⟨m, h, j, o', s, w, c, n, h1, h2', h3, -, h5, h6, h7⟩ | ⟨-, h3⟩
  · exact Or.inl h
  · have hj : j < r.ref.opts.length := by rw [← hlen]; exact (List.getElem?_eq_some_iff.1 h1).1
    obtain ⟨g1, g2, g3, g4, ⟨b, hb⟩, g6⟩ := hst j _ o' s w _ (List.getElem?_eq_getElem hj)
      (hstage j _ o' (List.getElem?_eq_getElem hj) h1) h2' h3 rfl
    rw [e3] at h5
    rw [e1, e2] at h6
    have hN := h5.R0c
    have hgrid := h6 hord fun s' h => (h2 s' (List.mem_of_mem_take h)).1
    obtain ⟨v, hv⟩ := (h2 s (List.mem_of_getElem? h2')).2
    cases h7 with
    | size h =>
      change _ ∧ _ ≠ c.R0c.length ∨ _ ∧ _ ≠ c.R0c.length ∨ _ ∧ _ ≠ c.R0c.length ∨ _ ∧ _ ≠ c.R0c.length at h
      omega
    | residuals _ h => exact absurd hb (not_lt.2 (h b))
    | parameters _ h => exact absurd hv (h v)
    | order _ h => exact absurd (by change p0.q.order_r_option ∈ _; rw [e1, hord]; simp) h
    | points _ k hk ps hps hs es he h =>
      have hps' : ∀ p, p ∈ ps ↔ MayVary s.fl c.R0c.length k p := hps
      rw [hN] at hps'
      have := g6 n k ps es hgrid hk hps' hs he
      omega
    | gesv hm _ hx => exact Or.inr (Or.inl ⟨by rw [h, hm], hx⟩)
    | geev hm _ hx => exact Or.inr (Or.inr ⟨by rw [h, hm], hx⟩)
  · rcases h3 with h | h | ⟨s, h, h'⟩
    · rw [hdbl] at h; cases h
    · exact absurd hord h
    · have := (h2 s h).1
      omega

/-- **C94.** When a scan of multi-stage optimizations ends with its output file, if it is not to stop after the
initialization and the messages of process 0 are buffered or those of the workers are: if and only if there are at least
one worker and no more workers than grid points, every scanned parameter has at least two values, and every grid point
has results. Then no schedule can do anything but end: every execution is bounded, can be completed, and ends, when no
step is possible any more, with process 0 having written the files. -/
theorem scan_ends (hl : Literals w.L.lit) (ho : w.L.ops = realOps) (ha : Accepted w.L.lit w.L.single file r)
    (hf : Spec.Sections.WellFormed file) (hs : NaturalSizes r.ref.opts) (hd : IsScanned r.mem ds) (hp : Positive ds)
    (hquit : r.mem "quit_after_init" = some (.bool false)) {dir ext : List Char} (hpath : Outfile.IsInputPath path dir ext)
    (hcb : (∀ j m, w.buffered 0 j m) ∨ ∀ i m, w.buffered i 0 m) :
    ((∃ name files, Ends w path file name files) ↔
      0 < W ∧ W ≤ points ds ∧ (∀ d ∈ ds, 2 ≤ d.n) ∧
      ∀ p, MultiScanPipeline.init r = .ok p → ∀ i, i < points ds → ∃ F, evalPoint w.L (w.gsl i) r p i = .ok F) ∧
    ∀ cfg p (res : Nat → Final ℝ), MultiScanPipeline.start w.L.lit w.L.single file = .ok (r, cfg, p) → 0 < W → W ≤ points ds →
      (∀ i, i < points ds → evalPoint w.L (w.gsl i) r p i = .ok (res i)) →
      ∀ k t, Mpi.Steps w.buffered k (Mpi.St.start (w.system cfg p res)) t →
        k ≤ 6 * points ds + 2 * W + 1 ∧
        (∃ k' u, Mpi.Steps w.buffered k' t u ∧ u.Finished) ∧
        ((∀ v u, ¬ Mpi.Step w.buffered v t u) → ∃ m sv out files, t.procs 0 = .done (.master m sv out) ∧
          (sv ++ [(m, out)]).mapM (fun x => write w.L.toF r p w.m0 w.cpu x.1 x.2) = .ok files ∧
          Ends w path file (dir ++ "qsc_out.".toList ++ ext ++ ".nc".toList) files) := by
  have hinit := MultiScanPipeline.init_iff w.L.lit w.L.single file r ha hs ds hd
  have hsz : ∀ p (res : Nat → Final ℝ), MultiScanPipeline.init r = .ok p →
      (∀ i, i < points ds → evalPoint w.L (w.gsl i) r p i = .ok (res i)) →
      ∀ i, i < p.total → Spec.MultiScan.Sized p.nm (res i) := by
    intro p res hi hev i h
    rw [(hinit.2.2 p hi).1] at h
    obtain ⟨P, -, hP⟩ := point_of hl ho ha hs hd hp hi (hev i h)
    exact hP.sized
  have main : ∀ cfg p (res : Nat → Final ℝ), MultiScanPipeline.start w.L.lit w.L.single file = .ok (r, cfg, p) → 0 < W → W ≤ points ds →
      (∀ i, i < points ds → evalPoint w.L (w.gsl i) r p i = .ok (res i)) →
      ∀ k t, Mpi.Steps w.buffered k (Mpi.St.start (w.system cfg p res)) t →
        k ≤ 6 * points ds + 2 * W + 1 ∧
        (∃ k' u, Mpi.Steps w.buffered k' t u ∧ u.Finished) ∧
        ((∀ v u, ¬ Mpi.Step w.buffered v t u) → ∃ m sv out files, t.procs 0 = .done (.master m sv out) ∧
          (sv ++ [(m, out)]).mapM (fun x => write w.L.toF r p w.m0 w.cpu x.1 x.2) = .ok files ∧
          Ends w path file (dir ++ "qsc_out.".toList ++ ext ++ ".nc".toList) files) := by
    intro cfg p res hst hW hWn hev k t hk
    obtain ⟨-, hi⟩ := MultiScanPipeline.started hf hst
    have htot := (hinit.2.2 p hi).1
    have hsz' := hsz p res hi hev
    obtain ⟨q, b1, -⟩ := plan_modes hl ha hs hd hi
    rw [← htot] at hWn hev
    rw [← htot]
    refine ⟨MultiScan.bounded_work cmp cfg 0 p.nm p.total (p.total + 1) w.save res w.time hW hWn (by omega) hsz' hk,
      MultiScan.can_finish cmp cfg 0 p.nm p.total (p.total + 1) w.save res w.time hW hWn (by omega) hsz' hcb hk, ?_⟩
    intro hstuck
    have hfin := MultiScan.no_deadlock cmp cfg 0 p.nm p.total (p.total + 1) w.save res w.time hW hWn (by omega) hsz' hcb
      hk hstuck
    obtain ⟨pts, arr, m, sv, out, saved, f, g1, g2, g3, g4, g5, g6⟩ :=
      finished_files hl ho hf hst hs hd hp b1 hW hWn hev hk hfin
    exact ⟨m, sv, out, _, g3, g4, Outfile.outfile_ok path dir ext hpath, r, cfg, p, hst,
      Or.inr ⟨(quit_bool ha false).2 hquit, res, k, t, m, sv, out, hev, hk, hfin, g3, g4⟩⟩
  refine ⟨⟨?_, ?_⟩, main⟩
  · rintro ⟨name, files, h⟩
    have h93 := scan_file hl ho hf ha.read hs hd hp h
    obtain ⟨_, _, _, _, _, _, _, _, _, h'⟩ := h93
    obtain ⟨r', cfg, p, hst, h''⟩ := h.exec
    obtain ⟨ha', hi⟩ := MultiScanPipeline.started hf hst
    obtain rfl : r' = r := Except.ok.inj (ha'.read.symm.trans ha.read)
    rcases h' with ⟨h', -⟩ | ⟨-, hW, hWn, -⟩
    · rw [hquit] at h'; cases h'
    · refine ⟨hW, hWn, hinit.1.1 ⟨p, hi⟩, ?_⟩
      intro p' hi' i hlt
      obtain rfl : p = p' := Except.ok.inj (hi.symm.trans hi')
      rcases h'' with ⟨hq, -⟩ | ⟨-, res, k, t, m, sv, out, e1, -⟩
      · rw [(quit_bool ha false).2 hquit] at hq; cases hq
      · exact ⟨_, e1 i (by rw [(hinit.2.2 p hi).1]; exact hlt)⟩
  · rintro ⟨hW, hWn, h2, hall⟩
    obtain ⟨p, hi⟩ := hinit.1.2 h2
    obtain ⟨cfg, hst⟩ := start_ok ha hi
    have : ∀ i, ∃ F, i < points ds → evalPoint w.L (w.gsl i) r p i = .ok F := by
      intro i
      by_cases h : i < points ds
      · obtain ⟨F, hF⟩ := hall p hi i h
        exact ⟨F, fun _ => hF⟩
      · exact ⟨⟨0, 0, fun _ => 0, fun _ => []⟩, fun h' => absurd h' h⟩
    choose res hres using this
    obtain ⟨-, ⟨k, t, hk, hfin⟩, -⟩ := main cfg p res hst hW hWn hres 0 _ .refl
    obtain ⟨-, -, hend⟩ := main cfg p res hst hW hWn hres k t hk
    obtain ⟨_, _, _, files, _, _, h⟩ := hend fun v u => Mpi.Finished.no_step hfin
    exact ⟨_, files, h⟩

end

/-! ## Examples -/

open Qsc.OptRun (exGsl exRaw ex_params ex_natural)
open Qsc.MultiOptRun (exMulti exRaw1 ex_params1)
open Qsc.Spec.ScanParams (Concerns Names)

/-- The two stages of `exMulti` with two values of the weight of the second one. -/
noncomputable def exGrid : Sections.File ℝ :=
  exMulti ++ [("multiopt_scan", [("params", .arr [.str "weight_B20"]), ("params_min", .arr [.flt 1]),
    ("params_max", .arr [.flt 4]), ("params_n", .arr [.int 2]), ("params_stage", .arr [.int 1]),
    ("params_log", .arr [.bool false])])]

/-- The scanned parameter of the example. -/
def exDim : List Scanned := [⟨"weight_B20", 1, false, 1, 4, 2⟩]

theorem exGrid_wellFormed : Spec.Sections.WellFormed exGrid := by
  refine ⟨by simp [exGrid, exMulti, Single.exFile], ?_⟩
  simp [exGrid, exMulti, Single.exFile]

theorem exGrid_read : ∃ r a b, Accepted exLib.lit exLib.single exGrid r ∧ r.ref.opts = [a, b] ∧
    a.q = exInput "r2.1" 20 ∧ b.q = exInput "r2.1" 20 ∧ IsRaw a.mem exRaw ∧ IsRaw b.mem exRaw1 ∧
    a.mem "weight_B20" = some (.flt 2) ∧ IsScanned r.mem exDim ∧ r.mem "quit_after_init" = some (.bool false) ∧
    r.mem "keep_all" = some (.bool true) := by
  refine ⟨_, _, _, ⟨exGrid_wellFormed, rfl⟩, rfl, rfl, rfl, ⟨rfl, rfl, rfl, rfl, rfl, rfl, rfl, rfl, rfl, rfl, rfl⟩,
    ⟨rfl, rfl, rfl, rfl, rfl, rfl, rfl, rfl, rfl, rfl, rfl⟩, rfl, ⟨rfl, rfl, rfl, rfl, rfl, rfl⟩, rfl, rfl⟩

theorem exDim_points : points exDim = 2 := by decide

theorem exDim_positive : Positive exDim := by
  intro d hd
  simp only [exDim, List.mem_singleton] at hd
  subst hd
  simp

theorem exDim_scannable : ∀ d ∈ exDim, Scannable 2 2 d := by
  intro d hd
  simp only [exDim, List.mem_singleton] at hd
  subst hd
  exact ⟨by norm_num, Or.inl (by simp [Spec.ScanParams.settings])⟩

/-- The weight at the two grid points. -/
theorem exDim_value (i : Nat) : pointValue exDim i 0 ⟨"weight_B20", 1, false, 1, 4, 2⟩ = if i % 2 = 0 then 1 else 4 := by
  have h : coordinate exDim 0 i 2 = i % 2 := by simp [coordinate, exDim, points]
  have e : (2 : Int).toNat = 2 := rfl
  simp only [pointValue, e, h, Bool.false_eq_true, if_false]
  rcases Nat.mod_two_eq_zero_or_one i with h | h <;> simp [h] <;> norm_num

theorem exDim_setting {nm i j : Nat} {a v : ℝ} (h : Setting nm exDim i j (.num "weight_B20") a v) :
    v = if j = 1 then (if i % 2 = 0 then 1 else 4) else a := by
  have hn : Names nm "weight_B20" (.num "weight_B20") := Names.setting _ (by simp [Spec.ScanParams.settings])
  rcases h with ⟨k, d, e1, ⟨e2, -⟩, -, e4⟩ | ⟨e1, e2⟩
  · match k, e1 with
    | 0, e1 =>
      obtain rfl : _ = d := by simpa [exDim] using e1
      rw [exDim_value] at e4
      have : j = 1 := by simpa [Concerns, eq_comm] using e2
      rw [if_pos this, e4]
    | k + 1, e1 => simp [exDim] at e1
  · rw [if_neg, e2]
    intro hj
    subst hj
    exact e1 ⟨"weight_B20", 1, false, 1, 4, 2⟩ (by simp [exDim]) ⟨by simp [Concerns], hn⟩

/-- A positive weight of `B20` gives at least as many residuals as grid points. -/
theorem ex_many {w : OptResid.Weights ℝ} (hw : 0 < w.B20) (n : Nat) (es : List (Spec.OptResid.Block × Nat))
    (h : Spec.OptResid.Entries realRes w n es) : n ≤ es.length := by
  have hsub : (List.range n).map (fun i => (Spec.OptResid.Block.B20, i)) ⊆ es := by
    intro e he
    obtain ⟨i, hi, rfl⟩ := List.mem_map.1 he
    refine (h.mem _ _).2 ⟨by simpa [realRes, Spec.OptResid.Block.weight] using hw, ?_⟩
    rw [List.mem_range] at hi
    simpa [Spec.OptResid.Block.size, Spec.OptResid.Block.single, Spec.OptResid.Block.comps] using hi
  have := (List.subperm_of_subset (List.Nodup.map (fun a b h => by simpa using h) List.nodup_range) hsub).length_le
  simpa using this

theorem exGrid_natural {r : Sections.MultiScanObj ℝ} {a b : Sections.OptObj ℝ} (h2 : r.ref.opts = [a, b])
    (h3 : a.q = exInput "r2.1" 20) (h4 : b.q = exInput "r2.1" 20) (h5 : IsRaw a.mem exRaw) (h6 : IsRaw b.mem exRaw1) :
    NaturalSizes r.ref.opts := by
  intro o ho
  rw [h2] at ho
  simp only [List.mem_cons, List.not_mem_nil, or_false] at ho
  rcases ho with rfl | rfl
  · refine ⟨by rw [h3]; simp [exInput], fun s hs => ?_⟩
    obtain rfl := Pipeline.isRaw_unique h5 hs
    exact ⟨ex_natural, by simp [exRaw]⟩
  · refine ⟨by rw [h4]; simp [exInput], fun s hs => ?_⟩
    obtain rfl := Pipeline.isRaw_unique h6 hs
    exact ⟨⟨by decide, by decide, by simp [exRaw1]⟩, by simp [exRaw1]⟩

/-- Every grid point of the example has results. -/
theorem exGrid_point {r : Sections.MultiScanObj ℝ} {a b : Sections.OptObj ℝ} {p : Plan}
    (ha : Accepted exLib.lit exLib.single exGrid r) (h2 : r.ref.opts = [a, b])
    (h3 : a.q = exInput "r2.1" 20) (h4 : b.q = exInput "r2.1" 20) (h5 : IsRaw a.mem exRaw) (h6 : IsRaw b.mem exRaw1)
    (h7 : a.mem "weight_B20" = some (.flt 2)) (h8 : IsScanned r.mem exDim) (hi : MultiScanPipeline.init r = .ok p) (i : Nat) :
    ∃ F, evalPoint exLib (fun _ => exGsl) r p i = .ok F := by
  rcases point_completes (L := exLib) (gsl := fun _ => exGsl) exLiterals rfl rfl ha (exGrid_natural h2 h3 h4 h5 h6) h8
    exDim_positive hi (q := exInput "r2.1" 20)
    (by
      intro o ho
      rw [h2] at ho
      simp only [List.mem_cons, List.not_mem_nil, or_false] at ho
      rcases ho with rfl | rfl
      · exact h3
      · exact h4)
    (by simp [exInput]) rfl (by rw [h2]; exact exDim_scannable) (ss := [exRaw, exRaw1])
    (by rw [h2]; exact .cons h5 (.cons h6 .nil))
    (by
      intro s hs
      simp only [List.mem_cons, List.not_mem_nil, or_false] at hs
      rcases hs with rfl | rfl
      · exact ⟨by decide, .etaBar, rfl⟩
      · exact ⟨by decide, .etaBar, rfl⟩) i
    (by
      intro j o o' s w N e1 e2 e3 e4 e5
      obtain ⟨x, v, x1, x2, x3⟩ := e2.settings "weight_B20" (by simp [Spec.ScanParams.settings])
      have hB : w.B20 = v := by
        have := e4 "weight_B20" w.B20 (by simp [weightKeys])
        rw [this] at x2
        simpa using x2
      have hv := exDim_setting x3
      rw [h2] at e1
      match j, e1, e3 with
      | 0, e1, e3 =>
        obtain rfl : a = o := by simpa using e1
        obtain rfl : exRaw = s := by simpa using e3
        subst e5
        have hpos : 0 < w.B20 := by
          rw [h7] at x1
          have : (2 : ℝ) = x := by simpa using x1
          rw [hB, hv, ← this]
          norm_num
        refine ⟨rfl, rfl, rfl, rfl, ⟨.B20, hpos⟩, ?_⟩
        intro n k ps es g1 g2 g3 g4 g5
        cases g1
        have hgrid : gridAt (exRaw.nphis.map Int.toNat) (exInput "r2.1" 20).nphi.toNat k = 21 := by
          simp [exRaw, gridAt, exInput]
        rw [hgrid] at g5
        exact (ex_params k g2 ps g3 g4).trans ((by decide : 5 ≤ 21).trans (ex_many hpos 21 es g5))
      | 1, e1, e3 =>
        obtain rfl : b = o := by simpa using e1
        obtain rfl : exRaw1 = s := by simpa using e3
        subst e5
        have hpos : 0 < w.B20 := by
          rw [hB, hv, if_pos rfl]
          split <;> norm_num
        refine ⟨rfl, rfl, rfl, rfl, ⟨.B20, hpos⟩, ?_⟩
        intro n k ps es g1 g2 g3 g4 g5
        obtain rfl : k = 0 := by simpa [exRaw1] using g2
        have hgrid : gridAt (exRaw1.nphis.map Int.toNat) n 0 = 51 := by simp [exRaw1, gridAt]
        rw [hgrid] at g5
        exact (ex_params1 ps g3 g4).trans ((by decide : 3 ≤ 51).trans (ex_many hpos 51 es g5))
      | j + 2, e1, _ => simp at e1)
    with h | ⟨-, n, a, b, h⟩ | ⟨-, a, h⟩
  · exact h
  · cases h
  · cases h

/-- Two workers, any times and any checkpoints. -/
noncomputable def exWorld (m0 : Mem ℝ) (save : Nat → Bool) (time : Nat → ℝ) : World 2 :=
  ⟨exLib, fun _ _ => exGsl, m0, 0, save, time, fun _ _ _ => True⟩

/-- The scan ends with its file.  Whatever was saved before, the last contents have the two grid points in order, each with
its weight. -/
theorem exGrid_ends (m0 : Mem ℝ) (save : Nat → Bool) (time : Nat → ℝ) : ∃ files f,
    Ends (exWorld m0 save time) "dir/qsc_in.torus".toList exGrid "dir/qsc_out.torus.nc".toList (files ++ [f]) ∧
    Integer f "n_scan" 2 ∧ Integer f "attempts" 2 ∧ Integer f "sG" 1 ∧
    Spec.ScanRun.Column f 2 "scan_weight_B20" 0 1 ∧ Spec.ScanRun.Column f 2 "scan_weight_B20" 1 4 := by
  obtain ⟨r, a, b, ha, h2, h3, h4, h5, h6, h7, h8, h9, h10⟩ := exGrid_read
  have hs := exGrid_natural h2 h3 h4 h5 h6
  obtain ⟨name, files, h⟩ := (scan_ends (w := exWorld m0 save time) exLiterals rfl ha exGrid_wellFormed hs h8
    exDim_positive h9 ex_path (Or.inl fun _ _ => trivial)).1.2
    ⟨by decide, by rw [exDim_points], by simp [exDim], fun p hp i _ => exGrid_point ha h2 h3 h4 h5 h6 h7 h8 hp i⟩
  obtain ⟨dir, ext, q, nm, g1, g2, g3, g4, g5, g6⟩ := scan_file (w := exWorld m0 save time) (r := r) (ds := exDim) exLiterals rfl
    exGrid_wellFormed ha.read hs h8 exDim_positive h
  rcases g6 with ⟨g6, -⟩ | ⟨-, -, -, pts, arr, saved, f, k1, k2, k3, k4, k5⟩
  · rw [h9] at g6; cases g6
  rw [exDim_points] at k1 k5
  subst k3
  have hname : name = "dir/qsc_out.torus.nc".toList :=
    (Except.ok.inj (h.name.symm.trans (Outfile.outfile_ok _ _ _ ex_path))).trans (by decide)
  have hkept : Spec.MultiScanRun.kept r.mem pts 2 (List.range 2) = [0, 1] := by
    unfold Spec.MultiScanRun.kept
    rw [List.filter_eq_self.2]
    · decide
    · intro i hi
      simp only [decide_eq_true_eq]
      exact ⟨hi, Or.inl h10⟩
  have hrec := k5.records
  have hc := k5.counts
  rw [hkept] at hrec hc
  have row : ∀ i, i < 2 → ([0, 1] : List Nat)[i]? = some i →
      Spec.ScanRun.Column f 2 "scan_weight_B20" i (if i % 2 = 0 then 1 else 4) := by
    intro i hi hk
    have P := k1 i hi
    obtain ⟨o, ho⟩ : ∃ o, (pts i).os.getLast? = some o := by
      cases hos : (pts i).os with
      | nil => have := P.stages.1; rw [hos, h2] at this; cases this
      | cons x l => exact ⟨_, List.getLast?_cons⟩
    obtain ⟨x, hx, hcol⟩ := (hrec i i hk).settings o ho ("scan_weight_B20", "weight_B20")
      (by simp [Spec.MultiScanRun.settingRows])
    have hidx : (pts i).os[1]? = some o := by
      have := MultiScanPipeline.getLast_index _ _ ho
      rw [P.stages.1, h2] at this
      exact this
    obtain ⟨y, v, -, hv, hset⟩ := (P.stages.2 1 b o (by rw [h2]; rfl) hidx).settings "weight_B20"
      (by simp [Spec.ScanParams.settings])
    have : v = x := by rw [hv] at hx; simpa using hx
    rw [← this, exDim_setting hset, if_pos rfl] at hcol
    exact hcol
  have hq : q.sG = 1 := by
    rw [← g3 a (by rw [h2]; simp), h3]
    rfl
  refine ⟨saved, f, hname ▸ h, hc.n_scan, hc.attempts, hq ▸ k5.settings.integers ("sG", q.sG) (by simp), ?_, ?_⟩
  · simpa using row 0 (by decide) rfl
  · simpa using row 1 (by decide) rfl

/-- Three workers for two grid points: no output file. -/
example (w : World 3) (hL : w.L = exLib) (path name : List Char) (files : List (Netcdf.File ℝ)) :
    ¬ Ends w path exGrid name files := by
  obtain ⟨r, a, b, ha, h2, h3, h4, h5, h6, h7, h8, h9, h10⟩ := exGrid_read
  intro h
  obtain ⟨_, _, _, _, _, _, _, _, _, h' | ⟨-, -, h', -⟩⟩ := scan_file (w := w) (by rw [hL]; exact exLiterals) (by rw [hL]; rfl)
    exGrid_wellFormed (by rw [hL]; exact ha.read) (exGrid_natural h2 h3 h4 h5 h6) h8 exDim_positive h
  · rw [h9] at h'; cases h'.1
  · rw [exDim_points] at h'; omega

end Qsc.MultiScanRun
