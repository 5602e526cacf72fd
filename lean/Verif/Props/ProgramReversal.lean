import Verif.Spec.ProgramReversal
import Verif.Props.GridReversal
import Verif.Props.Program
import Verif.Props.StagesReversal

/-!
# The program with the opposite field (C110)
-/

namespace Qsc.ProgramReversal
open Qsc.Toml Qsc.Single Qsc.Spec.Single Qsc.Spec.Reversal Qsc.Spec.Program Qsc.Spec.ProgramReversal Qsc.Program Qsc.Spec.Pipeline
open Qsc.Sections (OptObj)

theorem ebind {ε α β : Type} (x : Except ε α) (f : α → Except ε β) (b : β) :
    x.bind f = .ok b ↔ ∃ a, x = .ok a ∧ f a = .ok b := by
  cases x <;> simp [Except.bind]

theorem group_ne (j : Nat) : Sections.groupName j ≠ "qsc" := by
  intro h
  have := congrArg (fun s : String => s.toList.head?) h
  simp [Sections.groupName] at this

/-! ## Reading the two files -/

section
variable {f f' : Sections.File ℝ} {q q' : QscIn ℝ} {ofInt : Int → ℝ}

theorem opt_turn {d o : OptObj ℝ} (hs : Sections.findSection f' d.group = Sections.findSection f d.group)
    (h1 : Sections.inputQsc ofInt 0 f d.q = .ok q) (h2 : Sections.inputQsc ofInt 0 f' d.q = .ok q')
    (hR : q'.R0c.length = q.R0c.length) (h : Sections.optInput ofInt 0 f d = .ok o) :
    o.q = q ∧ Sections.optInput ofInt 0 f' d = .ok ⟨q', o.group, o.mem⟩ := by
  unfold Sections.optInput at h ⊢
  simp only [ebind] at h ⊢
  obtain ⟨q1, e1, o1, e2, t, e3, s, e4, u, e5, a, e6, o2, e7, m, e8, o3, e9, v, e10, e11⟩ := h
  obtain rfl := Except.ok.inj (e1.symm.trans h1)
  cases e11
  exact ⟨rfl, q', h2, o1, by rw [hR]; exact e2, t, by rw [hs]; exact e3, s, e4, u, e5, a, e6, o2, e7, m, e8, o3, e9, v, e10,
    rfl⟩

theorem scan_turn {d r : Sections.ScanObj ℝ} (hs : Sections.findSection f' "scan" = Sections.findSection f "scan")
    (h1 : Sections.inputQsc ofInt 0 f d.q = .ok q) (h2 : Sections.inputQsc ofInt 0 f' d.q = .ok q')
    (h : Sections.scanInput ofInt 0 f d = .ok r) :
    r.q = q ∧ Sections.scanInput ofInt 0 f' d = .ok ⟨q', r.mem⟩ := by
  unfold Sections.scanInput at h ⊢
  simp only [ebind] at h ⊢
  obtain ⟨q1, e1, t, e3, s, e4, u, e5, n, e6, o, e7, e8⟩ := h
  obtain rfl := Except.ok.inj (e1.symm.trans h1)
  cases e8
  exact ⟨rfl, q', h2, t, by rw [hs]; exact e3, s, e4, u, e5, n, e6, o, e7, rfl⟩

theorem stages_turn {new : OptObj ℝ} (hs : ∀ s, s ≠ "qsc" → Sections.findSection f' s = Sections.findSection f s)
    (h1 : Sections.inputQsc ofInt 0 f new.q = .ok q) (h2 : Sections.inputQsc ofInt 0 f' new.q = .ok q')
    (hu : Opposite q q') : ∀ {n j : Nat} {os : List (OptObj ℝ)}, Sections.readStages ofInt 0 f new j n = .ok os →
    ∃ os', Sections.readStages ofInt 0 f' new j n = .ok os' ∧
      List.Forall₂ (fun o o' : OptObj ℝ => o'.mem = o.mem ∧ Opposite o.q o'.q) os os' := by
  have hR : q'.R0c.length = q.R0c.length := by rw [show q' = _ from hu]
  intro n
  induction n with
  | zero =>
    intro j os h
    cases h
    exact ⟨[], rfl, .nil⟩
  | succ n ih =>
    intro j os h
    unfold Sections.readStages at h ⊢
    simp only [ebind] at h ⊢
    obtain ⟨o, e1, os1, e2, e3⟩ := h
    cases e3
    obtain ⟨k1, k2⟩ := opt_turn (d := ⟨new.q, Sections.groupName j, _⟩) (hs _ (group_ne j)) h1 h2 hR e1
    obtain ⟨os', k3, k4⟩ := ih e2
    exact ⟨_, ⟨_, k2, _, k3, rfl⟩, .cons ⟨rfl, by rw [k1]; exact hu⟩ k4⟩

theorem multiopt_turn {new : OptObj ℝ} {d r : Sections.MultiOptObj ℝ}
    (hs : ∀ s, s ≠ "qsc" → Sections.findSection f' s = Sections.findSection f s)
    (h1 : Sections.inputQsc ofInt 0 f new.q = .ok q) (h2 : Sections.inputQsc ofInt 0 f' new.q = .ok q')
    (hu : Opposite q q') (h : Sections.multioptInput ofInt 0 f new d = .ok r) :
    ∃ r', Sections.multioptInput ofInt 0 f' new d = .ok r' ∧
      List.Forall₂ (fun o o' : OptObj ℝ => o'.mem = o.mem ∧ Opposite o.q o'.q) r.opts r'.opts := by
  unfold Sections.multioptInput at h ⊢
  rw [hs _ (by decide)]
  simp only [ebind] at h ⊢
  obtain ⟨t, e1, s, e2, u, e3, e4⟩ := h
  split at e4
  · rename_i n hn
    split at e4
    · cases e4
    · rename_i hn1
      rw [ebind] at e4
      obtain ⟨os, e5, e6⟩ := e4
      cases e6
      obtain ⟨os', k1, k2⟩ := stages_turn hs h1 h2 hu e5
      refine ⟨⟨os', s.1⟩, ⟨t, e1, s, e2, u, e3, ?_⟩, k2⟩
      rw [hn]
      dsimp only
      rw [if_neg hn1, k1]
      rfl
  · cases e4

theorem multiscan_turn {new : OptObj ℝ} {d r : Sections.MultiScanObj ℝ}
    (hs : ∀ s, s ≠ "qsc" → Sections.findSection f' s = Sections.findSection f s)
    (h1 : Sections.inputQsc ofInt 0 f new.q = .ok q) (h2 : Sections.inputQsc ofInt 0 f' new.q = .ok q')
    (hu : Opposite q q') (h : Sections.multiScanInput ofInt 0 f new d = .ok r) :
    ∃ r', Sections.multiScanInput ofInt 0 f' new d = .ok r' ∧ r'.mem = r.mem ∧
      List.Forall₂ (fun o o' : OptObj ℝ => o'.mem = o.mem ∧ Opposite o.q o'.q) r.ref.opts r'.ref.opts := by
  unfold Sections.multiScanInput at h ⊢
  simp only [ebind] at h ⊢
  obtain ⟨mo, e1, t, e2, s, e3, u, e4, n, e5, v, e6, e7⟩ := h
  cases e7
  obtain ⟨mo', k1, k2⟩ := multiopt_turn hs h1 h2 hu e1
  exact ⟨_, ⟨mo', k1, t, by rw [hs _ (by decide)]; exact e2, s, e3, u, e4, n, e5, v, e6, rfl⟩, rfl, k2⟩

end

theorem bounds {file : Sections.File ℝ} (hf : Spec.Sections.WellFormed file) (hm : Moderate file) {d o : OptObj ℝ}
    {s : Pipeline.Raw} (hg : d.group ≠ "qsc") (h0 : d.mem "fourier_refine" = some (.int 0))
    (h1 : d.mem "nphi" = some (.ints [])) (hi : Sections.optInput (fun i => (i : ℝ)) 0 file d = .ok o)
    (hr : IsRaw o.mem s) : s.refine < 2 ^ 31 ∧ s.nphis.length < 2 ^ 63 := by
  obtain ⟨-, -, -, t, ht, H⟩ := (Sections.optInput_iff _ 0 file hf d o).1 hi
  obtain ⟨m1, m2⟩ := hm _ ht hg
  constructor
  · obtain ⟨a1, a2⟩ := H.member .int "fourier_refine" (by simp [Spec.Sections.optDoc, Spec.Sections.Doc.Has])
    by_cases hx : ∃ x, ("fourier_refine", x) ∈ t
    · obtain ⟨x, hx⟩ := hx
      obtain ⟨v, ⟨i, rfl, rfl⟩, e2⟩ := a2 x hx
      rw [hr.refine] at e2
      cases e2
      exact m1 _ hx
    · have e := a1 fun x h => hx ⟨x, h⟩
      have e : o.mem "fourier_refine" = d.mem "fourier_refine" := e
      rw [hr.refine, h0] at e
      injection e with e
      injection e with e
      omega
  · obtain ⟨a1, a2⟩ := H.member .ints "nphi" (by simp [Spec.Sections.optDoc, Spec.Sections.Doc.Has])
    by_cases hx : ∃ x, ("nphi", x) ∈ t
    · obtain ⟨x, hx⟩ := hx
      obtain ⟨v, ⟨l, rfl, rfl⟩, e2⟩ := a2 x hx
      rw [hr.nphis] at e2
      cases e2
      simpa using m2 _ hx
    · have e := a1 fun x h => hx ⟨x, h⟩
      have e : o.mem "nphi" = d.mem "nphi" := e
      rw [hr.nphis, h1] at e
      injection e with e
      injection e with e
      simp [e]

theorem option_turn {d d' : Doc} (hr : d'.root = d.root)
    (ho : d'.sections.lookup "general_option" = d.sections.lookup "general_option") :
    generalOption d' = generalOption d := by
  have e : ∀ l : Sections.File ℝ, (l.any fun s => s.1 == "general_option") = (l.lookup "general_option").isSome := by
    intro l
    rw [← find_lookup, Option.isSome_map, Bool.eq_iff_iff]
    simp
  unfold generalOption
  rw [e, e, ho, hr]

/-! ## The program -/

section
variable {N : Nat} {e : Env N} {argc : Nat} {path : List Char} {d d' : Doc} {status : Nat}
  {outs : List (List Char × Netcdf.File ℝ)} {q q' : QscIn ℝ}

/-- **C110.** The program is called for two input files that differ in the direction of the field only, with the same
libraries, random numbers and clocks.  Whatever calculation the files ask for: if the first call can end with these files
written one after the other, then the second call can end with the same return value and as many files with the same
names, in which the field has the opposite direction and nothing else is different. -/
theorem program_opposite (ho : e.L.ops = realOps) (hl : Literals e.L.lit) (hL : e.scan.L = e.L) (hL' : e.multi.L = e.L)
    (hu : OppositeFiles e.L.single d d' q q')
    (hb : Moderate d.sections)
    (h : Ends e argc path d status outs) :
    ∃ outs', Ends e argc path d' status outs' ∧
      List.Forall₂ (fun x x' => x'.1 = x.1 ∧ ∀ g, Asks d g → Corresponds g q.order_r_option x.2 x'.2) outs outs' := by
  have hact : action argc d' = action argc d := by
    unfold action
    rw [option_turn hu.root (hu.others _ (by decide))]
  have hs : ∀ s, s ≠ "qsc" → Sections.findSection d'.sections s = Sections.findSection d.sections s :=
    fun s h => findSection_congr (hu.others s h)
  have h1 := (input_iff hl e.L.single hu.wf q).2 hu.input
  have h2 := (input_iff hl e.L.single hu.wf' q').2 hu.input'
  have hR : q'.R0c.length = q.R0c.length := by rw [show q' = _ from hu.opposite]
  cases h with
  | usage h => exact ⟨[], .usage (hact.trans h), .nil⟩
  | @single name r f h hr =>
    obtain ⟨dir, ext, hp, hn⟩ : ∃ dir ext, Outfile.IsInputPath path dir ext ∧
        name = dir ++ "qsc_out.".toList ++ ext ++ ".nc".toList := by
      have hE : Ends e argc path d 0 [(name, f)] := .single h hr
      obtain ⟨dir, ext, hp, hx⟩ := output_files hE (action_run h).2
      have := (hx _ (List.mem_singleton.mpr rfl)).1
      exact ⟨dir, ext, hp, by simpa [OutputName, Setup.jobName] using this⟩
    obtain ⟨r', f', hr'⟩ := Reversal.ends_opposite ho hl e.m0 hu.wf hu.wf' hr hp hu.input hu.input' hu.opposite
    rw [← hn] at hr'
    obtain ⟨-, H⟩ := Reversal.same_opposite ho hl hu.wf hu.wf' hr hr' hu.input hu.input' hu.opposite
    refine ⟨_, .single (hact.trans h) hr', .cons ⟨rfl, fun g hg => ?_⟩ .nil⟩
    obtain rfl := asks_unique hg (action_run h).2
    exact H
  | @random name files h hr =>
    obtain ⟨r, hi⟩ : ∃ r, Sections.scanInput (fun i => (i : ℝ)) 0 d.sections
        (Pipeline.scanNew e.scan.L.lit e.scan.L.single) = .ok r := by
      obtain ⟨-, r, -, -, -, -, -, -, k, -⟩ := hr
      exact ⟨r, k⟩
    obtain ⟨k1, k2⟩ := scan_turn (q := q) (q' := q') (hs _ (by decide)) (by rw [hL]; exact h1) (by rw [hL]; exact h2) hi
    obtain ⟨files', k3, k4⟩ := ScanReversal.scan_opposite (by rw [hL]; exact ho) hi k2 rfl
      (by rw [k1]; exact hu.opposite) hr
    refine ⟨_, .random (hact.trans h) k3, ?_⟩
    rw [List.forall₂_map_left_iff, List.forall₂_map_right_iff]
    refine k4.imp fun x x' k => ⟨rfl, fun g hg => ?_⟩
    obtain rfl := asks_unique hg (action_run h).2
    exact k
  | @opt name st f h hr =>
    obtain ⟨o, -, -, -, -, -, hi, -⟩ := OptRun.unpack hr
    obtain ⟨s, -, hs1⟩ := Pipeline.rawOf_typed
      ((Pipeline.initialised (fun i => (i : ℝ)) 0 e.L.lit e.L.single d.sections hu.wf).1 o hi)
    obtain ⟨b1, b2⟩ := bounds hu.wf hb (show "opt" ≠ "qsc" by decide) rfl rfl hi hs1
    obtain ⟨k1, k2⟩ := opt_turn (hs "opt" (by decide)) h1 h2 hR hi
    obtain ⟨st', f', k3, -, -, k4, k5⟩ := OptReversal.opt_opposite (m0' := e.m0) (m1' := e.m1) ho hl hu.wf hu.wf' hi k2 rfl
      (by rw [k1]; exact hu.opposite) hs1 b1 b2 hr
    refine ⟨_, .opt (hact.trans h) k3, .cons ⟨rfl, fun g hg => ?_⟩ .nil⟩
    obtain rfl := asks_unique hg (action_run h).2
    exact ⟨k4, k5⟩
  | @multiopt out total h hr =>
    obtain ⟨r, hi⟩ : ∃ r, Sections.multioptInput (fun i => (i : ℝ)) 0 d.sections (Pipeline.optNew e.L.lit e.L.single)
        Pipeline.multioptNew = .ok r := by
      unfold MultiOptRun.run at hr
      split at hr
      · cases hr
      · split at hr
        · cases hr
        · exact ⟨_, by assumption⟩
    obtain ⟨r', k1, k2⟩ := multiopt_turn hs h1 h2 hu.opposite hi
    have hsm : ∀ o ∈ r.opts, ∀ s, IsRaw o.mem s → s.refine < 2 ^ 31 ∧ s.nphis.length < 2 ^ 63 := by
      intro o ho s hr
      obtain ⟨-, -, -, -, -, -, -, hst⟩ := (Sections.multioptInput_iff (fun i => (i : ℝ)) 0 d.sections hu.wf _ _ r).1 hi
      obtain ⟨i, hio⟩ := List.getElem?_of_mem ho
      exact bounds hu.wf hb (group_ne i) rfl rfl (hst i o hio) hr
    obtain ⟨out', k3, k4⟩ := StagesReversal.stages_opposite (m0' := e.stageM0) (m1' := e.stageM1) ho hl hu.wf hu.wf' hi k1 k2
      hsm hr
    refine ⟨_, .multiopt (hact.trans h) k3, ?_⟩
    rw [List.forall₂_map_left_iff, List.forall₂_map_right_iff]
    refine k4.imp fun x x' k => ⟨k.1, fun g hg => ?_⟩
    obtain rfl := asks_unique hg (action_run h).2
    exact k.2.2.2
  | @multioptScan name files h hr =>
    obtain ⟨r, hi⟩ : ∃ r, Sections.multiScanInput (fun i => (i : ℝ)) 0 d.sections
        (Pipeline.optNew e.multi.L.lit e.multi.L.single) (Pipeline.multiScanNew e.multi.L.lit) = .ok r := by
      obtain ⟨-, r, cfg, p, k, -⟩ := hr
      unfold MultiScanPipeline.start at k
      rw [ebind] at k
      obtain ⟨r, k, -⟩ := k
      cases hx : Sections.multiScanInput (fun i => (i : ℝ)) 0 d.sections
        (Pipeline.optNew e.multi.L.lit e.multi.L.single) (Pipeline.multiScanNew e.multi.L.lit) with
      | error x => rw [hx] at k; cases k
      | ok r => exact ⟨r, rfl⟩
    obtain ⟨r', k1, k2, k3⟩ := multiscan_turn (q := q) (q' := q') hs (by rw [hL']; exact h1) (by rw [hL']; exact h2)
      hu.opposite hi
    obtain ⟨files', k4, k5⟩ := GridReversal.grid_opposite (by rw [hL']; exact ho) hi k1 k2 k3 hr
    refine ⟨_, .multioptScan (hact.trans h) k4, ?_⟩
    rw [List.forall₂_map_left_iff, List.forall₂_map_right_iff]
    refine k5.imp fun x x' k => ⟨rfl, fun g hg => ?_⟩
    obtain rfl := asks_unique hg (action_run h).2
    exact k

theorem files_symm {single : Bool} (hu : OppositeFiles single d d' q q') : OppositeFiles single d' d q' q :=
  ⟨hu.wf', hu.wf, hu.root.symm, fun s h => (hu.others s h).symm, hu.input', hu.input, OptReversal.opposite_symm hu.opposite⟩

/-- **C110.** The program can end for one of the two input files if and only if it can for the other one, with the same
return value. -/
theorem program_ends_iff (ho : e.L.ops = realOps) (hl : Literals e.L.lit) (hL : e.scan.L = e.L) (hL' : e.multi.L = e.L)
    (hu : OppositeFiles e.L.single d d' q q')
    (hb : Moderate d.sections) :
    (∃ outs, Ends e argc path d status outs) ↔ ∃ outs, Ends e argc path d' status outs := by
  constructor
  · rintro ⟨outs, h⟩
    obtain ⟨outs', h', -⟩ := program_opposite ho hl hL hL' hu hb h
    exact ⟨outs', h'⟩
  · rintro ⟨outs, h⟩
    have hb' : Moderate d'.sections := by
      intro x hx hq
      have h1 := (Sections.findSection_iff hu.wf'.1 x.1 x.2).2 hx
      rw [findSection_congr (hu.others x.1 hq)] at h1
      exact hb x ((Sections.findSection_iff hu.wf.1 x.1 x.2).1 h1) hq
    obtain ⟨outs', h', -⟩ := program_opposite ho hl hL hL' (files_symm hu) hb' h
    exact ⟨outs', h'⟩

end

/-! ## An example -/

/-- The input file `exPlain "opt"` with the opposite field. -/
noncomputable def exOppositeDoc : Doc := ⟨[("general_option", .str "opt")], OptReversal.exOppositeOpt⟩

theorem exOppositeFiles : OppositeFiles exLib.single (exPlain "opt") exOppositeDoc (exInput "r2.1" 20)
    Reversal.exOppositeInput := by
  refine ⟨OptRun.exOptWell 1, OptReversal.exOppositeOptWell, rfl, fun s h => ?_, ?_, ?_, Reversal.exOpposite⟩
  · have hq : (s == "qsc") = false := by simpa using h
    simp only [exOppositeDoc, exPlain, OptReversal.exOppositeOpt, Reversal.exOppositeFile, OptRun.exOptFile, Single.exFile,
      List.cons_append, List.nil_append, List.lookup_cons, hq]
  · change Input exLib.single (OptRun.exOptFile 1) _
    rw [← input_iff exLiterals _ (OptRun.exOptWell 1), defaults_eq exLiterals]
    rfl
  · change Input exLib.single OptReversal.exOppositeOpt _
    rw [← input_iff exLiterals _ OptReversal.exOppositeOptWell, defaults_eq exLiterals]
    rfl

theorem exModerate : Moderate (exPlain "opt").sections := by
  intro x hx hq
  simp only [exPlain, OptRun.exOptFile, Single.exFile, List.cons_append, List.nil_append, List.mem_cons, List.not_mem_nil,
    or_false] at hx
  rcases hx with rfl | rfl
  · exact absurd rfl hq
  · simp

/-- The program ends for both files, with the same history and with opposite `G0`. -/
example {N : Nat} (e : Env N) (hL : e.L = exLib) (hG : e.gsl = OptRun.exGsl) (hS : e.scan.L = e.L) (hM : e.multi.L = e.L) :
    ∃ f f', Ends e 2 "dir/qsc_in.torus".toList (exPlain "opt") 0 [("dir/qsc_out.torus.nc".toList, f)] ∧
      Ends e 2 "dir/qsc_in.torus".toList exOppositeDoc 0 [("dir/qsc_out.torus.nc".toList, f')] ∧
      Same f f' "iter_objective_function" ∧ Negated f f' "G0" := by
  obtain ⟨f, h⟩ := ex_ends e hL hG
  have h := (ex_other e _ _ _).1 h
  obtain ⟨outs', h', H⟩ := program_opposite (q := exInput "r2.1" 20) (q' := Reversal.exOppositeInput) (by rw [hL]; rfl)
    (by rw [hL]; exact exLiterals) hS hM (by rw [hL]; exact exOppositeFiles) exModerate h
  obtain ⟨⟨n', f'⟩, l, ⟨k1, k2⟩, k3, rfl⟩ := List.forall₂_cons_left_iff.1 H
  obtain rfl := List.forall₂_nil_left_iff.1 k3
  dsimp only at k1
  subst k1
  have k := k2 "opt" (exPlain_asks "opt")
  simp only [Corresponds, String.reduceEq, if_false, true_or, if_true] at k
  have g := k.2.first ("G0", 1, 1) (by simp [Spec.Scaling.units1])
  simp only [Turned, reversed] at g
  exact ⟨f, f', h, h', k.1.arrays _ (by simp [Spec.OptReversal.history]), by simpa using g⟩

end Qsc.ProgramReversal
