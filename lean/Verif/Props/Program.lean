import Verif.Lemmas.Program
import Verif.Props.Setup
import Verif.Props.OptRun
import Verif.Props.Single

/-!
# The program from an input file to its output files (C96)
-/

namespace Qsc.Program
open Qsc.Netcdf Qsc.Output Qsc.Spec.Netcdf Qsc.Spec.Program Qsc.Setup

/-! ## The choice -/

theorem find_lookup {α : Type} (l : List (String × α)) (k : String) :
    (l.find? fun s => s.1 == k).map (·.2) = l.lookup k := by
  induction l with
  | nil => rfl
  | cons x l ih =>
    obtain ⟨a, b⟩ := x
    by_cases h : a = k
    · subst h
      simp
    · have h1 : (a == k) = false := by simpa using h
      have h2 : (k == a) = false := by simpa using fun e => h e.symm
      rw [List.find?_cons_of_neg (by simp [h]), List.lookup_cons, h2, ih]

theorem option_iff (d : Doc) (g : String) : generalOption d = .ok g ↔ Asks d g := by
  unfold generalOption Asks
  by_cases hs : ∀ s ∈ d.sections, s.1 ≠ "general_option"
  · have hany : (d.sections.any fun s => s.1 == "general_option") = false := by
      rw [List.any_eq_false]
      intro s h
      simpa using hs s h
    rw [hany, if_neg (by simp)]
    unfold Toml.tomlRead Toml.find?
    rw [find_lookup]
    rw [and_iff_right hs]
    cases hl : d.root.lookup "general_option" with
    | none =>
      simp only [reduceCtorEq, true_and, false_or]
      constructor
      · intro h
        injection h with h
        exact h.symm
      · rintro rfl
        rfl
    | some v =>
      simp only [Option.some.injEq, reduceCtorEq, false_and, or_false]
      cases v with
      | str s =>
        constructor
        · intro h
          injection h with h
          rw [← h]
        · intro h
          injection h with h
          rw [h]
          rfl
      | _ =>
        constructor
        · intro h
          cases h
        · intro h
          cases h
  · have hany : (d.sections.any fun s => s.1 == "general_option") = true := by
      simp only [not_forall, not_not] at hs
      obtain ⟨s, h1, h2⟩ := hs
      exact List.any_eq_true.mpr ⟨s, h1, by simpa using h2⟩
    rw [hany, if_pos rfl]
    constructor
    · intro h; cases h
    · intro h; exact absurd h.1 hs

/-- The names of the calculations are those of the manual. -/
theorem job_names (g : String) : g ∈ calculations ↔ ∃ j, g = jobName j := by
  constructor
  · intro h
    simp only [calculations, List.mem_cons, List.not_mem_nil, or_false] at h
    rcases h with rfl | rfl | rfl | rfl | rfl
    · exact ⟨.single, rfl⟩
    · exact ⟨.random, rfl⟩
    · exact ⟨.opt, rfl⟩
    · exact ⟨.multiopt, rfl⟩
    · exact ⟨.multioptScan, rfl⟩
  · rintro ⟨j, rfl⟩
    cases j <;> simp [calculations, jobName]

theorem action_run {argc : Nat} {d : Doc} {j : Job} {m : Bool} (h : action argc d = .ok (.run j m)) :
    argc = 2 ∧ Asks d (jobName j) := by
  unfold action at h
  by_cases ha : argc ≠ 2
  · rw [if_pos ha] at h; cases h
  · rw [if_neg ha] at h
    have ha : argc = 2 := by omega
    refine ⟨ha, ?_⟩
    cases hg : generalOption d with
    | error e => rw [hg] at h; cases h
    | ok g =>
      rw [hg] at h
      injection h with h
      have := (((driver_spec argc (some g)).2.1 ha j m).1 h).1
      rw [← this]
      exact (option_iff d g).1 hg

theorem action_of {d : Doc} {j : Job} (h : Asks d (jobName j)) :
    action 2 d = .ok (.run j (decide (j = .random ∨ j = .multioptScan))) := by
  unfold action
  rw [if_neg (by simp), (option_iff d _).2 h]
  refine congrArg Except.ok ?_
  exact ((driver_spec 2 (some (jobName j))).2.1 rfl j _).2 ⟨rfl, by simp⟩

/-- An input file asks for one calculation. -/
theorem asks_unique {d : Doc} {g g' : String} (h : Asks d g) (h' : Asks d g') : g = g' := by
  have := ((option_iff d g).2 h).symm.trans ((option_iff d g').2 h')
  exact Except.ok.inj this

/-! ## How the program ends -/

section
variable {N : Nat} {e : Env N} {argc : Nat} {path : List Char} {d : Doc} {status : Nat}
  {outs : List (List Char × File ℝ)}

/-- **C96.**  The program returns 1 exactly when it is not called with one argument, and then writes nothing.
Otherwise, if it ends, it returns 0, and the input file asks for one of the five calculations; so an unknown name, or
a setting that is not a string, never leads to an output file. -/
theorem exit_status (h : Ends e argc path d status outs) :
    (status = 1 ∧ argc ≠ 2 ∧ outs = []) ∨ (status = 0 ∧ argc = 2 ∧ ∃ g ∈ calculations, Asks d g) := by
  cases h with
  | usage h =>
    left
    refine ⟨rfl, ?_, rfl⟩
    rintro rfl
    unfold action at h
    rw [if_neg (by simp)] at h
    cases hg : generalOption d with
    | error e => rw [hg] at h; cases h
    | ok g =>
      rw [hg] at h
      injection h with h
      unfold driver at h
      dsimp only at h
      rw [if_neg (by simp)] at h
      split_ifs at h
  | single h _ => exact Or.inr ⟨rfl, (action_run h).1, _, (job_names _).2 ⟨_, rfl⟩, (action_run h).2⟩
  | random h _ => exact Or.inr ⟨rfl, (action_run h).1, _, (job_names _).2 ⟨_, rfl⟩, (action_run h).2⟩
  | opt h _ => exact Or.inr ⟨rfl, (action_run h).1, _, (job_names _).2 ⟨_, rfl⟩, (action_run h).2⟩
  | multiopt h _ => exact Or.inr ⟨rfl, (action_run h).1, _, (job_names _).2 ⟨_, rfl⟩, (action_run h).2⟩
  | multioptScan h _ => exact Or.inr ⟨rfl, (action_run h).1, _, (job_names _).2 ⟨_, rfl⟩, (action_run h).2⟩

/-! ## The files -/

theorem opt_write_text {L : Single.Lib ℝ} {m0 m1 : Mem ℝ} {o : Sections.OptObj ℝ} {w : OptResid.Weights ℝ}
    {t : OptResid.Targets ℝ} {rows : Nat} {st : OptLoop.St ℝ (Single.Result ℝ)} {f : File ℝ}
    (h : OptRun.write L m0 m1 o w t rows st = .ok f) : HasText f "general_option" "single" ∧ (names f).Nodup := by
  unfold OptRun.write at h
  dsimp only at h
  split at h
  · cases h
  split at h
  · cases h
  split at h
  · cases h
  split at h
  · cases h
  rename_i hw
  injection h with h
  subst h
  exact ⟨writeOpt_text hw, writeOpt_nodup hw⟩

theorem stages_text {L : Single.Lib ℝ} {m0 m1 : Nat → Mem ℝ} {q : Toml.QscIn ℝ} :
    ∀ {os : List (Sections.OptObj ℝ)} {sts : List (OptLoop.St ℝ (Single.Result ℝ))} {j modes : Nat}
      {fs : List (File ℝ)}, MultiOptRun.writeStages L m0 m1 q j modes os sts = .ok fs →
      ∀ f ∈ fs, HasText f "general_option" "single" ∧ (names f).Nodup := by
  intro os
  induction os with
  | nil =>
    intro sts j modes fs h f hf
    unfold MultiOptRun.writeStages at h
    injection h with h
    subst h
    simp at hf
  | cons o os ih =>
    intro sts j modes fs h f hf
    cases sts with
    | nil =>
      unfold MultiOptRun.writeStages at h
      injection h with h
      subst h
      simp at hf
    | cons st sts =>
      unfold MultiOptRun.writeStages at h
      split at h
      · split at h
        · cases h
        split at h
        · cases h
        rename_i f0 hw
        split at h
        · cases h
        rename_i fs0 hr
        injection h with h
        subst h
        rcases List.mem_cons.mp hf with rfl | hf
        · exact opt_write_text hw
        · exact ih hr f hf
      · cases h

theorem mapM_mem {α β ε : Type} {g : α → Except ε β} : ∀ {l : List α} {r : List β}, l.mapM g = .ok r →
    ∀ b ∈ r, ∃ a ∈ l, g a = .ok b := by
  intro l
  induction l with
  | nil =>
    intro r h b hb
    injection h with h
    subst h
    simp at hb
  | cons a l ih =>
    intro r h b hb
    rw [List.mapM_cons] at h
    cases ha : g a with
    | error e => rw [ha] at h; cases h
    | ok x =>
      rw [ha] at h
      cases hl : l.mapM g with
      | error e => rw [hl] at h; cases h
      | ok xs =>
        rw [hl] at h
        injection h with h
        subst h
        rcases List.mem_cons.mp hb with rfl | hb
        · exact ⟨a, List.mem_cons_self, ha⟩
        · obtain ⟨a', h1, h2⟩ := ih hl b hb
          exact ⟨a', List.mem_cons_of_mem _ h1, h2⟩

/-- What is known of a run of `MultiOpt` that ends. -/
theorem multiopt_out {L : Single.Lib ℝ} {gsl : Nat → Nat → (p : Nat) → OptLoop.Gsl ℝ p} {m0 m1 : Nat → Mem ℝ}
    {file : Sections.File ℝ} {out : List (List Char × OptLoop.St ℝ (Single.Result ℝ) × File ℝ)} {total : Nat}
    (h : MultiOptRun.run L gsl m0 m1 path file = .ok (out, total)) :
    (∃ name, Outfile.outfile path = .ok name) ∧
    ∀ x ∈ out, (∃ j, Outfile.stageOutfile path j = .ok x.1) ∧ HasText x.2.2 "general_option" "single" ∧
      (names x.2.2).Nodup := by
  unfold MultiOptRun.run at h
  split at h
  · cases h
  rename_i name hname
  refine ⟨⟨name, hname⟩, ?_⟩
  split at h
  · cases h
  rename_i r hr
  split at h
  · cases h
  · cases h
  rename_i names q hn hq
  split at h
  · cases h
  split at h
  · cases h
  split at h
  · cases h
  rename_i sts total' hs
  split at h
  · cases h
  rename_i fs hw
  injection h with h
  injection h with h1 h2
  subst h1
  intro x hx
  have hx1 := (List.of_mem_zip (show (x.1, x.2) ∈ names.zip (sts.zip fs) from hx))
  have hx2 := (List.of_mem_zip (show (x.2.1, x.2.2) ∈ sts.zip fs from hx1.2))
  refine ⟨?_, stages_text hw _ hx2.2⟩
  obtain ⟨j, -, hj⟩ := mapM_mem hn x.1 hx1.1
  exact ⟨j, hj⟩

/-- **C96.**  If the program ends with return value 0, the input file is named `qsc_in.` with an extension, in some
directory.  All files written are in that directory, named `qsc_out.`, the extension and `.nc`, with the number of
the stage for a multi-stage optimization.  Every file says which calculation it comes from, as asked for in the
input file; but optimizations say `single` (defect).  No name is used for two variables of a file. -/
theorem output_files (h : Ends e argc path d 0 outs) {g : String} (hg : Asks d g) :
    ∃ dir ext, Outfile.IsInputPath path dir ext ∧ ∀ x ∈ outs, OutputName g dir ext x.1 ∧
      HasText x.2 "general_option" (origin g) ∧ (x.2.vars.map (·.name)).Nodup := by
  have plain : ∀ {name : List Char}, Outfile.outfile path = .ok name → g ≠ "multiopt" →
      ∃ dir ext, Outfile.IsInputPath path dir ext ∧ OutputName g dir ext name := by
    intro name hn hm
    obtain ⟨dir, ext, h1, h2⟩ := OptRun.outfile_cases hn
    refine ⟨dir, ext, h1, ?_⟩
    unfold OutputName
    rw [if_neg hm]
    exact h2
  cases h with
  | single h hr =>
    have hj := asks_unique hg (action_run h).2
    subst hj
    unfold Single.run at hr
    split at hr
    · cases hr
    rename_i name' hn
    split at hr
    · cases hr
    split at hr
    · cases hr
    split at hr
    · cases hr
    split at hr
    · cases hr
    split at hr
    · cases hr
    split at hr
    · cases hr
    split at hr
    · cases hr
    rename_i f hw
    injection hr with hr
    injection hr with h1 h2
    injection h2 with h2 h3
    subst h1 h3
    obtain ⟨dir, ext, h1, h2⟩ := plain hn (by simp [jobName])
    refine ⟨dir, ext, h1, ?_⟩
    intro x hx
    rw [List.mem_singleton] at hx
    subst hx
    exact ⟨h2, (writeQsc_text hw).1, writeQsc_nodup hw⟩
  | random h hr =>
    have hj := asks_unique hg (action_run h).2
    subst hj
    obtain ⟨dir, ext, h1, h2⟩ := plain hr.name (by simp [jobName])
    refine ⟨dir, ext, h1, ?_⟩
    intro x hx
    obtain ⟨f, hf, rfl⟩ := List.mem_map.mp hx
    refine ⟨h2, ?_⟩
    obtain ⟨r, n, ord, snaps, gs, m, s, -, -, -, -, -, e6⟩ := hr.exec
    obtain ⟨y, -, hy⟩ := mapM_mem e6 f hf
    unfold ScanRun.write at hy
    split at hy
    · split at hy
      · cases hy
      split at hy
      · cases hy
      rename_i hw
      injection hy with hy
      subst hy
      exact ⟨writeScan_text hw, writeScan_nodup hw⟩
    · cases hy
  | opt h hr =>
    have hj := asks_unique hg (action_run h).2
    subst hj
    unfold OptRun.run at hr
    split at hr
    · cases hr
    rename_i name' hn
    split at hr
    · cases hr
    split at hr
    · cases hr
    · split at hr
      · cases hr
      split at hr
      · cases hr
      split at hr
      · cases hr
      split at hr
      · cases hr
      split at hr
      · cases hr
      rename_i f hw
      injection hr with hr
      injection hr with h1 h2
      injection h2 with h2 h3
      subst h1 h3
      obtain ⟨dir, ext, h1, h2⟩ := plain hn (by simp [jobName])
      refine ⟨dir, ext, h1, ?_⟩
      intro x hx
      rw [List.mem_singleton] at hx
      subst hx
      exact ⟨h2, opt_write_text hw⟩
    · cases hr
  | multiopt h hr =>
    have hj := asks_unique hg (action_run h).2
    subst hj
    obtain ⟨⟨name, hn⟩, hx'⟩ := multiopt_out hr
    obtain ⟨dir, ext, h1, -⟩ := OptRun.outfile_cases hn
    refine ⟨dir, ext, h1, ?_⟩
    intro x hx
    obtain ⟨y, hy, rfl⟩ := List.mem_map.mp hx
    obtain ⟨⟨j, hj⟩, ht⟩ := hx' y hy
    refine ⟨?_, ht⟩
    unfold OutputName
    rw [if_pos (by rfl)]
    rw [Outfile.stageOutfile_ok path dir ext j h1] at hj
    exact ⟨j, (Except.ok.inj hj).symm⟩
  | multioptScan h hr =>
    have hj := asks_unique hg (action_run h).2
    subst hj
    obtain ⟨dir, ext, h1, h2⟩ := plain hr.name (by simp [jobName])
    refine ⟨dir, ext, h1, ?_⟩
    intro x hx
    obtain ⟨f, hf, rfl⟩ := List.mem_map.mp hx
    refine ⟨h2, ?_⟩
    obtain ⟨r, cfg, p, -, h' | h'⟩ := hr.exec
    · rw [h'.2] at hf
      simp at hf
    · obtain ⟨-, res, k, t, m, sv, out, -, -, -, -, e6⟩ := h'
      obtain ⟨y, -, hy⟩ := mapM_mem e6 f hf
      unfold MultiScanRun.write at hy
      split at hy
      · split at hy
        · cases hy
        rename_i hw
        injection hy with hy
        subst hy
        exact ⟨writeMultiopt_text hw, writeMultiopt_nodup hw⟩
      · cases hy

/-- **C96.**  The name of the calculation in the output file is the one of the input file exactly if this is not an
optimization. -/
theorem origin_right (h : Ends e argc path d 0 outs) {g : String} (hg : Asks d g) {x : List Char × File ℝ}
    (hx : x ∈ outs) :
    HasText x.2 "general_option" g ↔ g ≠ "opt" ∧ g ≠ "multiopt" := by
  obtain ⟨dir, ext, -, hall⟩ := output_files h hg
  obtain ⟨-, ⟨v, hv, e1, e2⟩, hn⟩ := hall x hx
  have key : HasText x.2 "general_option" g ↔ origin g = g := by
    constructor
    · rintro ⟨u, hu, a1, a2⟩
      have : u = v := List.inj_on_of_nodup_map hn hu hv (by rw [a1, e1])
      subst this
      rw [a2] at e2
      injection e2 with e2
      injection e2 with e2
      exact (String.toList_inj.mp e2).symm
    · intro h
      rw [h] at e2
      exact ⟨v, hv, e1, e2⟩
  rw [key]
  unfold origin
  split_ifs with hc
  · rcases hc with rfl | rfl <;> simp
  · simpa [not_or] using hc

/-! ## What the input file may contain besides -/

/-- Same value, or both absent, for every section that belongs to the calculation. -/
theorem ends_congr {g : String} {d' : Doc} (hg : Asks d g) (hg' : Asks d' g)
    (hs : ∀ s, Belongs g s → d.sections.lookup s = d'.sections.lookup s) (h : Ends e argc path d status outs) :
    Ends e argc path d' status outs := by
  have hact : action argc d' = action argc d := by
    unfold action
    rw [(option_iff d g).2 hg, (option_iff d' g).2 hg']
  have hq : d.sections.lookup "qsc" = d'.sections.lookup "qsc" := hs _ (Or.inl rfl)
  cases h with
  | usage h => exact .usage (hact.trans h)
  | single h hr =>
    refine .single (r := _) (hact.trans h) (Eq.trans ?_ hr)
    unfold Single.run
    rw [inputQsc_congr hq]
  | random h hr =>
    have hj := asks_unique hg (action_run h).2
    subst hj
    have h2 : d.sections.lookup "scan" = d'.sections.lookup "scan" := hs _ (Or.inr (Or.inl ⟨rfl, rfl⟩))
    refine .random (hact.trans h) ⟨hr.name, ?_⟩
    have := hr.exec
    rw [scanInput_congr hq h2] at this
    exact this
  | opt h hr =>
    have hj := asks_unique hg (action_run h).2
    subst hj
    have h2 : d.sections.lookup "opt" = d'.sections.lookup "opt" := hs _ (Or.inr (Or.inr (Or.inl ⟨rfl, rfl⟩)))
    refine .opt (hact.trans h) (Eq.trans ?_ hr)
    unfold OptRun.run
    rw [optInput_congr hq (Pipeline.optNew e.L.lit e.L.single) h2]
  | multiopt h hr =>
    have hj := asks_unique hg (action_run h).2
    subst hj
    have h2 : d.sections.lookup "multiopt" = d'.sections.lookup "multiopt" :=
      hs _ (Or.inr (Or.inr (Or.inr (Or.inl ⟨Or.inl rfl, Or.inl rfl⟩))))
    have h3 : ∀ j : Nat, d.sections.lookup ("opt" ++ Nat.repr j) = d'.sections.lookup ("opt" ++ Nat.repr j) :=
      fun j => hs _ (Or.inr (Or.inr (Or.inr (Or.inl ⟨Or.inl rfl, Or.inr ⟨j, rfl⟩⟩))))
    refine .multiopt (hact.trans h) (Eq.trans ?_ hr)
    unfold MultiOptRun.run
    rw [multioptInput_congr hq h2 h3]
  | multioptScan h hr =>
    have hj := asks_unique hg (action_run h).2
    subst hj
    have h2 : d.sections.lookup "multiopt" = d'.sections.lookup "multiopt" :=
      hs _ (Or.inr (Or.inr (Or.inr (Or.inl ⟨Or.inr rfl, Or.inl rfl⟩))))
    have h3 : ∀ j : Nat, d.sections.lookup ("opt" ++ Nat.repr j) = d'.sections.lookup ("opt" ++ Nat.repr j) :=
      fun j => hs _ (Or.inr (Or.inr (Or.inr (Or.inl ⟨Or.inr rfl, Or.inr ⟨j, rfl⟩⟩))))
    have h4 : d.sections.lookup "multiopt_scan" = d'.sections.lookup "multiopt_scan" :=
      hs _ (Or.inr (Or.inr (Or.inr (Or.inr ⟨rfl, rfl⟩))))
    refine .multioptScan (hact.trans h) ⟨hr.name, ?_⟩
    have := hr.exec
    unfold MultiScanPipeline.start at this ⊢
    rw [multiScanInput_congr hq h2 h3 h4] at this
    exact this

/-- **C96.**  Only the sections that belong to the calculation count: two input files that ask for the same
calculation and agree on these sections lead to the same outcomes, whatever else they contain and in whatever order
the sections come. -/
theorem other_sections {g : String} {d' : Doc} (hg : Asks d g) (hg' : Asks d' g)
    (hs : ∀ s, Belongs g s → d.sections.lookup s = d'.sections.lookup s) :
    Ends e argc path d status outs ↔ Ends e argc path d' status outs :=
  ⟨ends_congr hg hg' hs, ends_congr hg' hg fun s h => (hs s h).symm⟩

/-- **C96.**  Called with one argument, the program never ends normally if the input file asks for no known
calculation, if its name is not `qsc_in.` with an extension, or if a section of the calculation is missing. -/
theorem refused (h : (∀ g ∈ calculations, ¬ Asks d g) ∨ (¬ ∃ dir ext, Outfile.IsInputPath path dir ext) ∨
      d.sections.lookup "qsc" = none ∨
      (Asks d "random" ∧ d.sections.lookup "scan" = none) ∨ (Asks d "opt" ∧ d.sections.lookup "opt" = none) ∨
      ((Asks d "multiopt" ∨ Asks d "multiopt_scan") ∧ d.sections.lookup "multiopt" = none) ∨
      (Asks d "multiopt_scan" ∧ d.sections.lookup "multiopt_scan" = none)) :
    ¬ Ends e 2 path d status outs := by
  intro he
  rcases exit_status he with ⟨-, h2, -⟩ | ⟨rfl, -, g, hgc, hg⟩
  · exact h2 rfl
  have nosec : ∀ {s : String}, d.sections.lookup s = none → Sections.findSection d.sections s = .error (.noSection s) := by
    intro s hs
    have : d.sections.lookup s = ([] : Sections.File ℝ).lookup s := hs
    rw [findSection_congr this]
    rfl
  rcases h with h | h | h
  · exact h g hgc hg
  · obtain ⟨dir, ext, hp, -⟩ := output_files he hg
    exact h ⟨dir, ext, hp⟩
  have hi : d.sections.lookup "qsc" = none → ∀ x, Sections.inputQsc (fun i => (i : ℝ)) 0 d.sections x =
      .error (.noSection "qsc") := by
    intro h x
    unfold Sections.inputQsc
    rw [nosec h]
    rfl
  have ho : ∀ o : Sections.OptObj ℝ, d.sections.lookup "qsc" = none ∨ d.sections.lookup o.group = none →
      ∀ r, Sections.optInput (fun i => (i : ℝ)) 0 d.sections o ≠ .ok r := by
    intro o h r hr
    unfold Sections.optInput at hr
    rcases h with h | h
    · rw [hi h] at hr
      cases hr
    · rw [nosec h] at hr
      cases h1 : Sections.inputQsc (fun i => (i : ℝ)) 0 d.sections o.q with
      | error x => rw [h1] at hr; cases hr
      | ok q =>
        rw [h1] at hr
        simp only [Except.bind] at hr
        split at hr
        · cases hr
        · cases hr
  have hm : d.sections.lookup "qsc" = none ∨ d.sections.lookup "multiopt" = none → ∀ (new : Sections.OptObj ℝ) x r,
      Sections.multioptInput (fun i => (i : ℝ)) 0 d.sections new x ≠ .ok r := by
    intro h new x r hr
    unfold Sections.multioptInput at hr
    rcases h with h | h
    · cases h1 : Sections.findSection d.sections "multiopt" with
      | error x => rw [h1] at hr; cases hr
      | ok t =>
        rw [h1] at hr
        simp only [Except.bind] at hr
        split at hr
        · cases hr
        split at hr
        · cases hr
        split at hr
        · split_ifs at hr with h0
          rename_i n _ 
          obtain ⟨k, hk⟩ : ∃ k, n.toNat = k + 1 := ⟨n.toNat - 1, by omega⟩
          rw [hk] at hr
          unfold Sections.readStages at hr
          cases h2 : Sections.optInput (fun i => (i : ℝ)) 0 d.sections
              ⟨new.q, Sections.groupName 0, Sections.set new.mem "make_names" (.bool false)⟩ with
          | error x => rw [h2] at hr; simp only [Except.bind] at hr; cases hr
          | ok o => exact ho _ (Or.inl h) _ h2
        · cases hr
    · rw [nosec h] at hr
      cases hr
  cases he with
  | single ha hr =>
    have hj := (action_run ha).2
    have hq : d.sections.lookup "qsc" = none := by
      rcases h with h | ⟨h, -⟩ | ⟨h, -⟩ | ⟨h | h, -⟩ | ⟨h, -⟩
      · exact h
      all_goals exact absurd (asks_unique hj h) (by simp [jobName])
    unfold Single.run at hr
    rw [hi hq] at hr
    split at hr <;> cases hr
  | random ha hr =>
    have hj := (action_run ha).2
    have hq : d.sections.lookup "qsc" = none ∨ d.sections.lookup "scan" = none := by
      rcases h with h | ⟨h, h'⟩ | ⟨h, -⟩ | ⟨h | h, -⟩ | ⟨h, -⟩
      · exact Or.inl h
      · exact Or.inr h'
      all_goals exact absurd (asks_unique hj h) (by simp [jobName])
    obtain ⟨r, n, ord, snaps, gs, m, s, h1, -⟩ := hr.exec
    unfold Sections.scanInput at h1
    rcases hq with h | h
    · rw [hi h] at h1
      cases h1
    · rw [nosec h] at h1
      cases h2 : Sections.inputQsc (fun i => (i : ℝ)) 0 d.sections (Pipeline.scanNew e.scan.L.lit e.scan.L.single).q with
      | error x => rw [h2] at h1; cases h1
      | ok q => rw [h2] at h1; cases h1
  | opt ha hr =>
    have hj := (action_run ha).2
    have hq : d.sections.lookup "qsc" = none ∨ d.sections.lookup "opt" = none := by
      rcases h with h | ⟨h, -⟩ | ⟨h, h'⟩ | ⟨h | h, -⟩ | ⟨h, -⟩
      · exact Or.inl h
      · exact absurd (asks_unique hj h) (by simp [jobName])
      · exact Or.inr h'
      all_goals exact absurd (asks_unique hj h) (by simp [jobName])
    unfold OptRun.run at hr
    split at hr
    · cases hr
    split at hr
    · cases hr
    rename_i o h1
    exact ho (Pipeline.optNew e.L.lit e.L.single) hq _ h1
  | multiopt ha hr =>
    have hj := (action_run ha).2
    have hq : d.sections.lookup "qsc" = none ∨ d.sections.lookup "multiopt" = none := by
      rcases h with h | ⟨h, -⟩ | ⟨h, -⟩ | ⟨-, h'⟩ | ⟨h, -⟩
      · exact Or.inl h
      · exact absurd (asks_unique hj h) (by simp [jobName])
      · exact absurd (asks_unique hj h) (by simp [jobName])
      · exact Or.inr h'
      all_goals exact absurd (asks_unique hj h) (by simp [jobName])
    unfold MultiOptRun.run at hr
    split at hr
    · cases hr
    split at hr
    · cases hr
    rename_i r h1
    exact hm hq _ _ _ h1
  | multioptScan ha hr =>
    have hj := (action_run ha).2
    obtain ⟨r, cfg, p, h1, -⟩ := hr.exec
    unfold MultiScanPipeline.start Sections.multiScanInput at h1
    cases h2 : Sections.multioptInput (fun z => (z : ℝ)) 0 d.sections (Pipeline.optNew e.multi.L.lit e.multi.L.single)
        (Pipeline.multiScanNew e.multi.L.lit).ref with
    | error x => rw [h2] at h1; cases h1
    | ok r2 =>
      rcases h with h | ⟨h, -⟩ | ⟨h, -⟩ | ⟨-, h⟩ | ⟨-, h⟩
      · exact hm (Or.inl h) _ _ _ h2
      · exact absurd (asks_unique hj h) (by simp [jobName])
      · exact absurd (asks_unique hj h) (by simp [jobName])
      · exact hm (Or.inr h) _ _ _ h2
      · rw [h2, nosec h] at h1
        cases h1

/-! ## Running the program again on its result -/

open Qsc.Spec.OptRun Qsc.Spec.Single Qsc.Single in
/-- **C96.**  After an optimization there is an input file for a single run, with the configuration that was found
in its section `qsc`, for which the program writes a file whose contents are all in the file of the optimization:
same names, dimensions and numbers. -/
theorem opt_again (hl : Literals e.L.lit) (hf : Spec.Sections.WellFormed d.sections) (hg : Asks d "opt")
    {o : Sections.OptObj ℝ} {s : Pipeline.Raw}
    (hi : Sections.optInput (fun i => (i : ℝ)) 0 d.sections (Pipeline.optNew e.L.lit e.L.single) = .ok o)
    (hr : Spec.Pipeline.IsRaw o.mem s) (h31 : s.refine < 2 ^ 31) (h63 : s.nphis.length < 2 ^ 63)
    (h : Ends e 2 path d 0 outs) :
    ∃ name f st, outs = [(name, f)] ∧ OptRun.run e.L e.gsl e.m0 e.m1 path d.sections = .ok (name, st, f) ∧
      ∃ d' : Doc, Asks d' "single" ∧ Input e.L.single d'.sections (configuration o.q st.q st.nphi) ∧
        ∀ {N' : Nat} {e' : Env N'} {path' dir' ext' : List Char}, e'.L = e.L → Outfile.IsInputPath path' dir' ext' →
          ∃ f', Ends e' 2 path' d' 0 [(dir' ++ "qsc_out.".toList ++ ext' ++ ".nc".toList, f')] ∧
            ∀ x ∈ contents f', x ∈ contents f := by
  cases h with
  | opt ha hrun =>
    rename_i name st f
    obtain ⟨-, -, -, -, -, ⟨a1, a2, a3, a4⟩, -, -, -, h9⟩ := OptRun.final_in_file hl hf hi hr h31 h63 hrun
    obtain ⟨t, w1, w2⟩ := OptRun.describable_table e.L.single (configuration o.q st.q st.nphi)
      (N := o.q.R0c.length + s.refine.toNat) a1 a2 a3 a4
    have hs : Asks ⟨[], [("qsc", t)]⟩ "single" := ⟨by simp, Or.inr ⟨rfl, rfl⟩⟩
    refine ⟨name, f, st, rfl, hrun, ⟨[], [("qsc", t)]⟩, hs, w2, ?_⟩
    intro N' e' path' dir' ext' he hp
    obtain ⟨r, f', k1, k2⟩ := h9 e'.m0 hp w1 w2
    refine ⟨f', .single (action_of hs) (r := r) ?_, k2⟩
    rw [he]
    exact k1
  | single ha _ => exact absurd (asks_unique hg (action_run ha).2) (by simp [jobName])
  | random ha _ => exact absurd (asks_unique hg (action_run ha).2) (by simp [jobName])
  | multiopt ha _ => exact absurd (asks_unique hg (action_run ha).2) (by simp [jobName])
  | multioptScan ha _ => exact absurd (asks_unique hg (action_run ha).2) (by simp [jobName])

end

/-! ## Examples -/

/-- An input file for an optimization that also has a section for a random scan. -/
noncomputable def exDoc : Doc :=
  ⟨[("general_option", .str "opt")], [("scan", [("N_scan_max", .int 5)])] ++ OptRun.exOptFile 1⟩

theorem exDoc_asks : Asks exDoc "opt" := by
  refine ⟨?_, Or.inl rfl⟩
  simp [exDoc, OptRun.exOptFile, Single.exFile]

/-- The same sections without that one, with any choice. -/
noncomputable def exPlain (g : String) : Doc := ⟨[("general_option", .str g)], OptRun.exOptFile 1⟩

theorem exPlain_asks (g : String) : Asks (exPlain g) g := by
  refine ⟨?_, Or.inl rfl⟩
  simp [exPlain, OptRun.exOptFile, Single.exFile]

/-- The section for the scan does not matter. -/
theorem ex_other {N : Nat} (e : Env N) (path : List Char) (status : Nat) (outs : List (List Char × File ℝ)) :
    Ends e 2 path exDoc status outs ↔ Ends e 2 path (exPlain "opt") status outs := by
  refine other_sections exDoc_asks (exPlain_asks "opt") ?_
  rintro s (rfl | ⟨h, -⟩ | ⟨-, rfl⟩ | ⟨h | h, -⟩ | ⟨h, -⟩)
  · rfl
  · exact absurd h (by decide)
  · rfl
  · exact absurd h (by decide)
  · exact absurd h (by decide)
  · exact absurd h (by decide)

/-- The program writes one file, which says `single` although it comes from an optimization. -/
theorem ex_ends {N : Nat} (e : Env N) (hL : e.L = Single.exLib) (hG : e.gsl = OptRun.exGsl) :
    ∃ f, Ends e 2 "dir/qsc_in.torus".toList exDoc 0 [("dir/qsc_out.torus.nc".toList, f)] := by
  obtain ⟨st, f, h⟩ := OptRun.ex_opt e.m0 e.m1
  refine ⟨f, (ex_other e _ _ _).2 (.opt (action_of (exPlain_asks "opt")) (st := st) ?_)⟩
  rw [hL, hG]
  exact h

example {N : Nat} (e : Env N) (hL : e.L = Single.exLib) (hG : e.gsl = OptRun.exGsl) :
    ∃ f, Ends e 2 "dir/qsc_in.torus".toList exDoc 0 [("dir/qsc_out.torus.nc".toList, f)] ∧
      HasText f "general_option" "single" ∧ ¬ HasText f "general_option" "opt" := by
  obtain ⟨f, h⟩ := ex_ends e hL hG
  refine ⟨f, h, ?_, ?_⟩
  · obtain ⟨dir, ext, -, hx⟩ := output_files h exDoc_asks
    exact (hx _ (List.mem_singleton.mpr rfl)).2.1
  · rw [origin_right h exDoc_asks (List.mem_singleton.mpr rfl)]
    simp

/-- The result can be computed again by a single run. -/
example {N : Nat} (e : Env N) (hL : e.L = Single.exLib) (hG : e.gsl = OptRun.exGsl) :
    ∃ f d' f', Ends e 2 "dir/qsc_in.torus".toList (exPlain "opt") 0 [("dir/qsc_out.torus.nc".toList, f)] ∧
      Asks d' "single" ∧ Ends e 2 "dir/qsc_in.torus".toList d' 0 [("dir/qsc_out.torus.nc".toList, f')] ∧
      ∀ x ∈ contents f', x ∈ contents f := by
  obtain ⟨f, h⟩ := ex_ends e hL hG
  have h := (ex_other e _ _ _).1 h
  obtain ⟨o, h1, h2, h3, h4⟩ := OptRun.ex_read
  obtain ⟨name, f1, st, k1, -, d', k2, -, k3⟩ := opt_again (e := e) (d := exPlain "opt") (o := o) (s := OptRun.exRaw)
    (by rw [hL]; exact Single.exLiterals) (OptRun.exOptWell 1) (exPlain_asks "opt") (by rw [hL]; exact h1) h3 (by decide)
    (by simp [OptRun.exRaw]) h
  obtain ⟨f', g1, g2⟩ := k3 (e' := e) rfl Single.ex_path
  injection k1 with k1
  injection k1 with _ k1
  subst k1
  exact ⟨f, d', f', h, k2, g1, g2⟩

/-- A misspelt calculation, a scan without its section, and a call without an input file. -/
example {N : Nat} (e : Env N) (path : List Char) (status : Nat) (outs : List (List Char × File ℝ)) :
    ¬ Ends e 2 path (exPlain "optimize") status outs := by
  refine refused (Or.inl fun g hg h => ?_)
  have := asks_unique h (exPlain_asks "optimize")
  subst this
  simp [calculations] at hg

example {N : Nat} (e : Env N) (path : List Char) (status : Nat) (outs : List (List Char × File ℝ)) :
    ¬ Ends e 2 path (exPlain "random") status outs := by
  refine refused (Or.inr (Or.inr (Or.inr (Or.inl ⟨exPlain_asks _, ?_⟩))))
  rfl

example {N : Nat} (e : Env N) : Ends e 1 [] exDoc 1 [] := .usage rfl

end Qsc.Program
