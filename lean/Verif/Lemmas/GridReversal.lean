import Verif.Lemmas.ScanReversal
import Verif.Model.MultiScanRun

/-!
# Lemmas: a scan of multi-stage optimizations with the opposite field
-/

namespace Qsc.GridReversal
open Qsc.Netcdf Qsc.Toml Qsc.MultiScanRun Qsc.Reversal Qsc.Spec.Reversal Qsc.Spec.ScanReversal Qsc.ScanReversal
open Qsc.Single (Lib Result)
open Qsc.OptLoop (mapSt mapRec St)
open Qsc.MultiScanPipeline (Plan stageOf withStage stagesAt)
open Qsc.Sections (OptObj MultiScanObj)

/-- The same settings and the opposite field. -/
def OppositeStage (o o' : OptObj ℝ) : Prop := o'.mem = o.mem ∧ Opposite o.q o'.q

variable {os os' : List (OptObj ℝ)}

/-! ## The stages -/

theorem order_opposite {q q' : QscIn ℝ} (h : Opposite q q') : q'.order_r_option = q.order_r_option := (inputRel h).order

theorem nphi_opposite {q q' : QscIn ℝ} (h : Opposite q q') : q'.nphi = q.nphi := by
  unfold Opposite at h
  rw [h]

theorem configOf_opposite {q q' : QscIn ℝ} (h : Opposite q q') : Pipeline.configOf q' = Pipeline.configOf q := by
  unfold Opposite at h
  rw [h]
  rfl

/-- The results of the stages with the opposite field. -/
noncomputable def revStages (r : List (St ℝ (Result ℝ)) × Nat) : List (St ℝ (Result ℝ)) × Nat :=
  (r.1.map (mapSt revResult), r.2)

theorem runStages_rev {L : Lib ℝ} (ho : L.ops = Qsc.realOps) (gsl : Nat → Nat → (p : Nat) → OptLoop.Gsl ℝ p) {q q' : QscIn ℝ}
    (hq : Opposite q q') (h : List.Forall₂ OppositeStage os os') (j : Nat) (prev : Option (OptLoop.Start ℝ)) (n : Nat) :
    Pipeline.runStages (fun j => OptRun.world L (gsl j) q') j os' prev n
      = (Pipeline.runStages (fun j => OptRun.world L (gsl j) q) j os prev n).map revStages := by
  induction h generalizing j prev n with
  | nil => rfl
  | @cons o o' os os' h _ ih =>
    rw [Pipeline.runStages, Pipeline.runStages]
    unfold Pipeline.readyOpt
    rw [h.1, order_opposite h.2, nphi_opposite h.2, configOf_opposite h.2]
    cases Pipeline.weightsOf o.mem with
    | none => rfl
    | some wt =>
      cases Pipeline.rawOf o.mem with
      | none => rfl
      | some raw =>
        have E := OptReversal.world_rev ho (gsl j) hq wt
        simp only [Pipeline.member, Except.bind]
        refine OptLoop.bind_rel (h := mapSt revResult) ?_ fun st => ?_
        · cases prev with
          | none => exact Pipeline.runOpt_map E _ _ _ _
          | some a => exact Pipeline.runOpt_map E _ _ _ _
        · refine OptLoop.bind_rel (ih (j + 1) _ _) fun r => ?_
          rfl

/-! ## The grid -/

theorem stageOf_rev {o o' : OptObj ℝ} (h : OppositeStage o o') : stageOf o' = stageOf o := by
  obtain ⟨h1, h2⟩ := h
  unfold Opposite at h2
  unfold stageOf
  rw [h1, h2]

theorem withStage_rev {o o' : OptObj ℝ} (h : OppositeStage o o') (s : ScanParams.Stage ℝ) :
    OppositeStage (withStage o s) (withStage o' s) := by
  obtain ⟨h1, h2⟩ := h
  refine ⟨by unfold withStage; rw [h1], ?_⟩
  unfold Opposite at h2 ⊢
  unfold withStage
  dsimp only
  generalize o'.q.verbose = v at h2
  rw [h2]

theorem map_stageOf (h : List.Forall₂ OppositeStage os os') : os'.map stageOf = os.map stageOf := by
  induction h with
  | nil => rfl
  | cons h _ ih => rw [List.map_cons, List.map_cons, stageOf_rev h, ih]

theorem zip_rev (h : List.Forall₂ OppositeStage os os') (ss : List (ScanParams.Stage ℝ)) :
    List.Forall₂ OppositeStage (List.zipWith withStage os ss) (List.zipWith withStage os' ss) := by
  induction h generalizing ss with
  | nil => exact .nil
  | cons h _ ih =>
    cases ss with
    | nil => exact .nil
    | cons s ss => exact .cons (withStage_rev h s) (ih ss)

/-- The stages of a grid point: both fail in the same way, or both have stages with opposite fields. -/
theorem stagesAt_rev {r r' : MultiScanObj ℝ} (h : List.Forall₂ OppositeStage r.ref.opts r'.ref.opts) (p : Plan) (i : Nat) :
    (∃ e, stagesAt r p i = .error e ∧ stagesAt r' p i = .error e) ∨
    ∃ os os', stagesAt r p i = .ok os ∧ stagesAt r' p i = .ok os' ∧ List.Forall₂ OppositeStage os os' := by
  unfold stagesAt
  rw [map_stageOf h]
  cases MultiScanPipeline.paramsAt p i with
  | error e => exact Or.inl ⟨e, rfl, rfl⟩
  | ok ps =>
    simp only [Except.bind]
    cases MultiScanPipeline.lift .param (ScanParams.setAll p.nm (r.ref.opts.map stageOf) ps) with
    | error e => exact Or.inl ⟨e, rfl, rfl⟩
    | ok ss => exact Or.inr ⟨_, _, rfl, rfl, zip_rev h ss⟩

theorem result_names : ∀ a ∈ resultMembers, a ∉ reversed := by decide +kernel

theorem look_rev (x : Result ℝ) : look Qsc.realOps (revResult x) = look Qsc.realOps x := by
  unfold look
  congr 1
  funext _ a
  unfold result
  cases h : resultMembers.find? (fun b => "q." ++ b == a) with
  | none => rfl
  | some b =>
    have hb := result_names b (List.mem_of_find?_eq_some h)
    simp only [Option.elim_some, OptReversal.elem_rev, sgn, if_neg hb, one_mul]

theorem forall₂_getLast (h : List.Forall₂ OppositeStage os os') :
    (os.getLast? = none ∧ os'.getLast? = none) ∨
    ∃ o o', os.getLast? = some o ∧ os'.getLast? = some o' ∧ OppositeStage o o' := by
  induction h with
  | nil => exact Or.inl ⟨rfl, rfl⟩
  | @cons o o' os os' h ht ih =>
    rw [List.getLast?_cons, List.getLast?_cons]
    rcases ih with ⟨e1, e2⟩ | ⟨a, a', e1, e2, e3⟩
    · exact Or.inr ⟨o, o', by rw [e1]; rfl, by rw [e2]; rfl, h⟩
    · exact Or.inr ⟨a, a', by rw [e1]; rfl, by rw [e2]; rfl, e3⟩

theorem scalar_rev (k : MultiScanPipeline.Look (Result ℝ)) (hk : ∀ s t, k.num s = k.num t) {o0 o0' o1 o1' : OptObj ℝ}
    (h0 : OppositeStage o0 o0') (h1 : OppositeStage o1 o1') (st : St ℝ (Result ℝ)) (c : Option (OptLoop.Rec ℝ (Result ℝ))) :
    MultiScanPipeline.scalar k o0' o1' (mapSt revResult st) (c.map (mapRec revResult))
      = MultiScanPipeline.scalar k o0 o1 st c := by
  have e : o0'.q.p2 = o0.q.p2 := by
    have := h0.2
    unfold Opposite at this
    rw [this]
  have ei : ∀ f, MultiScanPipeline.iter0 (c.map (mapRec revResult)) f = MultiScanPipeline.iter0 c f := by
    intro f
    cases c <;> rfl
  funext x
  unfold MultiScanPipeline.scalar
  rw [h1.1, e, ei, ei, ei, hk (mapSt revResult st) st]
  rfl

theorem array_rev (nm : Nat) (st0 st1 : St ℝ (Result ℝ)) (c : Option (OptLoop.Rec ℝ (Result ℝ))) :
    MultiScanPipeline.array nm (mapSt revResult st0) (mapSt revResult st1) (c.map (mapRec revResult))
      = MultiScanPipeline.array nm st0 st1 c := by
  have ei : ∀ n f, MultiScanPipeline.iterArr (c.map (mapRec revResult)) n f = MultiScanPipeline.iterArr c n f := by
    intro n f
    cases c <;> rfl
  funext x
  unfold MultiScanPipeline.array
  rw [ei, ei, ei, ei]
  rfl

theorem finalOf_rev (x : Result ℝ) (h : List.Forall₂ OppositeStage os os') (nm : Nat) (sts : List (St ℝ (Result ℝ)))
    (total : Nat) :
    MultiScanPipeline.finalOf (look Qsc.realOps x) nm os' (sts.map (mapSt revResult)) total
      = MultiScanPipeline.finalOf (look Qsc.realOps x) nm os sts total := by
  unfold MultiScanPipeline.finalOf
  cases h with
  | nil => rfl
  | @cons o0 o0' os os' h0 ht =>
    simp only [List.getElem?_cons_zero, MultiScanPipeline.need, Except.bind]
    rcases forall₂_getLast (.cons h0 ht) with ⟨e1, e2⟩ | ⟨o1, o1', e1, e2, h1⟩
    · rw [e1, e2]
    · rw [e1, e2]
      simp only [List.getElem?_map, List.getLast?_map]
      cases sts[0]? with
      | none => rfl
      | some st0 =>
        cases sts.getLast? with
        | none => rfl
        | some st1 =>
          simp only [Option.map_some]
          rw [show (mapSt revResult st0).hist = st0.hist.map (Option.map (mapRec revResult)) from rfl, List.getElem?_map]
          cases st0.hist[0]? with
          | none => rfl
          | some c =>
            simp only [Option.map_some]
            rw [scalar_rev _ (fun _ _ => rfl) h0 h1, array_rev]
            rfl

/-- A grid point has the same results with the opposite field. -/
theorem evalPoint_rev {L : Lib ℝ} (ho : L.ops = Qsc.realOps) (gsl : Nat → Nat → (p : Nat) → OptLoop.Gsl ℝ p)
    {r r' : MultiScanObj ℝ} (h : List.Forall₂ OppositeStage r.ref.opts r'.ref.opts) (p : Plan) (i : Nat) :
    evalPoint L gsl r' p i = evalPoint L gsl r p i := by
  unfold evalPoint
  rcases stagesAt_rev h p i with ⟨e, e1, e2⟩ | ⟨os, os', e1, e2, h⟩
  · rw [e1, e2]
  rw [e1, e2]
  cases h with
  | nil => rfl
  | @cons o o' os os' h0 ht =>
    dsimp only [MultiOptRun.firstQ]
    have hn : o'.q.nfp = o.q.nfp := (inputRel h0.2).nfp
    rw [hn]
    split
    · rfl
    split
    · rfl
    rw [runStages_rev ho gsl h0.2 (.cons h0 ht)]
    cases Pipeline.runStages (fun j => OptRun.world L (gsl j) o.q) 0 (o :: os) none 0 with
    | error e => rfl
    | ok x =>
      obtain ⟨sts, total⟩ := x
      simp only [Except.map, revStages]
      have ha : ((sts.map (mapSt revResult)).any fun st => st.nIter == 0) = sts.any fun st => st.nIter == 0 := by
        rw [List.any_map]
        rfl
      rw [ha]
      split
      · rfl
      rw [List.getLast?_map]
      cases sts.getLast? with
      | none => rfl
      | some st =>
        simp only [Option.map_some]
        rw [show (mapSt revResult st).q = st.q from rfl, show (mapSt revResult st).nphi = st.nphi from rfl,
          OptReversal.physics_rev ho h0.2]
        cases OptRun.physics L o.q st.q st.nphi with
        | error m => rfl
        | ok x =>
          simp only [Except.map]
          rw [ho, look_rev, finalOf_rev x (.cons h0 ht)]

/-! ## `init` -/

theorem axisCount_rev (h : List.Forall₂ OppositeStage os os') :
    MultiScanPipeline.axisCount os' = MultiScanPipeline.axisCount os := by
  have e : (os'.mapM fun o => Pipeline.getInt o.mem "fourier_refine") = os.mapM fun o => Pipeline.getInt o.mem "fourier_refine" := by
    induction h with
    | nil => rfl
    | cons h _ ih => rw [List.mapM_cons, List.mapM_cons, h.1, ih]
  unfold MultiScanPipeline.axisCount
  rw [e]
  cases h with
  | nil => rfl
  | cons h _ =>
    have hR := congrArg QscIn.R0c h.2
    simp only [List.getElem?_cons_zero, MultiScanPipeline.need, Except.bind]
    rw [hR]

theorem ndim_size {ofInt : Int → ℝ} {zero : ℝ} {f : Sections.File ℝ} {new : OptObj ℝ} {d r : MultiScanObj ℝ}
    (h : Sections.multiScanInput ofInt zero f new d = .ok r) : Sections.sizeOf r.mem "params" = .ok r.ndim := by
  unfold Sections.multiScanInput at h
  obtain ⟨mo, -, h⟩ := (Toml.bind_ok_iff _ _ _).1 h
  obtain ⟨t, -, h⟩ := (Toml.bind_ok_iff _ _ _).1 h
  obtain ⟨s, -, h⟩ := (Toml.bind_ok_iff _ _ _).1 h
  obtain ⟨-, -, h⟩ := (Toml.bind_ok_iff _ _ _).1 h
  obtain ⟨n, hn, h⟩ := (Toml.bind_ok_iff _ _ _).1 h
  obtain ⟨-, -, h⟩ := (Toml.bind_ok_iff _ _ _).1 h
  cases h
  exact hn

theorem init_rev {r r' : MultiScanObj ℝ} (hm : r'.mem = r.mem) (hn : r'.ndim = r.ndim)
    (h : List.Forall₂ OppositeStage r.ref.opts r'.ref.opts) : MultiScanPipeline.init r' = MultiScanPipeline.init r := by
  unfold MultiScanPipeline.init
  rw [hm, hn, axisCount_rev h]

/-! ## The file -/

/-- The members that say which way the field points. -/
def gridMembers : List String := ["mo_ref.opts[0].q.sG", "mo_ref.opts[0].q.spsi", "mo_ref.opts[0].q.I2"]

theorem grid_signs : (Output.multioptCalls false).all (signCall gridMembers) = true := by decide +kernel

theorem writeMultiopt_turn (toF : Nat → ℝ) {o : Output.MultioptObj ℝ} {m' : Mem ℝ}
    (hm : ∀ a, m' a = turnObj gridMembers a (o.mem a)) :
    Output.writeMultiopt toF { o with mem := m' } = (Output.writeMultiopt toF o).map (turnFile signs) := by
  have h1 : m' "axis_nmax_plus_1" = o.mem "axis_nmax_plus_1" := by rw [hm]; exact if_neg (by decide +kernel)
  have h2 : m' "n_scan" = o.mem "n_scan" := by rw [hm]; exact if_neg (by decide +kernel)
  have hs : ∀ n a, Output.multioptScope { o with mem := m' } n a = turnObj gridMembers a (Output.multioptScope o n a) := by
    intro n a
    unfold Output.multioptScope
    exact set_turn (by decide +kernel) (set_turn (by decide +kernel) (set_turn (by decide +kernel) hm)) a
  unfold Output.writeMultiopt
  simp only [Output.intMember, h1, h2]
  split
  · rfl
  · rfl
  · split
    · rfl
    · rfl
    · refine run_turn toF _ fun op hop => ?_
      rcases List.mem_append.1 hop with hop | hop
      · simp only [List.mem_cons, List.not_mem_nil, or_false] at hop
        rcases hop with rfl | rfl <;> trivial
      · obtain ⟨c, hc, rfl⟩ := List.mem_map.1 hop
        exact signCall_turns (hs _) _ (List.all_eq_true.1 grid_signs c ((Output.multioptCalls_sublist _).subset hc))

theorem qMembers_rev {q q' : QscIn ℝ} (h : Opposite q q') : qMembers q' = turnList gridMembers (qMembers q) := by
  unfold Opposite at h
  rw [h]
  simp [qMembers, turnList, turnObj, gridMembers, negate]

theorem qMembers_names (q : QscIn ℝ) : ∀ a ∈ gridMembers, a ∈ (qMembers q).map (·.1) := by
  intro a ha
  simp only [gridMembers, List.mem_cons, List.not_mem_nil, or_false] at ha
  rcases ha with rfl | rfl | rfl <;> simp [qMembers]

theorem arrays_names {s : MultiScan.Saved ℝ} {nm : Nat} {a : List (String × Data ℝ)} (h : arrays s nm = some a) :
    a.map (·.1) = MultiScan.unpackRows.map (·.1) ++ ["scan_helicity", "scan_n_evals"] ++ MultiScan.unpackBlocks.map (·.1) := by
  unfold arrays at h
  obtain ⟨s, h1, h⟩ := Option.bind_eq_some_iff.1 h
  obtain ⟨t, h2, h⟩ := Option.bind_eq_some_iff.1 h
  obtain ⟨u, h4, h⟩ := Option.bind_eq_some_iff.1 h
  obtain ⟨b, h3, h⟩ := Option.bind_eq_some_iff.1 h
  cases h
  rw [List.map_append, List.map_append, mapM_names _ _ _ _ s h1, mapM_names _ _ _ _ b h3]
  rfl

theorem grid_names : (∀ a ∈ settingNames, a ∉ gridMembers) ∧
    (∀ a ∈ ["axis_nmax_plus_1", "n_scan", "total_cpu_seconds"] ++ counterNames.map (fun x => "filters[" ++ x.1 ++ "]"),
      a ∉ gridMembers) ∧
    (∀ a ∈ counterNames.map (fun x => "filter_fractions[" ++ x.1 ++ "]"), a ∉ gridMembers) ∧
    (∀ a ∈ MultiScan.unpackRows.map (·.1) ++ ["scan_helicity", "scan_n_evals"] ++ MultiScan.unpackBlocks.map (·.1),
      a ∉ gridMembers) := by
  refine ⟨by decide +kernel, by decide +kernel, by decide +kernel, by decide +kernel⟩

theorem writeMultiopt_members (toF : Nat → ℝ) (keepAll : Bool) (b : String → Nat) (m0 : Mem ℝ)
    (l : List (String × Data ℝ)) (h : ∀ a ∈ gridMembers, a ∈ l.map (·.1)) :
    Output.writeMultiopt toF ⟨keepAll, b, Single.assign m0 (turnList gridMembers l)⟩
      = (Output.writeMultiopt toF ⟨keepAll, b, Single.assign m0 l⟩).map (turnFile signs) :=
  writeMultiopt_turn toF (o := ⟨keepAll, b, Single.assign m0 l⟩) (assign_turn_same m0 h)

theorem members_rev {mem : Sections.Obj ℝ} {q q' : QscIn ℝ} (h : Opposite q q') (m : MultiScan.Master ℝ) (nm : Nat) (cpu : ℝ)
    {s : MultiScan.Saved ℝ} {a : List (String × Data ℝ)} (ha : arrays s nm = some a) :
    settingNames.map (fun a => (a, ScanRun.dataOf (mem a))) ++ qMembers q' ++ counters m nm cpu ++ fractions m ++ a
      = turnList gridMembers
        (settingNames.map (fun a => (a, ScanRun.dataOf (mem a))) ++ qMembers q ++ counters m nm cpu ++ fractions m ++ a) := by
  obtain ⟨n1, n2, n3, n4⟩ := grid_names
  have e1 := turnList_same (A := gridMembers) (l := a) (by rw [arrays_names ha]; exact n4)
  have e2 := turnList_same (A := gridMembers) (l := fractions m) (by unfold fractions; rw [List.map_map]; exact n3)
  have e4 := turnList_same (A := gridMembers) (l := counters m nm cpu) (by
    unfold counters
    rw [List.map_append, List.map_map]
    exact n2)
  have e3 := turnList_same (A := gridMembers) (l := settingNames.map (fun a => (a, ScanRun.dataOf (mem a)))) (by
    rw [List.map_map]
    intro a ha
    refine n1 a ?_
    obtain ⟨b, hb, rfl⟩ := List.mem_map.1 ha
    exact hb)
  rw [turnList_append, turnList_append, turnList_append, turnList_append, qMembers_rev h, e1, e2, e3, e4]

theorem write_rev (toF : Nat → ℝ) {r r' : MultiScanObj ℝ} (hm : r'.mem = r.mem)
    (h : List.Forall₂ OppositeStage r.ref.opts r'.ref.opts) (p : Plan) (m0 : Mem ℝ) (cpu : ℝ) (m : MultiScan.Master ℝ)
    (s : MultiScan.Saved ℝ) : write toF r' p m0 cpu m s = (write toF r p m0 cpu m s).map (turnFile signs) := by
  unfold write
  rw [hm]
  cases Pipeline.getBool r.mem "keep_all" with
  | none => rfl
  | some keepAll =>
    generalize r.ref.opts = os at h
    generalize r'.ref.opts = os' at h
    cases h with
    | nil => rfl
    | @cons o o' os os' h0 ht =>
      simp only [MultiOptRun.firstQ]
      cases ha : arrays s p.nm with
      | none => rfl
      | some a =>
        dsimp only
        rw [members_rev h0.2 m p.nm cpu ha, writeMultiopt_members toF _ _ _ _ (fun b hb => by
          rw [List.map_append, List.map_append, List.map_append, List.map_append]
          exact List.mem_append_left _ (List.mem_append_left _ (List.mem_append_left _
            (List.mem_append_right _ (qMembers_names _ b hb)))))]
        generalize Output.writeMultiopt toF _ = x
        cases x <;> rfl

end Qsc.GridReversal
