import Verif.Model.MultiScanRun
import Verif.Spec.MultiScanRun
import Verif.Lemmas.ScanRunFile
import Verif.Props.MultiScan

/-!
Helper lemmas for `Verif.Props.MultiScanRun`: the output file.
-/

namespace Qsc.MultiScanRun

open Qsc.Netcdf Qsc.Spec.Netcdf Qsc.Output Qsc.Spec.Output Qsc.Toml
open Qsc.Single (assign assign_mem)
open Qsc.MultiScan (Cfg Final Master Saved column unpackRows unpackBlocks)
open Qsc.ScanRun (dataOf mapM_id_some mapM_forall₂)
open Qsc.Spec.MultiScan (meaning modeMeaning Sized)
open Qsc.Spec.Single Qsc.Spec.Sections
open Qsc.Spec.ScanRun (Column IntColumn AxisColumn)

/-! ## The arrays -/

/-- The modes of a result in the array of the scan. -/
def modes (nm : Nat) (res : Nat → Final ℝ) (a : String) (i : Nat) : List ℝ :=
  (List.range nm).map fun k => ((res i).vec ((modeMeaning.lookup a).getD "")).getD k 0

/-- The arrays in the file. -/
def arraysOf (nm : Nat) (idx : List Nat) (res : Nat → Final ℝ) : List (String × Data ℝ) :=
  unpackRows.map (fun x => (x.1, .flts (idx.map fun i => (res i).get ((meaning.lookup x.1).getD "")))) ++
    [("scan_helicity", .ints (idx.map fun i => (res i).helicity)),
     ("scan_n_evals", .ints (idx.map fun i => (res i).nEvals))] ++
    unpackBlocks.map fun x => (x.1, .flts (idx.flatMap (modes nm res x.1)))

theorem meaning_lookup : (∀ x ∈ meaning, meaning.lookup x.1 = some x.2) ∧
    (∀ x ∈ modeMeaning, modeMeaning.lookup x.1 = some x.2) ∧ unpackRows.map (·.1) ⊆ meaning.map (·.1) ∧
    unpackBlocks.map (·.1) ⊆ modeMeaning.map (·.1) := by
  refine ⟨by decide +kernel, by decide +kernel, ?_, ?_⟩ <;> intro a <;> revert a <;> decide +kernel

theorem mapM_all {α γ : Type} {f : α → Option γ} {G : α → γ} {l : List α} (h : ∀ a ∈ l, f a = some (G a)) :
    l.mapM f = some (l.map G) := by
  induction l with
  | nil => rfl
  | cons a l ih =>
    rw [List.mapM_cons, ih fun b hb => h b (List.mem_cons_of_mem _ hb), h a List.mem_cons_self]; rfl

theorem columnMajor_eq {s : Saved ℝ} {nm : Nat} {a : String} {idx : List Nat} {res : Nat → Final ℝ}
    (hn : s.length = idx.length)
    (h : ∀ k < nm, s.mode nm a k = idx.map fun i => (modes nm res a i)[k]?) :
    columnMajor s nm a = (idx.flatMap (modes nm res a)).map some := by
  unfold columnMajor
  rw [List.map_flatMap, hn]
  have h1 : ∀ j ∈ List.range idx.length, ((List.range nm).map fun k => (s.mode nm a k)[j]?.join) =
      (idx[j]?.elim [] fun i => (modes nm res a i).map some) := by
    intro j hj
    have hj := List.mem_range.1 hj
    rw [List.getElem?_eq_getElem hj]
    apply List.ext_getElem?
    intro k
    have hlen : (modes nm res a idx[j]).length = nm := by simp [modes]
    by_cases hk : k < nm
    · rw [List.getElem?_map, List.getElem?_range hk, Option.map_some, h k hk, List.getElem?_map,
        List.getElem?_eq_getElem hj]
      simp only [Option.map_some, Option.join_some, Option.elim_some, List.getElem?_map]
      rw [List.getElem?_eq_getElem (by rw [hlen]; exact hk), Option.map_some]
    · rw [List.getElem?_eq_none (by simp; omega), List.getElem?_eq_none (by simp [hlen]; omega)]
  rw [List.flatMap_congr h1]
  clear h1 h hn
  induction idx with
  | nil => rfl
  | cons c l ih =>
    rw [List.length_cons, List.range_succ_eq_map, List.flatMap_cons, List.flatMap_cons, List.flatMap_map]
    simp only [List.getElem?_cons_zero, Option.elim_some, List.getElem?_cons_succ]
    rw [ih]

theorem arrays_eq (cfg : Cfg ℝ) (nm : Nat) (idx : List Nat) (res : Nat → Final ℝ) (time : Nat → ℝ)
    (hres : ∀ i ∈ idx, Sized nm (res i)) :
    arrays (idx.map (column cmp cfg 0 nm res time)) nm = some (arraysOf nm idx res) := by
  obtain ⟨l1, l2, l3, l4⟩ := meaning_lookup
  obtain ⟨i1, i2⟩ := MultiScan.saved_ints cmp cfg 0 nm res time idx
  unfold arrays
  rw [mapM_all (G := fun x => (x.1, Data.flts (idx.map fun i => (res i).get ((meaning.lookup x.1).getD "")))) fun x hx => ?_,
    i1, i2, show (idx.map fun i => some (res i).helicity) = (idx.map fun i => (res i).helicity).map some by
      rw [List.map_map]; rfl, show (idx.map fun i => some (res i).nEvals) = (idx.map fun i => (res i).nEvals).map some by
      rw [List.map_map]; rfl, mapM_id_some, mapM_id_some,
    mapM_all (G := fun x => (x.1, Data.flts (idx.flatMap (modes nm res x.1)))) fun x hx => ?_]
  · rfl
  · rw [columnMajor_eq (idx := idx) (res := res) (by simp), mapM_id_some]; · rfl
    intro k hk
    obtain ⟨y, hy, he⟩ := List.mem_map.1 (l4 (List.mem_map_of_mem hx))
    rw [← he, MultiScan.saved_mode cmp cfg 0 nm res time y hy idx hres k hk]
    refine List.map_congr_left fun i _ => ?_
    simp [modes, l2 y hy, hk]
  · obtain ⟨y, hy, he⟩ := List.mem_map.1 (l3 (List.mem_map_of_mem hx))
    rw [← he, MultiScan.saved_scalar cmp cfg 0 nm res time y hy idx hres, l1 y hy,
      show (idx.map fun i => some ((res i).get y.2)) = (idx.map fun i => (res i).get y.2).map some by
        rw [List.map_map]; rfl, mapM_id_some]
    rfl

/-! ## The entries of the file -/

theorem multiopt_entries (toF : Nat → ℝ) {o : MultioptObj ℝ} {ax n : Nat}
    (ha : o.mem "axis_nmax_plus_1" = .ints [(ax : Int)]) (hn : o.mem "n_scan" = .ints [(n : Int)]) (hax : 0 < ax)
    (hm : ∀ p ∈ multioptMembers, Fits o.mem (sizes [ax, n]) p.1 p.2) :
    ∃ f, writeMultiopt toF o = .ok f ∧ (f.vars.map (·.name)).Nodup ∧
      [("axis_nmax_plus_1", ax), ("n_scan", n)] <+: f.dims ∧
      ∀ c ∈ multioptCalls o.keepAll, ∀ e, entry toF (multioptScope o n) f.dims (c.toOp o.bigs) = some e →
        e ∈ contents f := by
  have hloc : ∀ p ∈ multioptMembers, p.1 ∉ ["general_option", "n_scan_int", "keep_all_int"] :=
    fun p hp => of_decide_eq_true (List.all_eq_true.mp multiopt_not_local p hp)
  have hfit : ∀ p ∈ multioptLocals ++ multioptMembers, Fits (multioptScope o n) (sizes [ax, n]) p.1 p.2 := by
    rw [multioptScope_eq]
    intro p hp
    rcases List.mem_append.mp hp with hp | hp
    · simp only [multioptLocals, all, List.map_cons, List.map_nil, List.cons_append, List.nil_append, List.mem_cons,
        List.not_mem_nil, or_false] at hp
      rcases hp with rfl | rfl | rfl <;> simp [Fits, withLocals, bit, List.lookup_cons]
    · exact fits_withLocals (hloc p hp) (hm p hp)
  have hcf : ∀ c ∈ multioptCalls o.keepAll, c.fits (multioptLocals ++ multioptMembers) 2 1 = true := fun c hc =>
    List.all_eq_true.mp multioptFits c ((multioptCalls_sublist _).subset hc)
  have hD : Dims [("axis_nmax_plus_1", ax), ("n_scan", n)] id 2 1 := by
    refine ⟨fun k hk => by simpa using hk, fun k hk => ?_⟩
    rcases k with _ | k <;> simp [dimAt] <;> omega
  have a1 : ([("axis_nmax_plus_1", ax), ("n_scan", n)].map (·.1)).Nodup := by
    change ["axis_nmax_plus_1", "n_scan"].Nodup; decide
  have a2 : [("axis_nmax_plus_1", ax), ("n_scan", n)].Pairwise fun a b => b.2 = 0 → a.2 ≠ 0 := by simp; omega
  have a3 : ∀ s ∈ [("axis_nmax_plus_1", ax), ("n_scan", n)].map (·.1), s.toList.head? ≠ some 'd' := by
    change ∀ s ∈ ["axis_nmax_plus_1", "n_scan"], s.toList.head? ≠ some 'd'; decide
  obtain ⟨f, h1, -, h3, -, -, h6, -⟩ := write_new (toF := toF) (eval := o.bigs)
    (m := multioptScope o n) (cs := multioptCalls o.keepAll) a1 a2 a3 (multioptNames _) hD hfit hcf
  refine ⟨f, ?_, h6 ▸ multioptNames _, h3, write_entries a1 a2 a3 (multioptNames _) hD hfit hcf h1⟩
  unfold writeMultiopt
  simp only [intMember, hn, ha, dimLength]
  rw [if_neg (by omega), if_neg (by omega)]
  exact h1

section
variable {toF : Nat → ℝ} {m : Mem ℝ} {keepAll : Bool} {val : String → Nat} {f : Netcdf.File ℝ} {ax k : Nat}
  (he : ∀ c ∈ multioptCalls keepAll, ∀ e, entry toF m f.dims (c.toOp val) = some e → e ∈ contents f)
  (hp : [("axis_nmax_plus_1", ax), ("n_scan", k)] <+: f.dims)
include he

theorem file_flt {a b : String} {x : ℝ} (hc : flt a b ∈ multioptCalls keepAll) (hm : m b = .flts [x]) : Scalar f a x :=
  ⟨_, he _ hc _ rfl, rfl, rfl, by simp [hm, Spec.Netcdf.first]⟩

theorem file_int {a b : String} {x : Int} (hc : int a b ∈ multioptCalls keepAll) (hm : m b = .ints [x]) :
    Integer f a x :=
  ⟨_, he _ hc _ rfl, rfl, rfl, by simp [hm, Spec.Netcdf.first]⟩

theorem file_big {a b : String} (hc : big a b ∈ multioptCalls keepAll) : Scalar f a (toF (val b)) :=
  ⟨_, he _ hc _ rfl, rfl, rfl, rfl⟩

theorem file_str {a b s : String} (hc : str a b ∈ multioptCalls keepAll) (hm : m b = .chars s.toList) : Text f a s :=
  ⟨_, _, he _ hc _ rfl, rfl, rfl, by simp [hm]⟩

include hp

theorem file_vec {a : String} {l : List ℝ} (hc : vec 1 a a ∈ multioptCalls keepAll) (hm : m a = .flts l)
    (hl : l.length = k) : Holds f a [("n_scan", k)] (.flts l) := by
  have h0 : dimAt f.dims 1 = ("n_scan", k) := dimAt_prefix hp (by simp)
  refine ⟨_, he _ hc _ rfl, rfl, by simp [h0], ?_⟩
  simp only [h0, hm]
  exact congrArg some (Output.first_all (by simp [size, hl]))

theorem file_intVec {a : String} {l : List Int} (hc : Call.op (.intVec 1 a a "" "") ∈ multioptCalls keepAll)
    (hm : m a = .ints l) (hl : l.length = k) : Holds f a [("n_scan", k)] (.ints l) := by
  have h0 : dimAt f.dims 1 = ("n_scan", k) := dimAt_prefix hp (by simp)
  refine ⟨_, he _ hc _ rfl, rfl, by simp [h0], ?_⟩
  simp only [h0, hm]
  exact congrArg some (Output.first_all (by simp [size, hl]))

theorem file_nd {a : String} {l : List ℝ} (hc : Call.op (.nd [0, 1] a a "" "") ∈ multioptCalls keepAll)
    (hm : m a = .flts l) (hl : l.length = ax * k) :
    Holds f a [("n_scan", k), ("axis_nmax_plus_1", ax)] (.flts l) := by
  have h1 : dimAt f.dims 0 = ("axis_nmax_plus_1", ax) := dimAt_prefix hp (by simp)
  have h2 : dimAt f.dims 1 = ("n_scan", k) := dimAt_prefix hp (by simp)
  refine ⟨_, he _ hc _ rfl, rfl, by simp [h1, h2], ?_⟩
  simp only [List.map_cons, List.map_nil, h1, h2, hm]
  exact congrArg some (Output.first_all (by simp [size, hl]))

end

/-! ## The members -/

def qNames : List String :=
  ["mo_ref.opts[0].q.nfp", "mo_ref.opts[0].q.sG", "mo_ref.opts[0].q.spsi",
   "mo_ref.opts[0].q.max_newton_iterations", "mo_ref.opts[0].q.max_linesearch_iterations",
   "mo_ref.opts[0].q.newton_tolerance", "mo_ref.opts[0].q.I2", "mo_ref.opts[0].q.B0", "mo_ref.opts[0].q.p2"]

def cNames : List String :=
  ["axis_nmax_plus_1", "n_scan", "total_cpu_seconds"] ++ counterNames.map fun x => "filters[" ++ x.1 ++ "]"

/-- The names of the members that `write` sets. -/
def memberNames : List String :=
  settingNames ++ qNames ++ cNames ++ counterNames.map (fun x => "filter_fractions[" ++ x.1 ++ "]") ++
  (unpackRows.map (·.1) ++ ["scan_helicity", "scan_n_evals"] ++ unpackBlocks.map (·.1))

theorem memberNames_nodup : memberNames.Nodup := by decide +kernel

theorem memberNames_local : ∀ a ∈ memberNames, a ∉ ["general_option", "n_scan_int", "keep_all_int"] := by
  decide +kernel

noncomputable def memberList (o : Sections.Obj ℝ) (q : QscIn ℝ) (nm : Nat) (cpu : ℝ) (m : Master ℝ) (idx : List Nat)
    (res : Nat → Final ℝ) : List (String × Data ℝ) :=
  settingNames.map (fun a => (a, dataOf (o a))) ++ qMembers q ++ counters m nm cpu ++ fractions m ++ arraysOf nm idx res

section
variable (m0 : Mem ℝ) (o : Sections.Obj ℝ) (q : QscIn ℝ) (nm : Nat) (cpu : ℝ) (m : Master ℝ) (idx : List Nat)
  (res : Nat → Final ℝ)

theorem memberList_names : (memberList o q nm cpu m idx res).map (·.1) = memberNames := by
  simp only [memberList, memberNames, List.map_append, List.map_map, fractions, arraysOf, counters, cNames]
  congr 1

theorem member {a : String × Data ℝ} (h : a ∈ memberList o q nm cpu m idx res) :
    assign m0 (memberList o q nm cpu m idx res) a.1 = a.2 :=
  assign_mem m0 ((memberList_names o q nm cpu m idx res) ▸ memberNames_nodup) h

theorem member_setting {a : String} (h : a ∈ settingNames) :
    assign m0 (memberList o q nm cpu m idx res) a = dataOf (o a) :=
  member (a := (a, dataOf (o a))) m0 o q nm cpu m idx res
    (List.mem_append_left _ (List.mem_append_left _ (List.mem_append_left _ (List.mem_append_left _
      (List.mem_map.2 ⟨a, h, rfl⟩)))))

theorem member_q {a : String × Data ℝ} (h : a ∈ qMembers q) :
    assign m0 (memberList o q nm cpu m idx res) a.1 = a.2 :=
  member m0 o q nm cpu m idx res
    (List.mem_append_left _ (List.mem_append_left _ (List.mem_append_left _ (List.mem_append_right _ h))))

theorem member_counter {a : String × Data ℝ} (h : a ∈ counters m nm cpu) :
    assign m0 (memberList o q nm cpu m idx res) a.1 = a.2 :=
  member m0 o q nm cpu m idx res (List.mem_append_left _ (List.mem_append_left _ (List.mem_append_right _ h)))

theorem member_filter {x : String × Nat} (h : x ∈ counterNames) :
    assign m0 (memberList o q nm cpu m idx res) ("filters[" ++ x.1 ++ "]") = .ints [counter m x.2] :=
  member_counter m0 o q nm cpu m idx res (a := ("filters[" ++ x.1 ++ "]", .ints [counter m x.2]))
    (List.mem_append_right _ (List.mem_map.2 ⟨x, h, rfl⟩))

theorem member_fraction {x : String × Nat} (h : x ∈ counterNames) :
    assign m0 (memberList o q nm cpu m idx res) ("filter_fractions[" ++ x.1 ++ "]") =
      .flts [(counter m x.2 : ℝ) / (counter m 0 : ℝ)] :=
  member (a := ("filter_fractions[" ++ x.1 ++ "]", .flts [(counter m x.2 : ℝ) / (counter m 0 : ℝ)])) m0
    o q nm cpu m idx res (List.mem_append_left _ (List.mem_append_right _ (List.mem_map.2 ⟨x, h, rfl⟩)))

theorem member_array {a : String × Data ℝ} (h : a ∈ arraysOf nm idx res) :
    assign m0 (memberList o q nm cpu m idx res) a.1 = a.2 :=
  member m0 o q nm cpu m idx res (List.mem_append_right _ h)

theorem meaning_rows : (∀ x ∈ meaning, x.1 ∈ unpackRows.map (·.1)) ∧ ∀ x ∈ modeMeaning, x.1 ∈ unpackBlocks.map (·.1) := by
  decide +kernel

theorem member_scalar {x : String × String} (h : x ∈ meaning) :
    assign m0 (memberList o q nm cpu m idx res) x.1 = .flts (idx.map fun i => (res i).get x.2) := by
  obtain ⟨y, hy, he⟩ := List.mem_map.1 (meaning_rows.1 x h)
  have := member_array (a := (y.1, .flts (idx.map fun i => (res i).get ((meaning.lookup y.1).getD "")))) m0 o q nm cpu m
    idx res (List.mem_append_left _ (List.mem_append_left _ (List.mem_map.2 ⟨y, hy, rfl⟩)))
  dsimp only at this he
  rwa [he, meaning_lookup.1 x h] at this

theorem member_helicity :
    assign m0 (memberList o q nm cpu m idx res) "scan_helicity" = .ints (idx.map fun i => (res i).helicity) :=
  member_array (a := ("scan_helicity", .ints (idx.map fun i => (res i).helicity))) m0 o q nm cpu m idx res
    (List.mem_append_left _ (List.mem_append_right _ (by simp)))

theorem member_evals :
    assign m0 (memberList o q nm cpu m idx res) "scan_n_evals" = .ints (idx.map fun i => (res i).nEvals) :=
  member_array (a := ("scan_n_evals", .ints (idx.map fun i => (res i).nEvals))) m0 o q nm cpu m idx res
    (List.mem_append_left _ (List.mem_append_right _ (by simp)))

theorem member_mode {x : String × String} (h : x ∈ modeMeaning) :
    assign m0 (memberList o q nm cpu m idx res) x.1 = .flts (idx.flatMap (modes nm res x.1)) := by
  obtain ⟨y, hy, he⟩ := List.mem_map.1 (meaning_rows.2 x h)
  have := member_array (a := (y.1, .flts (idx.flatMap (modes nm res y.1)))) m0 o q nm cpu m
    idx res (List.mem_append_right _ (List.mem_map.2 ⟨y, hy, rfl⟩))
  dsimp only at this he
  rwa [he] at this

theorem modes_length (a : String) : (idx.flatMap (modes nm res a)).length = nm * idx.length := by
  rw [List.length_flatMap, List.map_congr_left (g := fun _ => nm) fun i _ => by simp [modes]]
  simp [Nat.mul_comm]

theorem member_fits (hs : ∀ a ∈ settingNames, ∃ x, o a = some (.flt x)) :
    ∀ p ∈ multioptMembers, Fits (assign m0 (memberList o q nm cpu m idx res)) (sizes [nm, idx.length]) p.1 p.2 := by
  intro p hp
  unfold multioptMembers at hp
  simp only [List.mem_append, or_assoc] at hp
  have hq : ∀ a ∈ qMembers q, assign m0 (memberList o q nm cpu m idx res) a.1 = a.2 := fun a h =>
    member_q m0 o q nm cpu m idx res h
  have hcn : ∀ a ∈ counters m nm cpu, assign m0 (memberList o q nm cpu m idx res) a.1 = a.2 := fun a h =>
    member_counter m0 o q nm cpu m idx res h
  rcases hp with hp | hp | hp | hp | hp | hp | hp
  all_goals
    obtain ⟨a, ha, rfl⟩ := List.mem_map.1 hp
    clear hp
    dsimp only
  · simp only [List.mem_cons, List.not_mem_nil, or_false] at ha
    rcases ha with rfl | rfl | rfl | rfl | rfl | rfl | rfl
    · exact ⟨_, hq ("mo_ref.opts[0].q.nfp", .ints [q.nfp]) (by simp [qMembers])⟩
    · exact ⟨_, hq ("mo_ref.opts[0].q.sG", .ints [q.sG]) (by simp [qMembers])⟩
    · exact ⟨_, hq ("mo_ref.opts[0].q.spsi", .ints [q.spsi]) (by simp [qMembers])⟩
    · exact ⟨_, hq ("mo_ref.opts[0].q.max_newton_iterations", .ints [q.max_newton_iterations]) (by simp [qMembers])⟩
    · exact ⟨_, hq ("mo_ref.opts[0].q.max_linesearch_iterations", .ints [q.max_linesearch_iterations])
        (by simp [qMembers])⟩
    · exact ⟨_, hcn ("axis_nmax_plus_1", .ints [(nm : Int)]) (by simp [counters])⟩
    · exact ⟨_, hcn ("n_scan", .ints [counter m 1]) (by simp [counters])⟩
  · have : a ∈ counterNames.map fun x => "filters[" ++ x.1 ++ "]" := by
      clear hq hcn
      revert a
      decide +kernel
    obtain ⟨x, hx, rfl⟩ := List.mem_map.1 this
    exact ⟨_, member_filter m0 o q nm cpu m idx res hx⟩
  · have hor : a ∈ settingNames ∨ a ∈ ["total_cpu_seconds", "mo_ref.opts[0].q.newton_tolerance",
       "mo_ref.opts[0].q.I2", "mo_ref.opts[0].q.B0", "mo_ref.opts[0].q.p2"] := by
      clear hq hcn
      revert a
      decide +kernel
    rcases hor with h | h
    · obtain ⟨x, hx⟩ := hs a h
      exact ⟨x, by rw [member_setting m0 o q nm cpu m idx res h, hx]; rfl⟩
    · simp only [List.mem_cons, List.not_mem_nil, or_false] at h
      rcases h with rfl | rfl | rfl | rfl | rfl
      · exact ⟨_, hcn ("total_cpu_seconds", .flts [cpu]) (by simp [counters])⟩
      · exact ⟨_, hq ("mo_ref.opts[0].q.newton_tolerance", .flts [q.newton_tolerance]) (by simp [qMembers])⟩
      · exact ⟨_, hq ("mo_ref.opts[0].q.I2", .flts [q.I2]) (by simp [qMembers])⟩
      · exact ⟨_, hq ("mo_ref.opts[0].q.B0", .flts [q.B0]) (by simp [qMembers])⟩
      · exact ⟨_, hq ("mo_ref.opts[0].q.p2", .flts [q.p2]) (by simp [qMembers])⟩
  · have : a ∈ counterNames.map fun x => "filter_fractions[" ++ x.1 ++ "]" := by
      clear hq hcn
      revert a
      decide +kernel
    obtain ⟨x, hx, rfl⟩ := List.mem_map.1 this
    exact ⟨_, member_fraction m0 o q nm cpu m idx res hx⟩
  · have : a ∈ meaning.map (·.1) := by
      clear hq hcn
      revert a
      decide +kernel
    obtain ⟨x, hx, rfl⟩ := List.mem_map.1 this
    exact ⟨_, member_scalar m0 o q nm cpu m idx res hx, by simp [sizes]⟩
  · simp only [List.mem_cons, List.not_mem_nil, or_false] at ha
    rcases ha with rfl | rfl
    · exact ⟨_, member_helicity m0 o q nm cpu m idx res, by simp [sizes]⟩
    · exact ⟨_, member_evals m0 o q nm cpu m idx res, by simp [sizes]⟩
  · have : a ∈ modeMeaning.map (·.1) := by
      clear hq hcn
      revert a
      decide +kernel
    obtain ⟨x, hx, rfl⟩ := List.mem_map.1 this
    exact ⟨_, member_mode m0 o q nm cpu m idx res hx, by rw [modes_length]; simp [sizes]⟩

end

/-! ## Which calls are made -/

theorem calls : ∀ k : Bool, (meaning.all (fun a => decide (vec 1 a.1 a.1 ∈ multioptCalls k)) &&
    ["scan_helicity", "scan_n_evals"].all (fun a => decide (Call.op (.intVec 1 a a "" "") ∈ multioptCalls k)) &&
    modeMeaning.all (fun a => decide (Call.op (.nd [0, 1] a.1 a.1 "" "") ∈ multioptCalls k)) &&
    [("nfp", "mo_ref.opts[0].q.nfp"), ("sG", "mo_ref.opts[0].q.sG"), ("spsi", "mo_ref.opts[0].q.spsi"),
      ("max_newton_iterations", "mo_ref.opts[0].q.max_newton_iterations"),
      ("max_linesearch_iterations", "mo_ref.opts[0].q.max_linesearch_iterations"), ("n_scan", "n_scan_int"),
      ("keep_all", "keep_all_int"), ("attempts", "filters[ATTEMPTS]")].all
      (fun a => decide (int a.1 a.2 ∈ multioptCalls k)) &&
    [("newton_tolerance", "mo_ref.opts[0].q.newton_tolerance"), ("I2", "mo_ref.opts[0].q.I2"),
      ("B0", "mo_ref.opts[0].q.B0"), ("p2", "mo_ref.opts[0].q.p2"), ("fraction_kept", "filter_fractions[KEPT]")].all
      (fun a => decide (flt a.1 a.2 ∈ multioptCalls k)) &&
    decide (str "general_option" "general_option" ∈ multioptCalls k) &&
    decide (big "n_evals" "n_evals" ∈ multioptCalls k)) = true := by
  decide +kernel

/-- The counters in the file with the names they have in the code. -/
def filed : List (String × String × Nat) :=
  [("R0", "R0", 2), ("iota", "IOTA", 3), ("elongation", "ELONGATION", 4), ("L_grad_B", "L_GRAD_B", 5),
   ("B20_variation", "B20_VARIATION", 6), ("L_grad_grad_B", "L_GRAD_GRAD_B", 7),
   ("d2_volume_d_psi2", "D2_VOLUME_D_PSI2", 8), ("DMerc", "DMERC", 9), ("r_singularity", "R_SINGULARITY", 10),
   ("max_XY2", "MAX_XY2", 11), ("max_Z2", "MAX_Z2", 12), ("max_XY3", "MAX_XY3", 13),
   ("max_d_XY2_d_varphi", "MAX_D_XY2_D_VARPHI", 14), ("max_d_Z2_d_varphi", "MAX_D_Z2_D_VARPHI", 15),
   ("max_d_XY3_d_varphi", "MAX_D_XY3_D_VARPHI", 16)]

theorem calls_counters : ∀ k : Bool, (filed.all fun x =>
    decide (int ("rejected_due_to_" ++ x.1) ("filters[" ++ ("REJECTED_DUE_TO_" ++ x.2.1) ++ "]") ∈ multioptCalls k) &&
    decide (flt ("fraction_rejected_due_to_" ++ x.1) ("filter_fractions[" ++ ("REJECTED_DUE_TO_" ++ x.2.1) ++ "]") ∈
      multioptCalls k) && decide (("REJECTED_DUE_TO_" ++ x.2.1, x.2.2) ∈ counterNames)) = true := by
  decide +kernel

theorem calls_thresholds : (Spec.MultiScanRun.thresholds.all fun x =>
    decide (flt x.2.2.1 x.2.2.1 ∈ multioptCalls false) && decide (x.2.2.1 ∈ settingNames)) = true := by
  decide +kernel

/-- What the file of a scan says. -/
structure Written (toF : Nat → ℝ) (o : Sections.Obj ℝ) (q : QscIn ℝ) (nm : Nat) (m : Master ℝ) (idx : List Nat)
    (res : Nat → Final ℝ) (f : Netcdf.File ℝ) : Prop where
  names : (f.vars.map (·.name)).Nodup
  settings : Spec.MultiScanRun.Settings f o q
  scalars : ∀ x ∈ meaning, ∀ k i, idx[k]? = some i → Column f idx.length x.1 k ((res i).get x.2)
  helicity : ∀ k i, idx[k]? = some i → IntColumn f idx.length "scan_helicity" k (res i).helicity
  evals : ∀ k i, idx[k]? = some i → IntColumn f idx.length "scan_n_evals" k (res i).nEvals
  vectors : ∀ x ∈ modeMeaning, ∀ k i, idx[k]? = some i → AxisColumn f idx.length x.1 k
    ((List.range nm).map fun k => ((res i).vec x.2).getD k 0)
  n_scan : Integer f "n_scan" idx.length
  attempts : Integer f "attempts" (counter m 0)
  n_evals : Scalar f "n_evals" (toF m.nEvals.toNat)
  counters : ∀ x ∈ filed, Integer f ("rejected_due_to_" ++ x.1) (counter m x.2.2) ∧
    Scalar f ("fraction_rejected_due_to_" ++ x.1) ((counter m x.2.2 : ℝ) / (counter m 0 : ℝ))
  fraction : Scalar f "fraction_kept" ((counter m 1 : ℝ) / (counter m 0 : ℝ))

theorem setting_flt {o : Sections.Obj ℝ} (ht : Typed multiScanDoc o) : ∀ a ∈ settingNames, ∃ x, o a = some (.flt x) := by
  intro a ha
  obtain ⟨v, hv, b, rfl⟩ := ht .flt a ⟨settingNames, by simp [multiScanDoc, settingNames], ha⟩
  exact ⟨b, hv⟩

set_option maxHeartbeats 800000 in
theorem write_file (toF : Nat → ℝ) (m0 : Mem ℝ) (cpu : ℝ) {r : Sections.MultiScanObj ℝ} {p : MultiScanPipeline.Plan}
    {q : QscIn ℝ} {m : Master ℝ} {s : Saved ℝ} {idx : List Nat} {res : Nat → Final ℝ}
    (ht : Typed multiScanDoc r.mem) (hq0 : MultiOptRun.firstQ r.ref.opts = some q) (h0 : 0 < p.nm)
    (ha : arrays s p.nm = some (arraysOf p.nm idx res)) (hk : counter m 1 = idx.length) :
    ∃ f, write toF r p m0 cpu m s = .ok f ∧ Written toF r.mem q p.nm m idx res f := by
  obtain ⟨keepAll, hka⟩ : ∃ b, r.mem "keep_all" = some (.bool b) := by
    obtain ⟨v, e, b, rfl⟩ := ht .bool "keep_all" (by simp [Doc.Has, multiScanDoc])
    exact ⟨b, e⟩
  have hs := setting_flt ht
  obtain ⟨o, ho⟩ : ∃ o : Output.MultioptObj ℝ,
      o = ⟨keepAll, fun b => if b = "n_evals" then m.nEvals.toNat else 0,
        assign m0 (memberList r.mem q p.nm cpu m idx res)⟩ := ⟨_, rfl⟩
  have omem : o.mem = assign m0 (memberList r.mem q p.nm cpu m idx res) := by rw [ho]
  have oall : o.keepAll = keepAll := by rw [ho]
  have hax : o.mem "axis_nmax_plus_1" = .ints [(p.nm : Int)] := by
    rw [omem]; exact member_counter m0 _ _ _ _ _ _ _ (a := ("axis_nmax_plus_1", .ints [(p.nm : Int)])) (by simp [counters])
  have hn : o.mem "n_scan" = .ints [(idx.length : Int)] := by
    rw [omem, ← hk]; exact member_counter m0 _ _ _ _ _ _ _ (a := ("n_scan", .ints [counter m 1])) (by simp [counters])
  have hfit : ∀ a ∈ multioptMembers, Fits o.mem (sizes [p.nm, idx.length]) a.1 a.2 := by
    rw [omem]; exact member_fits m0 _ _ _ _ _ _ _ hs
  obtain ⟨f, hf, hnames, hdims, hent⟩ := multiopt_entries toF hax hn h0 hfit
  rw [oall] at hent
  have hbig : o.bigs "n_evals" = m.nEvals.toNat := by rw [ho]; rfl
  have hw : write toF r p m0 cpu m s = .ok f := by
    unfold write
    simp only [Pipeline.getBool, hka, hq0, ha]
    rw [ho] at hf
    unfold memberList at hf
    rw [hf]
  refine ⟨f, hw, ?_⟩
  have loc : ∀ a, a ∈ memberNames → multioptScope o idx.length a = o.mem a := by
    intro a h
    rw [multioptScope_eq]
    exact withLocals_of_not_mem (memberNames_local a h)
  have inl : ∀ a ∈ memberList r.mem q p.nm cpu m idx res, a.1 ∈ memberNames := fun a h => by
    rw [← memberList_names r.mem q p.nm cpu m idx res]
    exact List.mem_map_of_mem h
  have hset : ∀ a, a ∈ settingNames → multioptScope o idx.length a = dataOf (r.mem a) := fun a h =>
    (loc a (List.mem_append_left _ (List.mem_append_left _ (List.mem_append_left _ (List.mem_append_left _ h))))).trans
      (omem ▸ member_setting m0 _ _ _ _ _ _ _ h)
  have hq : ∀ a ∈ qMembers q, multioptScope o idx.length a.1 = a.2 := fun a h =>
    (loc a.1 (inl a (List.mem_append_left _ (List.mem_append_left _ (List.mem_append_left _
      (List.mem_append_right _ h)))))).trans (omem ▸ member_q m0 _ _ _ _ _ _ _ h)
  have hfr : ∀ x ∈ counterNames, multioptScope o idx.length ("filter_fractions[" ++ x.1 ++ "]") =
      .flts [(counter m x.2 : ℝ) / (counter m 0 : ℝ)] := fun x h =>
    (loc _ (List.mem_append_left _ (List.mem_append_right _ (List.mem_map.2 ⟨x, h, rfl⟩)))).trans
      (omem ▸ member_fraction m0 _ _ _ _ _ _ _ h)
  have hfi : ∀ x ∈ counterNames, multioptScope o idx.length ("filters[" ++ x.1 ++ "]") = .ints [counter m x.2] :=
    fun x h => (loc _ (List.mem_append_left _ (List.mem_append_left _ (List.mem_append_right _ (List.mem_append_right _
      (List.mem_map.2 ⟨x, h, rfl⟩)))))).trans (omem ▸ member_filter m0 _ _ _ _ _ _ _ h)
  have hsc : ∀ x ∈ meaning, multioptScope o idx.length x.1 = .flts (idx.map fun i => (res i).get x.2) := fun x h =>
    (loc _ (List.mem_append_right _ (List.mem_append_left _ (List.mem_append_left _ (meaning_rows.1 x h))))).trans
      (omem ▸ member_scalar m0 _ _ _ _ _ _ _ h)
  have hhel : multioptScope o idx.length "scan_helicity" = .ints (idx.map fun i => (res i).helicity) :=
    (loc _ (List.mem_append_right _ (List.mem_append_left _ (List.mem_append_right _ (by simp))))).trans
      (omem ▸ member_helicity m0 _ _ _ _ _ _ _)
  have hev : multioptScope o idx.length "scan_n_evals" = .ints (idx.map fun i => (res i).nEvals) :=
    (loc _ (List.mem_append_right _ (List.mem_append_left _ (List.mem_append_right _ (by simp))))).trans
      (omem ▸ member_evals m0 _ _ _ _ _ _ _)
  have hmo : ∀ x ∈ modeMeaning, multioptScope o idx.length x.1 = .flts (idx.flatMap (modes p.nm res x.1)) := fun x h =>
    (loc _ (List.mem_append_right _ (List.mem_append_right _ (meaning_rows.2 x h)))).trans
      (omem ▸ member_mode m0 _ _ _ _ _ _ _ h)
  have c1 := calls keepAll
  simp only [Bool.and_eq_true, List.all_eq_true, decide_eq_true_eq] at c1
  obtain ⟨⟨⟨⟨⟨⟨c1a, c1b⟩, c1c⟩, c1d⟩, c1e⟩, c1f⟩, c1g⟩ := c1
  have c4 := calls_counters keepAll
  simp only [Bool.and_eq_true, List.all_eq_true, decide_eq_true_eq] at c4
  refine ⟨hnames, ?_, ?_, ?_, ?_, ?_, ?_, ?_, ?_, ?_, ?_⟩
  · constructor
    · refine file_str hent c1f ?_
      rw [multioptScope_eq]
      rfl
    · intro a ha
      simp only [List.mem_cons, List.not_mem_nil, or_false] at ha
      rcases ha with rfl | rfl | rfl | rfl | rfl
      · exact file_int hent (c1d ("nfp", _) (by simp)) (hq ("mo_ref.opts[0].q.nfp", .ints [q.nfp]) (by simp [qMembers]))
      · exact file_int hent (c1d ("sG", _) (by simp)) (hq ("mo_ref.opts[0].q.sG", .ints [q.sG]) (by simp [qMembers]))
      · exact file_int hent (c1d ("spsi", _) (by simp))
          (hq ("mo_ref.opts[0].q.spsi", .ints [q.spsi]) (by simp [qMembers]))
      · exact file_int hent (c1d ("max_newton_iterations", _) (by simp))
          (hq ("mo_ref.opts[0].q.max_newton_iterations", .ints [q.max_newton_iterations]) (by simp [qMembers]))
      · exact file_int hent (c1d ("max_linesearch_iterations", _) (by simp))
          (hq ("mo_ref.opts[0].q.max_linesearch_iterations", .ints [q.max_linesearch_iterations]) (by simp [qMembers]))
    · intro a ha
      simp only [List.mem_cons, List.not_mem_nil, or_false] at ha
      rcases ha with rfl | rfl | rfl | rfl
      · exact file_flt hent (c1e ("newton_tolerance", _) (by simp))
          (hq ("mo_ref.opts[0].q.newton_tolerance", .flts [q.newton_tolerance]) (by simp [qMembers]))
      · exact file_flt hent (c1e ("I2", _) (by simp)) (hq ("mo_ref.opts[0].q.I2", .flts [q.I2]) (by simp [qMembers]))
      · exact file_flt hent (c1e ("B0", _) (by simp)) (hq ("mo_ref.opts[0].q.B0", .flts [q.B0]) (by simp [qMembers]))
      · exact file_flt hent (c1e ("p2", _) (by simp)) (hq ("mo_ref.opts[0].q.p2", .flts [q.p2]) (by simp [qMembers]))
    · refine ⟨keepAll, hka, file_int hent (c1d ("keep_all", "keep_all_int") (by simp)) ?_⟩
      rw [multioptScope_eq, ← oall]
      rfl
    · intro hfalse
      rw [hka] at hfalse
      have hk' : keepAll = false := by simpa using hfalse
      subst hk'
      have c3 := calls_thresholds
      simp only [Bool.and_eq_true, List.all_eq_true, decide_eq_true_eq] at c3
      intro x hx
      obtain ⟨t, ht⟩ := hs _ (c3 x hx).2
      exact ⟨t, ht, file_flt hent (c3 x hx).1 (by rw [hset _ (c3 x hx).2, ht]; rfl)⟩
  · intro x hx k i h
    exact ⟨_, file_vec hent hdims (c1a x hx) (hsc x hx) (by simp), by simp, by simp [h]⟩
  · intro k i h
    exact ⟨_, file_intVec hent hdims (c1b _ (by simp)) hhel (by simp), by simp, by simp [h]⟩
  · intro k i h
    exact ⟨_, file_intVec hent hdims (c1b _ (by simp)) hev (by simp), by simp, by simp [h]⟩
  · intro x hx k i h
    have hmd : ∀ i, modes p.nm res x.1 i = (List.range p.nm).map fun k => ((res i).vec x.2).getD k 0 := fun i => by
      unfold modes
      rw [meaning_lookup.2.1 x hx]
      rfl
    have hlen : ∀ i, (modes p.nm res x.1 i).length = p.nm := fun i => by simp [modes]
    rw [← hmd]
    refine ⟨idx.flatMap (modes p.nm res x.1), ?_, ?_, ?_⟩
    · rw [hlen]; exact file_nd hent hdims (c1c x hx) (hmo x hx) (modes_length _ _ _ _)
    · rw [hlen, modes_length, Nat.mul_comm]
    · intro j hj
      have := Collect.flatMap_getElem? (modes p.nm res x.1) p.nm idx (fun i _ => hlen i) k j (hlen i ▸ hj)
      rw [hlen, Nat.add_comm, Nat.mul_comm, this, h]
      rfl
  · refine file_int hent (c1d ("n_scan", "n_scan_int") (by simp)) ?_
    rw [multioptScope_eq]
    simp [withLocals, List.lookup_cons]
  · exact file_int hent (c1d ("attempts", "filters[ATTEMPTS]") (by simp)) (hfi ("ATTEMPTS", 0) (by simp [counterNames]))
  · have := file_big hent c1g
    rwa [hbig] at this
  · intro x hx
    obtain ⟨⟨d1, d2⟩, d3⟩ := c4 x hx
    exact ⟨file_int hent d1 (hfi _ d3), file_flt hent d2 (hfr _ d3)⟩
  · exact file_flt hent (c1e ("fraction_kept", _) (by simp)) (hfr ("KEPT", 1) (by simp [counterNames]))

end Qsc.MultiScanRun
