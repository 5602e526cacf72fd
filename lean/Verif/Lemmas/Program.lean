import Verif.Model.Program
import Verif.Spec.Program
import Verif.Props.OutputFiles

/-!
# Lemmas: the program
-/

namespace Qsc.Program
open Qsc.Netcdf Qsc.Output Qsc.Spec.Netcdf Qsc.Spec.Program

variable {F : Type}

/-! ## Names of variables -/

/-- The names of the variables of a file. -/
def names (f : File F) : List String := f.vars.map (·.name)

theorem modify_names (g : Var F → Var F) (hg : ∀ v, (g v).name = v.name) : ∀ (l : List (Var F)) (i : Nat),
    (l.modify i g).map (·.name) = l.map (·.name) := by
  intro l
  induction l with
  | nil => intro i; cases i <;> simp
  | cons v l ih =>
    intro i
    cases i with
    | zero => simp [hg]
    | succ i => simp [ih i]

theorem addAttribute_names (f : File F) (id : Nat) (a b : String) : names (addAttribute f id a b) = names f := by
  have h : ∀ (f : File F) k t, names (putAtt f id k t) = names f := fun f k t => modify_names _ (by simp) _ _
  unfold addAttribute
  dsimp only
  split_ifs <;> simp [h]

theorem putCommon_nodup {w w' : Writer F} {name : String} {ty : Ty} {dims : List Nat} {tag : Tag} {p : Ptr F}
    {att units : String} (h : putCommon w name ty dims tag p att units = .ok w') (hn : (names w.file).Nodup) :
    (names w'.file).Nodup := by
  unfold putCommon at h
  split at h
  · cases h
  rename_i f id hd
  injection h with h
  subst h
  rw [addAttribute_names]
  unfold defVar at hd
  split_ifs at hd with h1 h2 h3
  injection hd with hd
  injection hd with hd _
  subst hd
  unfold names
  rw [List.map_append]
  refine List.Nodup.append hn (by simp) ?_
  intro x hx hy
  simp only [List.map_cons, List.map_nil, List.mem_singleton] at hy
  subst hy
  obtain ⟨v, hv, e⟩ := List.mem_map.mp hx
  exact h1 (List.any_eq_true.mpr ⟨v, hv, by simpa using e⟩)

theorem defDim_names {f f' : File F} {n : String} {l d : Nat} (h : defDim f n l = .ok (f', d)) : names f' = names f := by
  unfold defDim at h
  split_ifs at h
  injection h with h
  injection h with h _
  subst h
  rfl

theorem step_nodup {toF : Nat → F} {m : Mem F} {w w' : Writer F} {op : Op} (h : step toF m w op = .ok w')
    (hn : (names w.file).Nodup) : (names w'.file).Nodup := by
  cases op with
  | dim name len =>
    unfold step at h
    dsimp only at h
    split at h
    · cases h
    rename_i hd
    injection h with h
    subst h
    rw [defDim_names hd]
    exact hn
  | str name a att =>
    unfold step at h
    dsimp only at h
    split at h
    · cases h
    split at h
    · cases h
    rename_i f d hd
    refine putCommon_nodup h ?_
    unfold stringDim at hd
    split at hd
    · injection hd with hd
      injection hd with hd _
      rw [← hd]
      exact hn
    · rw [defDim_names hd]
      exact hn
  | _ => exact putCommon_nodup h hn

theorem steps_nodup {toF : Nat → F} {m : Mem F} : ∀ {ops : List Op} {w w' : Writer F},
    ops.foldlM (step toF m) w = .ok w' → (names w.file).Nodup → (names w'.file).Nodup := by
  intro ops
  induction ops with
  | nil =>
    intro w w' h hn
    injection h with h
    exact h ▸ hn
  | cons op ops ih =>
    intro w w' h hn
    rw [List.foldlM_cons] at h
    cases hs : step toF m w op with
    | error e => rw [hs] at h; cases h
    | ok w1 =>
      rw [hs] at h
      exact ih h (step_nodup hs hn)

theorem close_names {m : Mem F} {ids : List Nat} {types : List Tag} {ptrs : List (Ptr F)} : ∀ {js : List Nat} {f f' : File F},
    js.foldlM (writeOne m ids types ptrs) f = .ok f' → names f' = names f := by
  intro js
  induction js with
  | nil =>
    intro f f' h
    injection h with h
    rw [h]
  | cons j js ih =>
    intro f f' h
    rw [List.foldlM_cons] at h
    cases hs : writeOne m ids types ptrs f j with
    | error e => rw [hs] at h; cases h
    | ok f1 =>
      rw [hs] at h
      rw [ih h]
      unfold writeOne at hs
      split at hs
      · split at hs
        · cases hs
        · cases hs
        · split at hs
          · cases hs
          · unfold putVar at hs
            split at hs
            · cases hs
            · split_ifs at hs
              injection hs with hs
              subst hs
              exact modify_names _ (by simp) _ _
      · cases hs

/-- The library refuses a second variable with the same name. -/
theorem run_nodup {toF : Nat → F} {m : Mem F} {base f : File F} {ops : List Op} (h : run toF m base ops = .ok f)
    (hb : (names base).Nodup) : (names f).Nodup := by
  unfold run at h
  split at h
  · cases h
  rename_i w hw
  have := steps_nodup hw hb
  unfold writeAndClose at h
  rw [close_names h]
  exact this

/-! ## Texts in a file -/

theorem run_clean {toF : Nat → F} {m : Mem F} {base f : File F} {ops : List Op}
    (hc : Clean (base.dims ++ dimOps ops)) (h : run toF m base ops = .ok f) : Clean f.dims := by
  unfold run at h
  cases hf : ops.foldlM (step toF m) (⟨base, [], [], []⟩ : Writer F) with
  | error e => rw [hf] at h; cases h
  | ok w =>
    rw [hf] at h
    have i := foldlM_inv ops [] (inv_start toF m base fun n l hl => hc n l (by simp [hl]))
      (fun n l hl => hc n l (List.mem_append_right _ (mem_dimOps.mpr hl))) hf
    obtain ⟨i1, i2, i3, i4, slots, i5, i6, i7, i8, i9⟩ := i
    have hs : ∀ s ∈ slots, tagTy s.tag = some s.v.ty := by
      intro s hs
      obtain ⟨op, -, g⟩ := forall₂_right i9 s hs
      exact g.2.2.1
    have hw : w.file = ⟨w.file.dims, base.vars ++ slots.map (·.v)⟩ := by rw [← i5]
    unfold writeAndClose at h
    simp only [i6, i7, i8, List.length_range'] at h
    rw [hw] at h
    obtain ⟨vs, hv, rfl⟩ := (close_iff hs slots.length (Nat.le_refl _) f).mp h
    exact i2

theorem run_keeps {toF : Nat → F} {m : Mem F} {base f : File F} {ops : List Op}
    (hc : Clean (base.dims ++ dimOps ops)) (h : run toF m base ops = .ok f) {name text : String}
    (ht : HasText base name text) : HasText f name text := by
  obtain ⟨-, -, -, slots, vs, -, -, hv⟩ := run_slots hc h
  obtain ⟨v, hm, hn, hd⟩ := ht
  exact ⟨v, by rw [hv]; exact List.mem_append_left _ hm, hn, hd⟩

theorem run_text {toF : Nat → F} {m : Mem F} {base f : File F} {ops : List Op} (hb : WellFormed base)
    (hc : Clean (base.dims ++ dimOps ops)) (h : run toF m base ops = .ok f) {name a t text : String}
    (hop : Op.str name a t ∈ ops) (ha : m a = .chars text.toList) : HasText f name text := by
  obtain ⟨hcon, -⟩ := run_contents hb hc h
  have hm : (⟨name, .chr, [(strDim (size (m a)), size (m a))], attributes t "", some (m a)⟩ : Entry F) ∈ contents f := by
    rw [hcon]
    exact List.mem_append_right _ (List.mem_filterMap.mpr ⟨_, hop, rfl⟩)
  obtain ⟨v, hv, e⟩ := List.mem_map.mp hm
  refine ⟨v, hv, congrArg Entry.name e, ?_⟩
  rw [← ha]
  exact congrArg Entry.data e

theorem dimOps_calls (eval : String → Nat) (D : List (String × Nat)) (cs : List Call)
    (hcs : ∀ c ∈ cs, ∀ n l, c ≠ .op (.dim n l)) :
    dimOps ((D.map fun d => Op.dim d.1 d.2) ++ cs.map (Call.toOp eval)) = D := by
  have h0 : ∀ a b : List Op, dimOps (a ++ b) = dimOps a ++ dimOps b := fun a b => by
    unfold dimOps
    rw [List.filterMap_append]
  have h1 : dimOps (D.map fun d => Op.dim d.1 d.2) = D := by
    induction D with
    | nil => rfl
    | cons d D ih =>
      rw [List.map_cons, ← List.singleton_append, h0, ih]
      rfl
  have h2 : dimOps (cs.map (Call.toOp eval)) = [] := by
    rw [List.eq_nil_iff_forall_not_mem]
    rintro ⟨n, l⟩ hm
    obtain ⟨c, hc, e⟩ := List.mem_map.mp (mem_dimOps.mp hm)
    cases c with
    | op o => exact hcs _ hc n l (congrArg Call.op e)
    | big n a => cases e
  rw [h0, h1, h2, List.append_nil]

def noDim (c : Call) : Bool := match c with
  | .op (.dim _ _) => false
  | _ => true

theorem noDim_ne {cs : List Call} (h : cs.all noDim = true) : ∀ c ∈ cs, ∀ n l, c ≠ .op (.dim n l) := by
  rintro c hc n l rfl
  exact absurd (List.all_eq_true.mp h _ hc) (by simp [noDim])

theorem qsc_noDim : ∀ fl, (qscCalls fl).all noDim = true := by
  rintro ⟨_ | _, _ | _, _ | _⟩ <;> decide +kernel

theorem scan_noDim : ∀ a b, (scanCalls a b).all noDim = true := by
  rintro (_ | _) (_ | _) <;> decide +kernel

theorem multi_noDim : ∀ a, (multioptCalls a).all noDim = true := by
  rintro (_ | _) <;> decide +kernel

theorem opt_noDim (a b : Nat) : (optCalls a b).all noDim = true := by
  unfold optCalls
  simp [noDim, ints, flts, vecs, intVecs, arrays, List.all_append, List.all_map, int, flt, vec]

theorem qsc_general : ∀ fl, str "general_option" "general_option" ∈ qscCalls fl := by
  rintro ⟨_ | _, _ | _, _ | _⟩ <;> decide +kernel

theorem scan_general : ∀ a b, str "general_option" "general_option" ∈ scanCalls a b := by
  rintro (_ | _) (_ | _) <;> decide +kernel

theorem multi_general : ∀ a, str "general_option" "general_option" ∈ multioptCalls a := by
  rintro (_ | _) <;> decide +kernel

theorem clean3 (x y z : Nat) : Clean [("nphi", x), ("axis_nmax_plus_1", y), ("normal_binormal_tangent", z)] :=
  clean_of (by change ∀ s ∈ ["nphi", "axis_nmax_plus_1", "normal_binormal_tangent"], s.toList.head? ≠ some 'd'; decide)

theorem clean3' (x y z : Nat) : Clean [("nphi", x), ("axis_nmax_plus_1", y), ("n_scan", z)] :=
  clean_of (by change ∀ s ∈ ["nphi", "axis_nmax_plus_1", "n_scan"], s.toList.head? ≠ some 'd'; decide)

theorem clean2 (x y : Nat) : Clean [("axis_nmax_plus_1", x), ("n_scan", y)] :=
  clean_of (by change ∀ s ∈ ["axis_nmax_plus_1", "n_scan"], s.toList.head? ≠ some 'd'; decide)

theorem general_op {cs : List Call} (eval : String → Nat) (D : List Op)
    (h : str "general_option" "general_option" ∈ cs) :
    Op.str "general_option" "general_option" "" ∈ D ++ cs.map (Call.toOp eval) :=
  List.mem_append_right _ (List.mem_map.mpr ⟨_, h, rfl⟩)

theorem writeQsc_text {toF : Nat → F} {o : Output.Obj F} {f : File F} (h : writeQsc toF o = .ok f) :
    HasText f "general_option" "single" ∧ Clean f.dims := by
  unfold writeQsc at h
  split at h
  · cases h
  · cases h
  · rename_i n ax _ _
    split at h
    · cases h
    · rename_i k _
      have hD := dimOps_calls (fun _ => 0) [("nphi", k), ("axis_nmax_plus_1", ax), ("normal_binormal_tangent", 3)]
        (qscCalls o.fl) (noDim_ne (qsc_noDim _))
      simp only [List.map_cons, List.map_nil] at hD
      have hc : Clean (([] : List (String × Nat)) ++ dimOps ([.dim "nphi" k, .dim "axis_nmax_plus_1" ax,
          .dim "normal_binormal_tangent" 3] ++ (qscCalls o.fl).map (Call.toOp fun _ => 0))) := by
        rw [hD, List.nil_append]
        exact clean3 _ _ _
      refine ⟨run_text (a := "general_option") (t := "") (by intro v hv; simp at hv) hc h
        (general_op _ _ (qsc_general _)) ?_, run_clean hc h⟩
      simp [qscScope, Output.set]

theorem writeOpt_text {toF : Nat → F} {o : Output.OptObj F} {f : File F} (h : writeOpt toF o = .ok f) :
    HasText f "general_option" "single" := by
  unfold writeOpt at h
  cases hq : writeQsc toF o.q with
  | error e => rw [hq] at h; cases h
  | ok f0 =>
    obtain ⟨h1, h2⟩ := writeQsc_text hq
    rw [hq] at h
    dsimp only at h
    split at h
    · cases h
    · rename_i ax _
      split at h
      · cases h
      · split at h
        · cases h
        · rename_i k _
          have hD := dimOps_calls (fun _ => 0) [("n_iter", k)] (optCalls ax f0.dims.length) (noDim_ne (opt_noDim _ _))
          simp only [List.map_cons, List.map_nil] at hD
          refine run_keeps ?_ h h1
          rw [hD]
          intro n l hm
          rcases List.mem_append.mp hm with hm | hm
          · exact h2 n l hm
          · have : Clean [("n_iter", k)] := clean_of (by change ∀ s ∈ ["n_iter"], s.toList.head? ≠ some 'd'; decide)
            exact this n l hm

theorem writeScan_text {toF : Nat → F} {o : Output.ScanObj F} {f : File F} (h : writeScan toF o = .ok f) :
    HasText f "general_option" "random" := by
  unfold writeScan at h
  split at h
  · cases h
  · cases h
  · rename_i n ax _ _
    split at h
    · cases h
    · rename_i k _
      have hD := dimOps_calls o.bigs [("nphi", k), ("axis_nmax_plus_1", ax), ("n_scan", o.bigs "n_scan")]
        (scanCalls o.r2 o.keepAll) (noDim_ne (scan_noDim _ _))
      simp only [List.map_cons, List.map_nil] at hD
      refine run_text (a := "general_option") (t := "") (by intro v hv; simp at hv) ?_ h
        (general_op _ _ (scan_general _ _)) (by simp [scanScope, Output.set])
      rw [hD, List.nil_append]
      exact clean3' _ _ _

theorem writeMultiopt_text {toF : Nat → F} {o : Output.MultioptObj F} {f : File F} (h : writeMultiopt toF o = .ok f) :
    HasText f "general_option" "multiopt_scan" := by
  unfold writeMultiopt at h
  split at h
  · cases h
  · cases h
  · rename_i n ax _ _
    split at h
    · cases h
    · cases h
    · rename_i a b _ _
      have hD := dimOps_calls o.bigs [("axis_nmax_plus_1", a), ("n_scan", b)]
        (multioptCalls o.keepAll) (noDim_ne (multi_noDim _))
      simp only [List.map_cons, List.map_nil] at hD
      refine run_text (a := "general_option") (t := "") (by intro v hv; simp at hv) ?_ h
        (general_op _ _ (multi_general _)) (by simp [multioptScope, Output.set])
      rw [hD, List.nil_append]
      exact clean2 _ _

theorem writeQsc_nodup {toF : Nat → F} {o : Output.Obj F} {f : File F} (h : writeQsc toF o = .ok f) :
    (names f).Nodup := by
  unfold writeQsc at h
  split at h
  · cases h
  · cases h
  · split at h
    · cases h
    · exact run_nodup h (by simp [names])

theorem writeOpt_nodup {toF : Nat → F} {o : Output.OptObj F} {f : File F} (h : writeOpt toF o = .ok f) :
    (names f).Nodup := by
  unfold writeOpt at h
  cases hq : writeQsc toF o.q with
  | error e => rw [hq] at h; cases h
  | ok f0 =>
    rw [hq] at h
    dsimp only at h
    split at h
    · cases h
    split at h
    · cases h
    split at h
    · cases h
    · exact run_nodup h (writeQsc_nodup hq)

theorem writeScan_nodup {toF : Nat → F} {o : Output.ScanObj F} {f : File F} (h : writeScan toF o = .ok f) :
    (names f).Nodup := by
  unfold writeScan at h
  split at h
  · cases h
  · cases h
  · split at h
    · cases h
    · exact run_nodup h (by simp [names])

theorem writeMultiopt_nodup {toF : Nat → F} {o : Output.MultioptObj F} {f : File F} (h : writeMultiopt toF o = .ok f) :
    (names f).Nodup := by
  unfold writeMultiopt at h
  split at h
  · cases h
  · cases h
  · split at h
    · cases h
    · cases h
    · exact run_nodup h (by simp [names])

/-! ## Sections that are not read -/

theorem findSection_congr {f f' : Sections.File F} {s : String} (h : f.lookup s = f'.lookup s) :
    Sections.findSection f s = Sections.findSection f' s := by
  have e : ∀ (l : Sections.File F), Sections.findSection l s = match l.lookup s with
      | some t => .ok t
      | none => .error (.noSection s) := by
    intro l
    unfold Sections.findSection
    induction l with
    | nil => rfl
    | cons x l ih =>
      obtain ⟨a, b⟩ := x
      by_cases h : a = s
      · subst h
        simp
      · have h2 : (s == a) = false := by simpa using fun e => h e.symm
        rw [List.find?_cons_of_neg (by simp [h]), List.lookup_cons, h2, ih]
  rw [e, e, h]

section
variable {ofInt : Int → F} {zero : F} {f f' : Sections.File F}

theorem inputQsc_congr (h : f.lookup "qsc" = f'.lookup "qsc") (d : Toml.QscIn F) :
    Sections.inputQsc ofInt zero f d = Sections.inputQsc ofInt zero f' d := by
  unfold Sections.inputQsc
  rw [findSection_congr h]

theorem scanInput_congr (h : f.lookup "qsc" = f'.lookup "qsc") (h2 : f.lookup "scan" = f'.lookup "scan")
    (d : Sections.ScanObj F) : Sections.scanInput ofInt zero f d = Sections.scanInput ofInt zero f' d := by
  unfold Sections.scanInput
  rw [findSection_congr h2, inputQsc_congr h]

theorem optInput_congr (h : f.lookup "qsc" = f'.lookup "qsc") (d : Sections.OptObj F)
    (h2 : f.lookup d.group = f'.lookup d.group) :
    Sections.optInput ofInt zero f d = Sections.optInput ofInt zero f' d := by
  unfold Sections.optInput
  rw [findSection_congr h2, inputQsc_congr h]

theorem readStages_congr (h : f.lookup "qsc" = f'.lookup "qsc") (new : Sections.OptObj F)
    (h2 : ∀ j : Nat, f.lookup ("opt" ++ Nat.repr j) = f'.lookup ("opt" ++ Nat.repr j)) : ∀ n j : Nat,
    Sections.readStages ofInt zero f new j n = Sections.readStages ofInt zero f' new j n := by
  intro n
  induction n with
  | zero => intro j; rfl
  | succ n ih =>
    intro j
    unfold Sections.readStages
    rw [optInput_congr h _ (h2 j), ih]

theorem multioptInput_congr (h : f.lookup "qsc" = f'.lookup "qsc") (h1 : f.lookup "multiopt" = f'.lookup "multiopt")
    (h2 : ∀ j : Nat, f.lookup ("opt" ++ Nat.repr j) = f'.lookup ("opt" ++ Nat.repr j)) (new : Sections.OptObj F)
    (d : Sections.MultiOptObj F) :
    Sections.multioptInput ofInt zero f new d = Sections.multioptInput ofInt zero f' new d := by
  unfold Sections.multioptInput
  rw [findSection_congr h1]
  simp only [readStages_congr h new h2]

theorem multiScanInput_congr (h : f.lookup "qsc" = f'.lookup "qsc") (h1 : f.lookup "multiopt" = f'.lookup "multiopt")
    (h2 : ∀ j : Nat, f.lookup ("opt" ++ Nat.repr j) = f'.lookup ("opt" ++ Nat.repr j))
    (h3 : f.lookup "multiopt_scan" = f'.lookup "multiopt_scan") (new : Sections.OptObj F) (d : Sections.MultiScanObj F) :
    Sections.multiScanInput ofInt zero f new d = Sections.multiScanInput ofInt zero f' new d := by
  unfold Sections.multiScanInput
  rw [findSection_congr h3, multioptInput_congr h h1 h2]

end
end Qsc.Program
