import Verif.Props.Output

/-!
# The files of an optimisation and of the two scans (C62)
-/

namespace Qsc.Output
open Qsc.Netcdf Qsc.Spec.Netcdf Qsc.Spec.Output

variable {F : Type}

/-! ## Optimisation -/

/-- Lengths of the dimensions of the members of an `Opt`. -/
def optSizes (ax n : Nat) : Nat → Nat := fun k => if k = 0 then ax else n

/-- What `Opt::write_netcdf` adds to the file of its configuration. -/
theorem opt_added (toF : Nat → F) {o : OptObj F} {n ax k : Nat} {f : File F} (h1 : writeQsc toF o.q = .ok f)
    (h2 : WellFormed f) (h3 : [("nphi", n), ("axis_nmax_plus_1", ax), ("normal_binormal_tangent", 3)] <+: f.dims)
    (h4 : (f.dims.map (·.1)).Nodup)
    (h5 : ∀ d ∈ f.dims, d ∈ [("nphi", n), ("axis_nmax_plus_1", ax), ("normal_binormal_tangent", 3)] ∨
      ∃ k, 0 < k ∧ d = (strDim k, k))
    (h6 : f.vars.map (·.name) = (qscCalls o.q.fl).map Call.name) (hnpos : 0 < n) (hapos : 0 < ax)
    (hk : o.mem "n_iter" = .ints [(k : Int)]) (hm : ∀ p ∈ optMembers, Fits o.mem (optSizes ax k) p.1 p.2) :
    ∃ f', writeOpt toF o = .ok f' ∧ (f'.vars.map (·.name)).Nodup ∧
      (∀ e ∈ contents f, e ∈ contents f') ∧
      (∀ e ∈ contents f', e ∈ contents f ∨
        if e.name = "iter_curvature_term" then e.data = some (first k (o.mem "iter_elongation_term"))
        else Faithful toF [] (fun _ => 0) o.mem e) ∧
      (∀ p ∈ optMembers, p.2 = .atLeast [1] → p.1 ≠ "iter_curvature_term" →
        ∃ e ∈ contents f', e.name = p.1 ∧ e.dims = [("n_iter", k)] ∧ e.data = some (first k (o.mem p.1))) ∧
      (∀ p ∈ optMembers, p.2 = .atLeast [0, 1] → ∃ e ∈ contents f', e.name = p.1 ∧
        e.dims = [("n_iter", k), ("axis_nmax_plus_1", ax)] ∧ e.data = some (first (ax * k) (o.mem p.1))) ∧
      (∃ e ∈ contents f', e.name = "iter_curvature_term" ∧ e.ty = .flt ∧ e.dims = [("n_iter", k)] ∧
        e.data = some (first k (o.mem "iter_elongation_term"))) ∧
      (∀ a, int a a ∈ optCalls 0 1 ∨ flt a a ∈ optCalls 0 1 →
        ∃ e ∈ contents f', e.name = a ∧ e.dims = [] ∧ e.data = some (first 1 (o.mem a))) ∧
      ∀ a, Call.op (.intVec 1 a a "" "") ∈ optCalls 0 1 →
        ∃ e ∈ contents f', e.name = a ∧ e.dims = [("n_iter", k)] ∧ e.data = some (first k (o.mem a)) := by
  have hax : inqDim f "axis_nmax_plus_1" = some 1 := by
    obtain ⟨r, hr⟩ := h3
    unfold inqDim
    rw [← hr]
    simp [List.findIdx?_cons]
  have hlen : 3 ≤ f.dims.length := by
    have := h3.length_le
    simpa using this
  have hat : dimAt f.dims 1 = ("axis_nmax_plus_1", ax) := by
    obtain ⟨r, hr⟩ := h3
    rw [← hr]
    simp [dimAt]
  have hat1 : dimAt (f.dims ++ [("n_iter", k)]) 1 = ("axis_nmax_plus_1", ax) := by
    rw [← hat]
    exact dimAt_prefix (List.prefix_append _ _) (by omega)
  have hatn : dimAt (f.dims ++ [("n_iter", k)]) f.dims.length = ("n_iter", k) := by simp [dimAt]
  have hname : ∀ d ∈ f.dims, d.1 ≠ "n_iter" ∧ d.2 ≠ 0 := by
    intro d hd
    rcases h5 d hd with h | ⟨j, hj, rfl⟩
    · simp only [List.mem_cons, List.not_mem_nil, or_false] at h
      rcases h with rfl | rfl | rfl <;> exact ⟨by simp, by simp; try omega⟩
    · refine ⟨fun e => ?_, by simpa using (by omega : j ≠ 0)⟩
      have hl : (strDim j).toList.head? = some 'd' := by simp [strDim]
      rw [show strDim j = "n_iter" from e] at hl
      simp at hl
  have hclean : Clean (f.dims ++ [("n_iter", k)]) := by
    intro j l hm
    rcases List.mem_append.mp hm with hm | hm
    · rcases h5 _ hm with h | ⟨i, -, h⟩
      · have : Clean [("nphi", n), ("axis_nmax_plus_1", ax), ("normal_binormal_tangent", 3)] :=
          clean_of (by change ∀ s ∈ ["nphi", "axis_nmax_plus_1", "normal_binormal_tangent"], s.toList.head? ≠ some 'd'; decide)
        exact this j l h
      · -- the same name comes from the same length
        have e1 := congrArg Prod.fst h
        have e2 := congrArg Prod.snd h
        dsimp only at e1 e2
        rw [e2]
        exact (strDim_injective e1).symm
    · have : Clean [("n_iter", k)] := clean_of (by change ∀ s ∈ ["n_iter"], s.toList.head? ≠ some 'd'; decide)
      exact this j l hm
  let ρ : Nat → Nat := fun j => if j = 0 then 1 else f.dims.length
  have hlens : lens (f.dims ++ [("n_iter", k)]) ρ = optSizes ax k := by
    funext j
    by_cases hj : j = 0
    · subst hj; simp [lens, ρ, optSizes, hat1]
    · simp [lens, ρ, optSizes, hj, hatn]
  have hnames : (f.vars.map (·.name) ++ (optCalls 0 1).map Call.name).Nodup := by
    rw [h6]
    exact optNames.sublist (((qscCalls_sublist o.q.fl).map _).append (List.Sublist.refl _))
  obtain ⟨f', g1, g2, g3, g4, g5, g6, g7, g8, g9⟩ := write_calls (toF := toF) (eval := fun _ => 0) (m := o.mem) (base := f)
    (D := [("n_iter", k)]) (ρ := ρ) (n := 2) (z := 1) (t := optMembers) (cs := optCalls 0 1) h2
    (by
      rw [List.map_append, List.nodup_append]
      refine ⟨h4, by simp, ?_⟩
      intro a ha b hb e
      obtain ⟨d, hd, rfl⟩ := List.mem_map.mp ha
      simp only [List.map_cons, List.map_nil, List.mem_cons, List.not_mem_nil, or_false] at hb
      exact (hname d hd).1 (e.trans hb))
    (by
      rw [List.pairwise_append]
      refine ⟨List.Pairwise.imp_of_mem (fun {a b} ha _ _ _ => (hname a ha).2) (List.pairwise_of_forall fun _ _ => trivial),
        by simp, fun a ha b _ _ => (hname a ha).2⟩)
    hclean hnames
    ⟨fun j hj => by simp only [ρ, List.length_append, List.length_cons, List.length_nil]; split <;> omega,
      fun j hj => by
        have : j = 0 := by omega
        subst this
        simp only [ρ, if_true, hat1]; omega⟩
    (by rw [hlens]; exact hm) (List.all_eq_true.mp optFits)
  have p1 : dimAt f'.dims 1 = ("axis_nmax_plus_1", ax) := by
    rw [← hat1]; exact dimAt_prefix g3 (by simp; omega)
  have pn : dimAt f'.dims f.dims.length = ("n_iter", k) := by
    rw [← hatn]; exact dimAt_prefix g3 (by simp)
  have hvec : ∀ a b, Call.op (.fltVec 1 a b "" "") ∈ optCalls 0 1 →
      ∃ e ∈ contents f', e.name = a ∧ e.ty = .flt ∧ e.dims = [("n_iter", k)] ∧ e.data = some (first k (o.mem b)) := by
    intro a b h
    have := g9 _ h _ rfl
    refine ⟨_, this, rfl, rfl, ?_, ?_⟩
    · change [dimAt f'.dims f.dims.length] = _
      rw [pn]
    · change some (first (dimAt f'.dims f.dims.length).2 (o.mem b)) = _
      rw [pn]
  refine ⟨f', ?_, g6 ▸ hnames, g7, ?_, ?_, ?_, hvec _ _ optCurvature, ?_, ?_⟩
  · unfold writeOpt
    rw [h1]
    simp only [hax, intMember, hk, dimLength]
    rw [if_neg (by omega), Int.toNat_natCast]
    dsimp only
    rw [optCalls_renum, List.map_map]
    exact g1
  · intro e he
    rcases g8 e he with h | ⟨c, hc, h⟩
    · exact Or.inl h
    · right
      obtain ⟨e', h', hn, hd⟩ := call_entry (toF := toF) (dims' := f'.dims) (ρ := ρ) (dims := f.dims ++ [("n_iter", k)])
        (by rw [hlens]; exact hm) (fun _ => 0) (List.all_eq_true.mp optFits c hc)
      rw [h] at h'
      injection h' with h'
      subst h'
      split
      · rename_i hcur
        have hcc : c = .op (.fltVec 1 "iter_curvature_term" "iter_elongation_term" "" "") := by
          have hnd := (List.nodup_append.mp optNames).2.1
          exact List.inj_on_of_nodup_map hnd hc optCurvature (hn ▸ hcur)
        subst hcc
        injection h with h
        rw [← h]
        change some (first (dimAt f'.dims f.dims.length).2 _) = _
        rw [pn]
      · rename_i hcur
        have hb : Bears c.name c.addr = true :=
          List.all_eq_true.mp optBears c (List.mem_filter.mpr ⟨hc, by simpa using hn ▸ hcur⟩)
        rcases hd with hd | hd
        · exact ⟨c.addr, hn ▸ hb, Or.inl hd⟩
        · exfalso
          exact of_decide_eq_true (List.all_eq_true.mp optNoBig c hc) hd.1
  · intro p hp hs hne
    have := List.all_eq_true.mp optSaves p.1 (List.mem_filter.mpr ⟨named_mem hp (by simp [hs]), by simpa using hne⟩)
    obtain ⟨e, he, en, -, ed, ev⟩ := hvec p.1 p.1 (of_decide_eq_true this)
    exact ⟨e, he, en, ed, ev⟩
  · intro p hp hs
    have := List.all_eq_true.mp optSaves2 p.1 (named_mem hp (by simp [hs]))
    have he := g9 _ (of_decide_eq_true this) _ rfl
    refine ⟨_, he, rfl, ?_, ?_⟩
    · change ([dimAt f'.dims 1, dimAt f'.dims f.dims.length] : List (String × Nat)).reverse = _
      rw [pn, p1]; rfl
    · change some (first ([(dimAt f'.dims 1).2, (dimAt f'.dims f.dims.length).2] : List Nat).prod _) = _
      rw [pn, p1]
      simp
  · rintro a (h | h)
    · exact ⟨_, g9 _ h _ rfl, rfl, rfl, rfl⟩
    · exact ⟨_, g9 _ h _ rfl, rfl, rfl, rfl⟩
  · intro a h
    refine ⟨_, g9 _ h _ rfl, rfl, ?_, ?_⟩
    · change [dimAt f'.dims f.dims.length] = _
      rw [pn]
    · change some (first (dimAt f'.dims f.dims.length).2 (o.mem a)) = _
      rw [pn]

/-- **C62, partly.**  The file of an optimisation is the file of its configuration with the history added.
Writing succeeds, and each added variable holds the first `n_iter` elements of the array it is named after, with
one exception: `iter_curvature_term` holds `iter_elongation_term`. -/
theorem opt_written_partial (toF : Nat → F) {o : OptObj F} {n ax k : Nat} (ho : Configured o.q n ax)
    (hk : o.mem "n_iter" = .ints [(k : Int)]) (hm : ∀ p ∈ optMembers, Fits o.mem (optSizes ax k) p.1 p.2) :
    ∃ f f', writeQsc toF o.q = .ok f ∧ writeOpt toF o = .ok f' ∧ (f'.vars.map (·.name)).Nodup ∧
      (∀ e ∈ contents f, e ∈ contents f') ∧
      (∀ e ∈ contents f', e ∈ contents f ∨
        if e.name = "iter_curvature_term" then e.data = some (first k (o.mem "iter_elongation_term"))
        else Faithful toF [] (fun _ => 0) o.mem e) ∧
      (∀ p ∈ optMembers, p.2 = .atLeast [1] → p.1 ≠ "iter_curvature_term" →
        ∃ e ∈ contents f', e.name = p.1 ∧ e.dims = [("n_iter", k)] ∧ e.data = some (first k (o.mem p.1))) ∧
      (∀ p ∈ optMembers, p.2 = .atLeast [0, 1] → ∃ e ∈ contents f', e.name = p.1 ∧
        e.dims = [("n_iter", k), ("axis_nmax_plus_1", ax)] ∧ e.data = some (first (ax * k) (o.mem p.1))) ∧
      ∃ e ∈ contents f', e.name = "iter_curvature_term" ∧ e.ty = .flt ∧ e.dims = [("n_iter", k)] ∧
        e.data = some (first k (o.mem "iter_elongation_term")) := by
  obtain ⟨f, h1, h2, h3, h4, h5, h6, -, -⟩ := qsc_file toF ho
  obtain ⟨f', g1, g2, g3, g4, g5, g6, g7, -, -⟩ := opt_added toF h1 h2 h3 h4 h5 h6 ho.pos ho.axis hk hm
  exact ⟨f, f', h1, g1, g2, g3, g4, g5, g6, g7⟩

/-! The exception is an error of the program: the variable does not hold what it is named after. -/

def sampleConfig : Obj Int :=
  ⟨⟨true, false, true⟩, sample (qscMembers ⟨true, false, true⟩) (sizes [5, 2, 3]) fun a => if a = "nphi" then 5 else 1⟩

theorem sampleConfig_ok : Configured sampleConfig 5 2 where
  nphi := by decide +kernel
  pos := by decide
  axis := by decide
  fits := sample_fits (qscMembers_nodup _) _ _

def sampleOpt : OptObj Int :=
  ⟨sampleConfig, sample optMembers (optSizes 2 3) fun a =>
    if a = "n_iter" then 3 else if a = "iter_curvature_term" then 20 else 1⟩

theorem sampleOpt_iter : sampleOpt.mem "n_iter" = .ints [((3 : Nat) : Int)] := by decide +kernel

theorem sampleOpt_fits : ∀ p ∈ optMembers, Fits sampleOpt.mem (optSizes 2 3) p.1 p.2 :=
  sample_fits optMembers_nodup _ _

theorem curvature_bears : optMembers.all (fun p =>
    !Bears "iter_curvature_term" p.1 || p.1 == "iter_curvature_term") = true := by decide +kernel

/-- **C62 is false of the code** for `Opt::write_netcdf` (opt_write_netcdf.cpp, the line that writes
`iter_curvature_term`): a file that holds, under that name, something else. -/
theorem opt_false : ∃ (o : OptObj Int) (n ax k : Nat), Configured o.q n ax ∧ o.mem "n_iter" = .ints [(k : Int)] ∧
    (∀ p ∈ optMembers, Fits o.mem (optSizes ax k) p.1 p.2) ∧
    ∃ f, writeOpt (fun n => (n : Int)) o = .ok f ∧
      ∃ e ∈ contents f, e.name = "iter_curvature_term" ∧ ¬ Faithful (fun n => (n : Int)) [] (fun _ => 0) o.mem e := by
  refine ⟨sampleOpt, 5, 2, 3, sampleConfig_ok, sampleOpt_iter, sampleOpt_fits, ?_⟩
  obtain ⟨f, f', -, h2, -, -, -, -, -, e, he, en, ety, ed, ev⟩ :=
    opt_written_partial (fun n => (n : Int)) sampleConfig_ok sampleOpt_iter sampleOpt_fits
  refine ⟨f', h2, e, he, en, ?_⟩
  rintro ⟨a, hb, (⟨hd, ht⟩ | ⟨ha, -⟩)⟩
  · rw [ety] at ht
    obtain ⟨p, hp, rfl⟩ := sample_mem (t := optMembers) (len := optSizes 2 3)
      (x := fun a => if a = "n_iter" then 3 else if a = "iter_curvature_term" then 20 else 1) (a := a)
      (show tyOf (sampleOpt.mem a) ≠ .chr by rw [← ht]; decide)
    have := List.all_eq_true.mp curvature_bears p hp
    rw [← en, hb] at this
    have hn : p.1 = "iter_curvature_term" := by simpa [en] using this
    rw [hn, ev, ed] at hd
    revert hd
    decide +kernel
  · simp at ha

/-! ## Scan -/

theorem scanScope_eq (o : ScanObj F) : scanScope o = withLocals o.mem
    [("general_option", .chars "random".toList), ("at_least_order_r2_int", bit o.r2),
     ("n_scan_int", .ints [(o.bigs "n_scan" : Int)]), ("keep_all_int", bit o.keepAll),
     ("deterministic_int", bit o.deterministic)] := by
  funext a
  simp only [scanScope, set, withLocals, List.lookup_cons, List.lookup_nil]
  by_cases h1 : a = "general_option"
  · subst h1; simp
  by_cases h2 : a = "at_least_order_r2_int"
  · subst h2; simp [flag, bit]
  by_cases h3 : a = "n_scan_int"
  · subst h3; simp
  by_cases h4 : a = "keep_all_int"
  · subst h4; simp [flag, bit]
  by_cases h5 : a = "deterministic_int"
  · subst h5; simp [flag, bit]
  have e : ∀ s : String, a ≠ s → (a == s) = false := fun s h => by simpa using h
  simp [h1, h2, h3, h4, h5, e]

/-- **C62.**  The file of a scan: writing succeeds, also when nothing was kept, every variable holds what it is
named after, and every array with one element or one set of axis coefficients per configuration is in the file
under its own name, the second-order ones when the second order was solved. -/
theorem scan_written (toF : Nat → F) {o : ScanObj F} {n ax : Nat} (hn : o.mem "q.nphi" = .ints [(n : Int)])
    (hn0 : 0 < n) (hax : 0 < ax)
    (hm : ∀ p ∈ scanMembers, Fits o.mem (sizes [n, ax, o.bigs "n_scan"]) p.1 p.2) :
    ∃ f, writeScan toF o = .ok f ∧ (f.vars.map (·.name)).Nodup ∧
      (∀ e ∈ contents f, Faithful toF scanBigs o.bigs (withLocals o.mem
        [("general_option", .chars "random".toList), ("at_least_order_r2_int", bit o.r2),
         ("n_scan_int", .ints [(o.bigs "n_scan" : Int)]), ("keep_all_int", bit o.keepAll),
         ("deterministic_int", bit o.deterministic)]) e) ∧
      ∀ p ∈ scanMembers, p.2 ∈ ([.flts [2], .ints [2], .flts [1, 2]] : List Shape) →
        (p.1 ∈ secondOrder → o.r2 = true) → Has f o.mem p.1 := by
  have hloc : ∀ p ∈ scanMembers, p.1 ∉ ["general_option", "at_least_order_r2_int", "n_scan_int", "keep_all_int",
      "deterministic_int"] := fun p hp => of_decide_eq_true (List.all_eq_true.mp scan_not_local p hp)
  obtain ⟨l, hl, hlen⟩ : ∃ l, o.mem "R0c_max" = .flts l ∧ l.length = ax := by
    obtain ⟨l, hl, h⟩ := hm ("R0c_max", .flts [1]) (has_mem scanAxis)
    exact ⟨l, hl, by simpa [sizes] using h⟩
  rw [← scanScope_eq]
  have hfit : ∀ p ∈ scanLocals ++ scanMembers, Fits (scanScope o) (sizes [n, ax, o.bigs "n_scan"]) p.1 p.2 := by
    rw [scanScope_eq]
    intro p hp
    rcases List.mem_append.mp hp with hp | hp
    · simp only [scanLocals, all, List.map_cons, List.map_nil, List.cons_append, List.nil_append, List.mem_cons,
        List.not_mem_nil, or_false] at hp
      rcases hp with rfl | rfl | rfl | rfl | rfl <;> simp [Fits, withLocals, bit, List.lookup_cons]
    · exact fits_withLocals (hloc p hp) (hm p hp)
  have hcf : ∀ c ∈ scanCalls o.r2 o.keepAll, c.fits (scanLocals ++ scanMembers) 3 2 = true := fun c hc =>
    List.all_eq_true.mp scanFits c ((scanCalls_sublist _ _).subset hc)
  have hD : Dims [("nphi", n), ("axis_nmax_plus_1", ax), ("n_scan", o.bigs "n_scan")] id 3 2 := by
    refine ⟨fun k hk => by simpa using hk, fun k hk => ?_⟩
    rcases k with _ | _ | k <;> simp [dimAt] <;> omega
  obtain ⟨f, h1, -, -, -, -, h6, h7, h8⟩ := write_new (toF := toF) (eval := o.bigs)
    (D := [("nphi", n), ("axis_nmax_plus_1", ax), ("n_scan", o.bigs "n_scan")])
    (m := scanScope o) (cs := scanCalls o.r2 o.keepAll)
    (by change ["nphi", "axis_nmax_plus_1", "n_scan"].Nodup; decide)
    (by simp; omega)
    (by change ∀ s ∈ ["nphi", "axis_nmax_plus_1", "n_scan"], s.toList.head? ≠ some 'd'; decide)
    (scanNames _ _) hD hfit hcf
  refine ⟨f, ?_, h6 ▸ scanNames _ _, ?_, ?_⟩
  · unfold writeScan
    simp only [intMember, hn, vectorSize, hl, dimLength, hlen]
    rw [if_neg (by omega)]
    exact h1
  · intro e he
    obtain ⟨c, hc, hname, h⟩ := h7 e he
    have hc' := (scanCalls_sublist o.r2 o.keepAll).subset hc
    have hb : Bears c.name c.addr = true := List.all_eq_true.mp scanBears c hc'
    rcases h with h | h
    · exact ⟨c.addr, hname ▸ hb, Or.inl h⟩
    · refine ⟨c.addr, hname ▸ hb, Or.inr ⟨?_, h.2⟩⟩
      have := List.all_eq_true.mp scanBigCalls c hc'
      simp only [Bool.or_eq_true, decide_eq_true_eq] at this
      exact this.resolve_left fun hne => hne h.1
  · intro p hp hs h2
    have hsave : savesWhole scanMembers 3 (scanCalls o.r2 true) p.1 = true := by
      cases hr : o.r2
      · refine List.all_eq_true.mp scanSaves1 p.1 (List.mem_filter.mpr ⟨named_mem hp hs, ?_⟩)
        have : p.1 ∉ secondOrder := fun h => by simp [hr] at h2; exact h2 h
        simpa using this
      · exact List.all_eq_true.mp scanSaves2 p.1 (named_mem hp hs)
    obtain ⟨c, hc, e1, e2, e3⟩ := savesWhole_mem hsave
    obtain ⟨e, he, t1, t2, t3⟩ := h8 c (scanCalls_keep _ _ |>.subset hc) (whole_append _ e3)
    have heq : scanScope o c.addr = o.mem p.1 := by
      rw [e2, scanScope_eq]
      exact withLocals_of_not_mem (hloc p hp)
    rw [heq] at t2 t3
    exact ⟨e, he, t1.trans e1, t2, t3⟩

/-! ## Scan with optimisations -/

theorem multioptScope_eq (o : MultioptObj F) (n : Int) : multioptScope o n = withLocals o.mem
    [("general_option", .chars "multiopt_scan".toList), ("n_scan_int", .ints [n]), ("keep_all_int", bit o.keepAll)] := by
  funext a
  simp only [multioptScope, set, withLocals, List.lookup_cons, List.lookup_nil]
  by_cases h1 : a = "general_option"
  · subst h1; simp
  by_cases h2 : a = "n_scan_int"
  · subst h2; simp
  by_cases h3 : a = "keep_all_int"
  · subst h3; simp [flag, bit]
  have e : ∀ s : String, a ≠ s → (a == s) = false := fun s h => by simpa using h
  simp [h1, h2, h3, e]

/-- **C62.**  The same for the file of a scan with optimisations. -/
theorem multiopt_written (toF : Nat → F) {o : MultioptObj F} {ax n : Nat}
    (ha : o.mem "axis_nmax_plus_1" = .ints [(ax : Int)]) (hn : o.mem "n_scan" = .ints [(n : Int)]) (hax : 0 < ax)
    (hm : ∀ p ∈ multioptMembers, Fits o.mem (sizes [ax, n]) p.1 p.2) :
    ∃ f, writeMultiopt toF o = .ok f ∧ (f.vars.map (·.name)).Nodup ∧
      (∀ e ∈ contents f, Faithful toF multioptBigs o.bigs (withLocals o.mem
        [("general_option", .chars "multiopt_scan".toList), ("n_scan_int", .ints [(n : Int)]),
         ("keep_all_int", bit o.keepAll)]) e) ∧
      ∀ p ∈ multioptMembers, p.2 ∈ ([.flts [1], .ints [1], .flts [0, 1]] : List Shape) → Has f o.mem p.1 := by
  have hloc : ∀ p ∈ multioptMembers, p.1 ∉ ["general_option", "n_scan_int", "keep_all_int"] :=
    fun p hp => of_decide_eq_true (List.all_eq_true.mp multiopt_not_local p hp)
  rw [← multioptScope_eq]
  have hfit : ∀ p ∈ multioptLocals ++ multioptMembers, Fits (multioptScope o n) (sizes [ax, n]) p.1 p.2 := by
    rw [multioptScope_eq]
    intro p hp
    rcases List.mem_append.mp hp with hp | hp
    · simp only [multioptLocals, all, List.map_cons, List.map_nil, List.cons_append, List.nil_append, List.mem_cons,
        List.not_mem_nil, or_false] at hp
      rcases hp with rfl | rfl | rfl <;> simp [Fits, withLocals, bit, List.lookup_cons]
    · exact fits_withLocals (hloc p hp) (hm p hp)
  have hcf : ∀ c ∈ multioptCalls o.keepAll, c.fits (multioptLocals ++ multioptMembers) 2 1 = true := fun c hc =>
    List.all_eq_true.mp multioptFits c ((multioptCalls_sublist _).subset hc)
  have hD : Dims [("axis_nmax_plus_1", ax), ("n_scan", n)] id 2 1 := by
    refine ⟨fun k hk => by simpa using hk, fun k hk => ?_⟩
    rcases k with _ | k <;> simp [dimAt] <;> omega
  obtain ⟨f, h1, -, -, -, -, h6, h7, h8⟩ := write_new (toF := toF) (eval := o.bigs)
    (D := [("axis_nmax_plus_1", ax), ("n_scan", n)]) (m := multioptScope o n) (cs := multioptCalls o.keepAll)
    (by change ["axis_nmax_plus_1", "n_scan"].Nodup; decide)
    (by simp; omega)
    (by change ∀ s ∈ ["axis_nmax_plus_1", "n_scan"], s.toList.head? ≠ some 'd'; decide)
    (multioptNames _) hD hfit hcf
  refine ⟨f, ?_, h6 ▸ multioptNames _, ?_, ?_⟩
  · unfold writeMultiopt
    simp only [intMember, hn, ha, dimLength]
    rw [if_neg (by omega), if_neg (by omega)]
    exact h1
  · intro e he
    obtain ⟨c, hc, hname, h⟩ := h7 e he
    have hc' := (multioptCalls_sublist o.keepAll).subset hc
    have hb : Bears c.name c.addr = true := List.all_eq_true.mp multioptBears c hc'
    rcases h with h | h
    · exact ⟨c.addr, hname ▸ hb, Or.inl h⟩
    · refine ⟨c.addr, hname ▸ hb, Or.inr ⟨?_, h.2⟩⟩
      have := List.all_eq_true.mp multioptBigCalls c hc'
      simp only [Bool.or_eq_true, decide_eq_true_eq] at this
      exact this.resolve_left fun hne => hne h.1
  · intro p hp hs
    obtain ⟨c, hc, e1, e2, e3⟩ := savesWhole_mem (List.all_eq_true.mp multioptSaves p.1 (named_mem hp hs))
    obtain ⟨e, he, t1, t2, t3⟩ := h8 c (multioptCalls_keep _ |>.subset hc) (whole_append _ e3)
    have heq : multioptScope o n c.addr = o.mem p.1 := by
      rw [e2, multioptScope_eq]
      exact withLocals_of_not_mem (hloc p hp)
    rw [heq] at t2 t3
    exact ⟨e, he, t1.trans e1, t2, t3⟩

/-! ## Examples -/

/-- The whole round trip for a configuration of second order. -/
example : ∃ f o', writeQsc (fun n => (n : Int)) sampleConfig = .ok f ∧
    readC 0 f ⟨⟨false, false, false⟩, sample (qscMembers ⟨true, true, true⟩) (sizes [31, 1, 3]) fun _ => 0⟩ = .ok o' ∧
    o'.fl = sampleConfig.fl ∧ o'.mem "X20" = .flts [1, 2, 3, 4, 5] ∧ o'.mem "R0c" = .flts [0] := by
  obtain ⟨f, o', h1, h2, h3, -, h5, h6⟩ := round_trip (fun n => (n : Int)) 0
    (t := ⟨⟨false, false, false⟩, sample (qscMembers ⟨true, true, true⟩) (sizes [31, 1, 3]) fun _ => 0⟩)
    sampleConfig_ok (by decide) (fun p hp hs => by
      have := sample_fits (qscMembers_nodup ⟨true, true, true⟩) (sizes [31, 1, 3]) (fun _ => 0) p
        ((qscMembers_sublist _).subset hp)
      rcases hs with hs | hs <;> rw [hs] at this ⊢ <;> exact this)
  refine ⟨f, o', h1, h2, h3, (h5 _ (by decide +kernel)).trans (by decide +kernel), (h6 _ (by simp)).trans (by decide +kernel)⟩

example : ∃ o', allocate (0 : Int) ⟨⟨false, false, false⟩, set sampleConfig.mem "nphi" (.ints [4])⟩ = .ok o' ∧
    o'.mem "nphi" = .ints [5] ∧ o'.mem "sigma" = .flts [0, 0, 0, 0, 0] ∧ o'.mem "B20" = sampleConfig.mem "B20" :=
  ⟨_, rfl, by decide +kernel, by decide +kernel, by decide +kernel⟩

def sampleScan (n : Nat) : ScanObj Int :=
  ⟨true, false, true, fun a => if a = "n_scan" then n else 3,
    sample scanMembers (sizes [5, 2, n]) fun a => if a = "q.nphi" then 5 else 1⟩

example : ∃ f, writeScan (fun n => (n : Int)) (sampleScan 2) = .ok f ∧ Has f (sampleScan 2).mem "scan_R0c" := by
  obtain ⟨f, h1, -, -, h2⟩ := scan_written (fun n => (n : Int)) (o := sampleScan 2) (n := 5) (ax := 2) (by decide +kernel)
    (by decide) (by decide) (sample_fits scanMembers_nodup _ _)
  exact ⟨f, h1, h2 ("scan_R0c", .flts [1, 2]) (by decide +kernel) (by simp) (by decide +kernel)⟩

/-- No configuration was kept. -/
example : ∃ f, writeScan (fun n => (n : Int)) (sampleScan 0) = .ok f := by
  obtain ⟨f, h1, -⟩ := scan_written (fun n => (n : Int)) (o := sampleScan 0) (n := 5) (ax := 2) (by decide +kernel)
    (by decide) (by decide) (sample_fits scanMembers_nodup _ _)
  exact ⟨f, h1⟩

def sampleMultiopt : MultioptObj Int :=
  ⟨false, fun _ => 12, sample multioptMembers (sizes [3, 2]) fun a =>
    if a = "axis_nmax_plus_1" then 3 else if a = "n_scan" then 2 else 1⟩

example : ∃ f, writeMultiopt (fun n => (n : Int)) sampleMultiopt = .ok f ∧ Has f sampleMultiopt.mem "scan_initial_Z0s" := by
  obtain ⟨f, h1, -, -, h2⟩ := multiopt_written (fun n => (n : Int)) (o := sampleMultiopt) (ax := 3) (n := 2) (by decide +kernel)
    (by decide +kernel) (by decide) (sample_fits multioptMembers_nodup _ _)
  exact ⟨f, h1, h2 ("scan_initial_Z0s", .flts [0, 1]) (by decide +kernel) (by simp)⟩

end Qsc.Output
