import Verif.Lemmas.OutputRead

/-!
# The output files (C61, C62)
-/

namespace Qsc.Output
open Qsc.Netcdf Qsc.Spec.Netcdf Qsc.Spec.Output

variable {F : Type}

/-! ## One configuration -/

/-- The local variables of `Qsc::write_netcdf`. -/
def singleLocals (fl : Flags) : List (String × Data F) :=
  [("general_option", .chars "single".toList), ("at_least_order_r2_int", bit fl.r2),
   ("order_r2p1_int", bit fl.r2p1), ("order_r3_int", bit fl.r3)]

theorem qscScope_eq (o : Obj F) : qscScope o = withLocals o.mem (singleLocals o.fl) := by
  funext a
  simp only [qscScope, set, withLocals, singleLocals, List.lookup_cons, List.lookup_nil]
  by_cases h1 : a = "general_option"
  · subst h1; simp
  by_cases h2 : a = "at_least_order_r2_int"
  · subst h2; simp [flag, bit]
  by_cases h3 : a = "order_r2p1_int"
  · subst h3; simp [flag, bit]
  by_cases h4 : a = "order_r3_int"
  · subst h4; simp [flag, bit]
  have e : ∀ s : String, a ≠ s → (a == s) = false := fun s h => by simpa using h
  simp [h1, h2, h3, h4, e]

theorem scope_member {fl : Flags} {p : String × Shape} (hp : p ∈ qscMembers fl) :
    p.1 ∉ (singleLocals fl : List (String × Data F)).map (·.1) := by
  have := List.all_eq_true.mp members_not_local p ((qscMembers_sublist fl).subset hp)
  exact of_decide_eq_true this

/-- The configuration has members of the right types and sizes. -/
structure Configured (o : Obj F) (n ax : Nat) : Prop where
  nphi : o.mem "nphi" = .ints [(n : Int)]
  pos : 0 < n
  axis : 0 < ax
  fits : ∀ p ∈ qscMembers o.fl, Fits o.mem (sizes [n, ax, 3]) p.1 p.2

/-- Everything about a file of one configuration. -/
theorem qsc_file (toF : Nat → F) {o : Obj F} {n ax : Nat} (ho : Configured o n ax) :
    ∃ f, writeQsc toF o = .ok f ∧ WellFormed f ∧
      [("nphi", n), ("axis_nmax_plus_1", ax), ("normal_binormal_tangent", 3)] <+: f.dims ∧
      (f.dims.map (·.1)).Nodup ∧
      (∀ d ∈ f.dims, d ∈ [("nphi", n), ("axis_nmax_plus_1", ax), ("normal_binormal_tangent", 3)] ∨
        ∃ k, 0 < k ∧ d = (strDim k, k)) ∧
      f.vars.map (·.name) = (qscCalls o.fl).map Call.name ∧
      (∀ e ∈ contents f, Faithful toF [] (fun _ => 0) (withLocals o.mem (singleLocals o.fl)) e) ∧
      ∀ c ∈ qscCalls o.fl, c.addr ∉ partly → ∃ e ∈ contents f, e.name = c.name ∧
        e.ty = tyOf (withLocals o.mem (singleLocals o.fl) c.addr) ∧
        e.data = some (withLocals o.mem (singleLocals o.fl) c.addr) := by
  obtain ⟨l, hl, hlen⟩ : ∃ l, o.mem "R0c" = .flts l ∧ l.length = ax := by
    obtain ⟨l, hl, h⟩ := ho.fits ("R0c", .flts [1]) (fixed_mem _ (by decide))
    exact ⟨l, hl, by simpa [sizes] using h⟩
  have hfit : ∀ p ∈ qscLocals ++ qscMembers o.fl,
      Fits (withLocals o.mem (singleLocals o.fl)) (sizes [n, ax, 3]) p.1 p.2 := by
    intro p hp
    rcases List.mem_append.mp hp with hp | hp
    · simp only [qscLocals, all, List.map_cons, List.map_nil, List.cons_append, List.nil_append, List.mem_cons,
        List.not_mem_nil, or_false] at hp
      rcases hp with rfl | rfl | rfl | rfl <;>
        simp [Fits, withLocals, singleLocals, bit, List.lookup_cons]
    · exact fits_withLocals (scope_member hp) (ho.fits p hp)
  have hcf : ∀ c ∈ qscCalls o.fl, c.fits (qscLocals ++ qscMembers o.fl) 3 3 = true :=
    List.all_eq_true.mp (qscFits o.fl)
  have hD : Dims [("nphi", n), ("axis_nmax_plus_1", ax), ("normal_binormal_tangent", 3)] id 3 3 := by
    have h1 := ho.pos
    have h2 := ho.axis
    refine ⟨fun k hk => by simpa using hk, fun k hk => ?_⟩
    rcases k with _ | _ | _ | k <;> simp [dimAt] <;> omega
  obtain ⟨f, h1, h2, h3, h4, h5, h6, h7, h8⟩ := write_new (toF := toF) (eval := fun _ => 0)
    (D := [("nphi", n), ("axis_nmax_plus_1", ax), ("normal_binormal_tangent", 3)])
    (m := withLocals o.mem (singleLocals o.fl)) (cs := qscCalls o.fl)
    (by change ["nphi", "axis_nmax_plus_1", "normal_binormal_tangent"].Nodup; decide)
    (by have := ho.pos; have := ho.axis; simp; omega)
    (by change ∀ s ∈ ["nphi", "axis_nmax_plus_1", "normal_binormal_tangent"], s.toList.head? ≠ some 'd'; decide) (qscNames o.fl) hD hfit hcf
  refine ⟨f, ?_, h2, h3, h4, ?_, h6, ?_, ?_⟩
  · unfold writeQsc
    simp only [intMember, ho.nphi, vectorSize, hl, dimLength, hlen]
    rw [if_neg (by omega), qscScope_eq]
    exact h1
  · intro d hd
    rcases h5 d hd with h | ⟨c, hc, ⟨nm, t, e⟩, h⟩
    · exact Or.inl h
    · refine Or.inr ⟨_, ?_, h⟩
      have := hcf c hc
      rw [e] at this
      obtain ⟨x, hx, hne⟩ := hfit _ (has_mem this)
      rw [hx]
      exact List.length_pos_of_ne_nil hne
  · intro e he
    obtain ⟨c, hc, hname, h⟩ := h7 e he
    have hb : Bears c.name c.addr = true :=
      List.all_eq_true.mp qscBears c ((qscCalls_sublist o.fl).subset hc)
    rcases h with h | h
    · exact ⟨c.addr, hname ▸ hb, Or.inl h⟩
    · exfalso
      exact of_decide_eq_true (List.all_eq_true.mp qscNoBig c ((qscCalls_sublist o.fl).subset hc)) h.1
  · intro c hc hp
    refine h8 c hc ?_
    have := List.all_eq_true.mp (qscWhole o.fl) c hc
    simp only [Bool.or_eq_true, decide_eq_true_eq] at this
    exact this.resolve_right hp

theorem saved_local {fl : Flags} {a : String} (ha : a ∈ "nphi" :: restored fl ++ alsoSaved) :
    a ∉ (singleLocals fl : List (String × Data F)).map (·.1) := by
  obtain ⟨p, hp, e⟩ := List.any_eq_true.mp (List.all_eq_true.mp (saved_members fl) a ha)
  rw [← beq_iff_eq.mp e]
  exact scope_member hp

theorem restored_sublist (fl : Flags) : (restored fl).Sublist (restored ⟨true, true, true⟩) := by
  unfold restored
  simp only [if_true]
  repeat' first
    | with_reducible exact List.Sublist.refl _
    | with_reducible exact ite_sublist _ (List.Sublist.refl _)
    | with_reducible apply List.Sublist.append

theorem qsc_has (toF : Nat → F) {o : Obj F} {f : File F}
    (h : ∀ c ∈ qscCalls o.fl, c.addr ∉ partly → ∃ e ∈ contents f, e.name = c.name ∧
        e.ty = tyOf (withLocals o.mem (singleLocals o.fl) c.addr) ∧
        e.data = some (withLocals o.mem (singleLocals o.fl) c.addr)) :
    ∀ a ∈ "nphi" :: restored o.fl ++ alsoSaved, Has f o.mem a := by
  intro a ha
  have hs : ∃ c ∈ qscCalls o.fl, c.name = a ∧ c.addr = a := by
    rw [List.cons_append] at ha
    rcases List.mem_cons.mp ha with rfl | ha
    · exact ⟨int "nphi" "nphi", qscNphi _, rfl, rfl⟩
    · exact saves_mem (List.all_eq_true.mp (qscSaves o.fl) a ha)
  obtain ⟨c, hc, e1, e2⟩ := hs
  have hp : a ∉ partly := by
    rw [List.cons_append] at ha
    rcases List.mem_cons.mp ha with rfl | ha
    · decide
    · have : a ∈ restored ⟨true, true, true⟩ ++ alsoSaved := by
        rcases List.mem_append.mp ha with ha | ha
        · exact List.mem_append_left _ ((restored_sublist o.fl).subset ha)
        · exact List.mem_append_right _ ha
      exact of_decide_eq_true (List.all_eq_true.mp restored_not_partly a this)
  obtain ⟨e, he, n, t, d⟩ := h c hc (e2 ▸ hp)
  rw [e2, withLocals_of_not_mem (saved_local ha)] at t d
  exact ⟨e, he, n.trans e1, t, d⟩

/-- **C62.**  Writing a configuration whose members have the types and sizes of the class succeeds: no name is
used twice and nothing is read out of bounds.  Every variable of the file holds what it is named after, and the
listed members are there with all their elements. -/
theorem qsc_written (toF : Nat → F) {o : Obj F} {n ax : Nat} (ho : Configured o n ax) :
    ∃ f, writeQsc toF o = .ok f ∧ (f.vars.map (·.name)).Nodup ∧
      (∀ e ∈ contents f, Faithful toF [] (fun _ => 0) (withLocals o.mem
        [("general_option", .chars "single".toList), ("at_least_order_r2_int", bit o.fl.r2),
         ("order_r2p1_int", bit o.fl.r2p1), ("order_r3_int", bit o.fl.r3)]) e) ∧
      ∀ a ∈ "nphi" :: restored o.fl ++ alsoSaved, Has f o.mem a := by
  obtain ⟨f, h1, -, -, -, -, h6, h7, h8⟩ := qsc_file toF ho
  exact ⟨f, h1, h6 ▸ qscNames o.fl, h7, qsc_has toF h8⟩

/-! ## Allocating -/

/-- The members after allocation. -/
def allocated (zero : F) (o : Obj F) (n : Nat) : Mem F :=
  let m := (floatArrays o.fl n).foldl (fun m a => set m a.1 (.flts (List.replicate a.2 zero)))
    (set o.mem "nphi" (.ints [(n : Int)]))
  (intArrays o.fl n).foldl (fun m a => set m a.1 (.ints (List.replicate a.2 0))) m

/-- **C61.**  `allocate` makes `nphi` odd, gives every array on the grid the size the class declares for it,
filled with zeros, and changes no scalar, no string and no axis coefficient. -/
theorem allocate_members (zero : F) (o : Obj F) {x : Int} (hx : o.mem "nphi" = .ints [x]) (h0 : 0 ≤ x) :
    ∃ n : Nat, (n : Int) = (if x % 2 = 0 then x + 1 else x) ∧ n % 2 = 1 ∧
      ∃ o', allocate zero o = .ok o' ∧ o'.fl = o.fl ∧ o'.mem "nphi" = .ints [(n : Int)] ∧
        (∀ p ∈ qscMembers o.fl, ∀ ds, p.2 = .flts ds → 1 ∉ ds →
          o'.mem p.1 = .flts (List.replicate (ds.map (sizes [n, 0, 3])).prod zero)) ∧
        ∀ p ∈ qscMembers o.fl, p.1 ≠ "nphi" → p.2 ∈ ([.int, .flt, .str, .flts [1], .atLeast [1]] : List Shape) →
          o'.mem p.1 = o.mem p.1 := by
  obtain ⟨n, hn⟩ : ∃ n : Nat, (n : Int) = if x % 2 = 0 then x + 1 else x :=
    Int.eq_ofNat_of_zero_le (by split <;> omega) |>.imp fun _ h => h.symm
  have hodd : n % 2 = 1 := by split at hn <;> omega
  refine ⟨n, hn, hodd, ?_⟩
  have hval : allocate zero o = .ok ⟨o.fl, allocated zero o n⟩ := by
    unfold allocate
    simp only [intMember, hx]
    rw [← hn, if_neg (by omega), Int.toNat_natCast]
    rfl
  refine ⟨_, hval, rfl, ?_, ?_, ?_⟩
  all_goals have hnd := allocNames_nodup o.fl
  all_goals rw [allocNames_eq o.fl n] at hnd
  all_goals have hnd' := List.nodup_append.mp hnd
  · have hnot := others_not_allocated (fl := o.fl) (p := ("nphi", .int)) (fixed_mem _ (by decide)) (by simp)
    rw [allocNames_eq o.fl n, List.mem_append, not_or] at hnot
    change allocated zero o n _ = _
    unfold allocated
    rw [foldl_set_not _ Prod.fst _ _ hnot.2, foldl_set_not _ Prod.fst _ _ hnot.1, set_eq]
  · intro p hp ds hds h1
    have hmem : (p.1, (ds.map (sizes [n, 0, 3])).prod) ∈ floatArrays o.fl n := by
      have hs := List.all_eq_true.mp (shapes o.fl) p hp
      simp only [hds, decide_eq_true_eq, List.mem_cons, reduceCtorEq, Shape.flts.injEq, List.not_mem_nil, or_false,
        false_or] at hs
      rcases hs with rfl | rfl | rfl | rfl | rfl
      · simp at h1
      · have h := named_mem (ss := [.flts [0]]) hp (by simp [hds])
        rw [gridVectors_named] at h
        refine List.mem_append_left _ (List.mem_append_left _ (List.mem_map.mpr ⟨p.1, h, ?_⟩))
        simp [sizes]
      · have h := named_mem (ss := [.flts [0, 0]]) hp (by simp [hds])
        rw [squares_named] at h
        refine List.mem_append_left _ (List.mem_append_right _ ?_)
        simp only [List.mem_cons, List.not_mem_nil, or_false] at h
        rcases h with h | h <;> simp [h, sizes]
      · have h := named_mem (ss := [.flts [0, 2, 2]]) hp (by simp [hds])
        rw [tensor_named] at h
        refine List.mem_append_left _ (List.mem_append_right _ ?_)
        simp only [List.mem_cons, List.not_mem_nil, or_false] at h
        simp [h, sizes]; omega
      · have h := named_mem (ss := [.flts [0, 2, 2, 2]]) hp (by simp [hds])
        rw [tensor2_named] at h
        refine List.mem_append_right _ ?_
        cases hr : o.fl.r2
        · simp [hr] at h
        · simp only [hr, if_true, List.mem_cons, List.not_mem_nil, or_false] at h
          simp [h, sizes]; omega
    have hname : p.1 ∈ (floatArrays o.fl n).map (·.1) := List.mem_map.mpr ⟨_, hmem, rfl⟩
    change allocated zero o n _ = _
    unfold allocated
    rw [foldl_set_not _ Prod.fst _ _ fun h => hnd'.2.2 _ hname _ h rfl]
    exact foldl_set_mem (floatArrays o.fl n) Prod.fst (fun a => .flts (List.replicate a.2 zero)) _ hnd'.1 hmem
  · intro p hp hne hs
    have hnot := others_not_allocated hp hs
    rw [allocNames_eq o.fl n, List.mem_append, not_or] at hnot
    change allocated zero o n _ = _
    unfold allocated
    rw [foldl_set_not _ Prod.fst _ _ hnot.2, foldl_set_not _ Prod.fst _ _ hnot.1, set_ne _ _ hne]

/-! ## Reading back -/

theorem readNames_eq (fl : Flags) : readNames fl = restored fl := rfl

theorem getFlag_of {f : File F} (hn : (f.vars.map (·.name)).Nodup) {e : Entry F} (he : e ∈ contents f) {b : Bool}
    (hd : e.data = some (bit b)) : getFlag f e.name = .ok b := by
  unfold getFlag
  rw [getVar_like hn he hd (Or.inl ⟨_, [0], rfl, rfl, rfl, by simp⟩)]
  cases b <;> rfl

/-- **C61.**  A file written for a configuration with odd `nphi` can be read into any object, and then the
three flags, `nphi` and every listed member have the values they had when the file was written.  The axis
coefficients and `order_r_option` are those the object had before: they are not read. -/
theorem round_trip (toF : Nat → F) (zero : F) {o t : Obj F} {n ax : Nat} (ho : Configured o n ax) (hodd : n % 2 = 1)
    (ht : ∀ p ∈ qscMembers o.fl, p.2 = .int ∨ p.2 = .flt → Fits t.mem (sizes []) p.1 p.2) :
    ∃ f o', writeQsc toF o = .ok f ∧ readC zero f t = .ok o' ∧ o'.fl = o.fl ∧ o'.mem "nphi" = o.mem "nphi" ∧
      (∀ a ∈ restored o.fl, o'.mem a = o.mem a) ∧
      ∀ a ∈ ["R0c", "R0s", "Z0c", "Z0s", "order_r_option"], o'.mem a = t.mem a := by
  obtain ⟨f, h1, -, -, -, -, h6, h7, h8⟩ := qsc_file toF ho
  have hhas := qsc_has toF h8
  have hnd : (f.vars.map (·.name)).Nodup := h6 ▸ qscNames o.fl
  have hnp : (("nphi", .int) : String × Shape) ∈ qscMembers o.fl := fixed_mem _ (by decide)
  -- the number of grid points
  obtain ⟨y, hy⟩ := ht _ hnp (Or.inl rfl)
  have g1 := getMember_has hnd (m := t.mem) (hhas "nphi" (by simp)) (by
    rw [ho.nphi, hy]; exact Or.inl ⟨_, _, rfl, rfl, rfl, by simp⟩)
  -- the flags
  have gf : ∀ name a b, int name a ∈ qscCalls o.fl → a ∉ partly →
      withLocals o.mem (singleLocals o.fl) a = bit b → getFlag f name = .ok b := by
    intro name a b hc hp hw
    obtain ⟨e, he, en, -, ed⟩ := h8 _ hc hp
    change e.data = some (withLocals o.mem (singleLocals o.fl) a) at ed
    rw [hw] at ed
    have := getFlag_of hnd he ed
    rw [en] at this
    exact this
  obtain ⟨c1, c2, c3⟩ := flagCalls o.fl
  have f1 := gf _ _ o.fl.r2 c1 (by decide) (by simp [withLocals, singleLocals, List.lookup_cons])
  have f2 := gf _ _ o.fl.r2p1 c2 (by decide) (by simp [withLocals, singleLocals, List.lookup_cons])
  have f3 := gf _ _ o.fl.r3 c3 (by decide) (by simp [withLocals, singleLocals, List.lookup_cons])
  -- the arrays
  obtain ⟨k, hk, -, o1, ha, hfl, hn1, harr, hrest⟩ := allocate_members zero
    (⟨o.fl, set t.mem "nphi" (o.mem "nphi")⟩ : Obj F) (x := n) (by dsimp only; rw [set_eq, ho.nphi]) (by omega)
  have hkn : k = n := by
    have : (n : Int) % 2 ≠ 0 := by omega
    rw [if_neg this] at hk
    exact_mod_cast hk
  subst hkn
  simp only at hfl harr hrest
  have nr : ∀ a ∈ restored o.fl, a ≠ "nphi" := fun a ha e =>
    nphi_not_restored (e ▸ (restored_sublist o.fl).subset ha)
  have hlike : ∀ a ∈ restored o.fl, Like (o.mem a) (o1.mem a) := by
    intro a ha
    have := List.all_eq_true.mp (restoredShapes o.fl) a ha
    simp only [Bool.or_eq_true] at this
    rcases this with (h | h) | h
    · have hm := has_mem h
      obtain ⟨u, hu⟩ := ho.fits _ hm
      obtain ⟨v, hv⟩ := ht _ hm (Or.inl rfl)
      have e := hrest _ hm (nr a ha) (by simp)
      rw [set_ne _ _ (nr a ha)] at e
      dsimp only at e hu hv
      rw [e, hu, hv]
      exact Or.inl ⟨_, _, rfl, rfl, rfl, by simp⟩
    · have hm := has_mem h
      obtain ⟨u, hu⟩ := ho.fits _ hm
      obtain ⟨v, hv⟩ := ht _ hm (Or.inr rfl)
      have e := hrest _ hm (nr a ha) (by simp)
      rw [set_ne _ _ (nr a ha)] at e
      dsimp only at e hu hv
      rw [e, hu, hv]
      exact Or.inr ⟨_, _, rfl, rfl, rfl, by simp⟩
    · have hm := has_mem h
      obtain ⟨u, hu, hl⟩ := ho.fits _ hm
      have e := harr _ hm [0] rfl (by simp)
      dsimp only at e hu
      rw [e, hu]
      have hl' : u.length = k := by simpa [sizes] using hl
      refine Or.inr ⟨_, _, rfl, rfl, by simp [hl', sizes], ?_⟩
      have := ho.pos
      intro h0
      rw [h0] at hl'
      simp at hl'
      omega
  obtain ⟨m', r1, r2, r3⟩ := getMembers_has hnd (restored o.fl) (m0 := o.mem) (m := o1.mem)
    (fun a ha => hhas a (List.mem_append_left _ (List.mem_cons_of_mem _ ha))) hlike
  refine ⟨f, { o1 with mem := m' }, h1, ?_, hfl, ?_, r2, ?_⟩
  · unfold readC
    rw [g1]
    simp only [f1, f2, f3]
    rw [show (⟨⟨o.fl.r2, o.fl.r2p1, o.fl.r3⟩, set t.mem "nphi" (o.mem "nphi")⟩ : Obj F)
      = ⟨o.fl, set t.mem "nphi" (o.mem "nphi")⟩ from rfl, ha]
    simp only [hfl, readNames_eq, r1]
  · change m' "nphi" = _
    rw [r3 _ fun h => nr _ h rfl, hn1, ho.nphi]
  · intro a hm
    have hnot : a ∉ restored o.fl := fun h =>
      of_decide_eq_true (List.all_eq_true.mp axis_not_restored a hm) ((restored_sublist o.fl).subset h)
    have hp : ∃ s ∈ ([.int, .flt, .str, .flts [1], .atLeast [1]] : List Shape), (a, s) ∈ qscMembers o.fl := by
      simp only [List.mem_cons, List.not_mem_nil, or_false] at hm
      rcases hm with rfl | rfl | rfl | rfl | rfl
      · exact ⟨.flts [1], by simp, fixed_mem _ (by decide)⟩
      · exact ⟨.atLeast [1], by simp, fixed_mem _ (by decide)⟩
      · exact ⟨.atLeast [1], by simp, fixed_mem _ (by decide)⟩
      · exact ⟨.atLeast [1], by simp, fixed_mem _ (by decide)⟩
      · exact ⟨.str, by simp, fixed_mem _ (by decide)⟩
    obtain ⟨s, hs, hp⟩ := hp
    have hne : a ≠ "nphi" := by
      rintro rfl
      simp at hm
    have e := hrest _ hp hne hs
    rw [set_ne _ _ hne] at e
    change m' a = _
    rw [r3 a hnot]
    exact e

end Qsc.Output
