import Verif.Lemmas.Single
import Verif.Spec.Single

/-!
# Lemmas for a single run: the variables of the file
-/

namespace Qsc.Output
open Qsc.Netcdf Qsc.Spec.Netcdf Qsc.Spec.Output

variable {F : Type}

/-- Every call adds its entry. -/
theorem write_entries {toF : Nat → F} {eval : String → Nat} {m : Mem F} {D : List (String × Nat)}
    {n z : Nat} {t : List (String × Shape)} {cs : List Call}
    (hd : (D.map (·.1)).Nodup) (hp : D.Pairwise fun a b => b.2 = 0 → a.2 ≠ 0)
    (hc : ∀ s ∈ D.map (·.1), s.toList.head? ≠ some 'd') (hn : (cs.map Call.name).Nodup)
    (hD : Dims D id n z) (ht : ∀ p ∈ t, Fits m (sizes (D.map (·.2))) p.1 p.2)
    (hf : ∀ c ∈ cs, c.fits t n z = true) {f : File F}
    (h : run toF m ⟨[], []⟩ ((D.map fun d => Op.dim d.1 d.2) ++ cs.map (Call.toOp eval)) = .ok f) :
    ∀ c ∈ cs, ∀ e, entry toF m f.dims (c.toOp eval) = some e → e ∈ contents f := by
  have ht' : ∀ p ∈ t, Fits m (lens ([] ++ D) id) p.1 p.2 := by rw [lens_sizes]; exact ht
  obtain ⟨f', h1, -, -, -, -, -, -, -, h9⟩ := write_calls (toF := toF) (eval := eval) (base := ⟨[], []⟩) (ρ := id)
    (D := D) (cs := cs) (m := m) (t := t) (n := n) (z := z) (by intro v hv; simp at hv) (by simpa using hd) (by simpa using hp)
    (by simpa using clean_of hc) (by simpa using hn) (by simpa using hD) ht' hf
  simp only [renum_id] at h1 h9
  have h1' := h1.symm.trans h
  injection h1' with e
  subst e
  exact h9

end Qsc.Output

namespace Qsc.Single
open Qsc.Netcdf Qsc.Spec.Netcdf Qsc.Spec.Output Qsc.Output Qsc.Toml Qsc.Spec.Single

variable {K : Type} [Field K]

/-- The entries of the file. -/
theorem file_entries {toF : Nat → K} {o : Ops K} {m0 : Mem K} {q : QscIn K} {ord : Setup.Order} {n : Nat} {r : Result K}
    (hd : Done ord r) (hs : q.order_r_option ≠ "") {ax : Nat} (h0 : q.R0c.length = ax)
    (h1 : q.R0s.length = ax) (h2 : q.Z0c.length = ax) (h3 : q.Z0s.length = ax) (hn : 0 < n) (ha : 0 < ax)
    {f : Netcdf.File K} (hf : writeQsc toF ⟨flags ord, final o m0 q ord n r⟩ = .ok f) :
    ∀ c ∈ qscCalls (flags ord), ∀ e, entry toF (scope o m0 q ord n r) f.dims (c.toOp fun _ => 0) = some e →
      e ∈ contents f := by
  have hchk := List.all_eq_true.mp (table_fits (flags ord) (done_flags hd))
  simp only [Bool.and_eq_true] at hchk
  have hD : Dims [("nphi", n), ("axis_nmax_plus_1", ax), ("normal_binormal_tangent", 3)] id 3 3 := by
    refine ⟨fun k hk => by simpa using hk, fun k hk => ?_⟩
    rcases k with _ | _ | _ | k <;> simp [dimAt] <;> omega
  refine write_entries (toF := toF) (eval := fun _ => 0)
    (D := [("nphi", n), ("axis_nmax_plus_1", ax), ("normal_binormal_tangent", 3)])
    (m := scope o m0 q ord n r) (cs := qscCalls (flags ord))
    (by change ["nphi", "axis_nmax_plus_1", "normal_binormal_tangent"].Nodup; decide)
    (by simp; omega)
    (by change ∀ s ∈ ["nphi", "axis_nmax_plus_1", "normal_binormal_tangent"], s.toList.head? ≠ some 'd'; decide)
    (qscNames _) hD (scope_fits o m0 q ord n r hd hs h0 h1 h2 h3) (fun c hc => (hchk c hc).1) ?_
  have e1 : final o m0 q ord n r "R0c" = .flts q.R0c :=
    final_input o m0 q ord n r (a := ("R0c", .flts q.R0c)) (by simp [inputMembers]) (by simp)
  unfold writeQsc at hf
  simp only [intMember, final_nphi, vectorSize, e1, dimLength] at hf
  rw [if_neg (by omega), qscScope_eq, h0] at hf
  exact hf

/-! ## Which calls are made -/

def orders : List Flags := [⟨false, false, false⟩, ⟨true, false, false⟩, ⟨true, true, true⟩]

theorem calls1 : ∀ fl ∈ orders, (scalars1Names.all (fun a => decide (flt a a ∈ qscCalls fl)) &&
    profiles1Names.all (fun a => decide (a = "X1s" ∨ vec 0 a a ∈ qscCalls fl)) &&
    ["d_d_phi", "d_d_varphi"].all (fun a => decide (Call.op (.nd [0, 0] a a "" "") ∈ qscCalls fl)) &&
    decide (Call.op (.nd [0, 2, 2] "grad_B_tensor" "grad_B_tensor" "" "") ∈ qscCalls fl) &&
    ["nphi", "nfp", "sG", "spsi", "helicity", "max_newton_iterations", "max_linesearch_iterations"].all
      (fun a => decide (int a a ∈ qscCalls fl)) &&
    ["eta_bar", "sigma0", "I2", "B0", "newton_tolerance"].all (fun a => decide (flt a a ∈ qscCalls fl)) &&
    ["R0c", "R0s", "Z0c", "Z0s"].all (fun a => decide (vec 1 a a ∈ qscCalls fl)) &&
    ["general_option", "order_r_option"].all (fun a => decide (str a a ∈ qscCalls fl))) = true := by
  decide +kernel

theorem calls2 : ∀ fl ∈ orders, fl.r2 = true → (scalars2Names.all (fun a => decide (flt a a ∈ qscCalls fl)) &&
    profiles2Names.all (fun a => decide (vec 0 a a ∈ qscCalls fl)) &&
    decide (Call.op (.nd [0, 2, 2, 2] "grad_grad_B_tensor" "grad_grad_B_tensor" "" "") ∈ qscCalls fl) &&
    ["B2c", "B2s", "p2"].all (fun a => decide (flt a a ∈ qscCalls fl))) = true := by
  decide +kernel

theorem calls3 : ∀ fl ∈ orders, fl.r2p1 = true → (scalars3Names.all (fun a => decide (flt a a ∈ qscCalls fl)) &&
    profiles3Names.all (fun a => decide (vec 0 a a ∈ qscCalls fl)) &&
    untouchedNames.all (fun a => decide (vec 0 a a ∈ qscCalls fl))) = true := by
  decide +kernel

/-! ## Entries -/

theorem index_lt {n j k m : Nat} (hj : j < n) (hk : k < m) : j + n * k < n * m :=
  calc j + n * k < n + n * k := Nat.add_lt_add_right hj _
    _ = n * (k + 1) := by rw [Nat.mul_succ, Nat.add_comm]
    _ ≤ n * m := Nat.mul_le_mul_left n hk

section
variable {toF : Nat → K} {m : Mem K} {fl : Flags} {f : Netcdf.File K} {n ax : Nat}
  (he : ∀ c ∈ qscCalls fl, ∀ e, entry toF m f.dims (c.toOp fun _ => 0) = some e → e ∈ contents f)
  (hp : [("nphi", n), ("axis_nmax_plus_1", ax), ("normal_binormal_tangent", 3)] <+: f.dims)
include he

theorem entry_flt {a : String} {x : K} (hc : flt a a ∈ qscCalls fl) (hm : m a = .flts [x]) : Scalar f a x :=
  ⟨_, he _ hc _ rfl, rfl, rfl, by simp [hm, first]⟩

theorem entry_int {a : String} {x : Int} (hc : int a a ∈ qscCalls fl) (hm : m a = .ints [x]) : Integer f a x :=
  ⟨_, he _ hc _ rfl, rfl, rfl, by simp [hm, first]⟩

theorem entry_int' {a b : String} {x : Int} (hc : int a b ∈ qscCalls fl) (hm : m b = .ints [x]) : Integer f a x :=
  ⟨_, he _ hc _ rfl, rfl, rfl, by simp [hm, first]⟩

theorem entry_str {a s : String} (hc : str a a ∈ qscCalls fl) (hm : m a = .chars s.toList) : Text f a s :=
  ⟨_, _, he _ hc _ rfl, rfl, rfl, by simp [hm]⟩

include hp

theorem entry_vec {a : String} {v : Nat → K} (hc : vec 0 a a ∈ qscCalls fl) (hm : m a = .flts (vector n v)) :
    Profile f a n v := by
  have h0 : dimAt f.dims 0 = ("nphi", n) := dimAt_prefix hp (by simp)
  refine ⟨vector n v, ⟨_, he _ hc _ rfl, rfl, by simp [h0], ?_⟩, by simp [vector], fun j hj => by simp [vector, hj]⟩
  simp only [h0, hm]
  exact congrArg some (first_all (by simp [size, vector]))

theorem entry_coefs {a : String} {l : List K} (hc : vec 1 a a ∈ qscCalls fl) (hm : m a = .flts l) (hl : l.length = ax) :
    Coefs f a l := by
  have h0 : dimAt f.dims 1 = ("axis_nmax_plus_1", ax) := dimAt_prefix hp (by simp)
  refine ⟨_, he _ hc _ rfl, rfl, by simp [h0, hl], ?_⟩
  simp only [h0, hm]
  exact congrArg some (first_all (by simp [size, hl]))

theorem entry_square {a : String} {v : Nat → Nat → K} (hc : Call.op (.nd [0, 0] a a "" "") ∈ qscCalls fl)
    (hm : m a = .flts (matrix n v)) : Square f a n v := by
  have h0 : dimAt f.dims 0 = ("nphi", n) := dimAt_prefix hp (by simp)
  refine ⟨matrix n v, ⟨_, he _ hc _ rfl, rfl, by simp [h0], ?_⟩, by simp [matrix], fun j k hj hk => ?_⟩
  · simp only [List.map_cons, List.map_nil, h0, hm]
    exact congrArg some (first_all (by simp [size, matrix]))
  · have h1 : j + n * k < n * n := index_lt hj hk
    have h2 : (j + n * k) % n = j := by rw [Nat.add_mul_mod_self_left, Nat.mod_eq_of_lt hj]
    have h3 : (j + n * k) / n = k := by rw [Nat.add_mul_div_left _ _ (by omega), Nat.div_eq_of_lt hj, Nat.zero_add]
    simp [matrix, h1, h2, h3]

theorem entry_tensor3 {a : String} {v : Nat → Nat → Nat → K} (hc : Call.op (.nd [0, 2, 2] a a "" "") ∈ qscCalls fl)
    (hm : m a = .flts (tensor3 n v)) : Tensor f a n v := by
  have h0 : dimAt f.dims 0 = ("nphi", n) := dimAt_prefix hp (by simp)
  have h2 : dimAt f.dims 2 = ("normal_binormal_tangent", 3) := dimAt_prefix hp (by simp)
  refine ⟨tensor3 n v, ⟨_, he _ hc _ rfl, rfl, by simp [h0, h2], ?_⟩, by simp [tensor3]; omega, fun j b c hj hb hc => ?_⟩
  · simp only [List.map_cons, List.map_nil, h0, h2, hm]
    exact congrArg some (first_all (by simp [size, tensor3, Nat.mul_assoc]))
  · have h1 : j + n * (b + 3 * c) < n * 3 * 3 := by
      rw [Nat.mul_assoc]; exact index_lt hj (by omega)
    have h2 : (j + n * (b + 3 * c)) % n = j := by rw [Nat.add_mul_mod_self_left, Nat.mod_eq_of_lt hj]
    have h3 : (j + n * (b + 3 * c)) / n = b + 3 * c := by
      rw [Nat.add_mul_div_left _ _ (by omega), Nat.div_eq_of_lt hj, Nat.zero_add]
    have h4 : (b + 3 * c) % 3 = b := by omega
    have h5 : (b + 3 * c) / 3 = c := by omega
    simp [tensor3, h1, h2, h3, h4, h5]

theorem entry_tensor4 {a : String} {v : Nat → Nat → Nat → Nat → K}
    (hc : Call.op (.nd [0, 2, 2, 2] a a "" "") ∈ qscCalls fl)
    (hm : m a = .flts (tensor4 n v)) : Tensor3 f a n v := by
  have h0 : dimAt f.dims 0 = ("nphi", n) := dimAt_prefix hp (by simp)
  have h2 : dimAt f.dims 2 = ("normal_binormal_tangent", 3) := dimAt_prefix hp (by simp)
  refine ⟨tensor4 n v, ⟨_, he _ hc _ rfl, rfl, by simp [h0, h2], ?_⟩, by simp [tensor4]; omega,
    fun j b c d hj hb hc hd => ?_⟩
  · simp only [List.map_cons, List.map_nil, h0, h2, hm]
    exact congrArg some (first_all (by simp [size, tensor4, Nat.mul_assoc]))
  · have h1 : j + n * (b + 3 * (c + 3 * d)) < n * 3 * 3 * 3 := by
      rw [Nat.mul_assoc, Nat.mul_assoc]; exact index_lt hj (by omega)
    have h2 : (j + n * (b + 3 * (c + 3 * d))) % n = j := by rw [Nat.add_mul_mod_self_left, Nat.mod_eq_of_lt hj]
    have h3 : (j + n * (b + 3 * (c + 3 * d))) / n = b + 3 * (c + 3 * d) := by
      rw [Nat.add_mul_div_left _ _ (by omega), Nat.div_eq_of_lt hj, Nat.zero_add]
    have h4 : (b + 3 * (c + 3 * d)) % 3 = b := by omega
    have h5 : (b + 3 * (c + 3 * d)) / 3 = c + 3 * d := by omega
    have h6 : (c + 3 * d) % 3 = c := by omega
    have h7 : (c + 3 * d) / 3 = d := by omega
    simp [tensor4, h1, h2, h3, h4, h5, h6, h7]

end

/-! ## The variables of a file -/

theorem orders_of {ord : Setup.Order} {r : Result K} (hd : Done ord r) : flags ord ∈ orders := done_flags hd

variable [DecidableEq K]

/-- What an output file holds, in terms of the results. -/
structure Vars (o : Ops K) (q : QscIn K) (ord : Setup.Order) (n : Nat) (r : Result K) (f : Netcdf.File K) : Prop where
  s1 : ∀ a ∈ scalars1 o r, Scalar f a.1 a.2
  p1 : ∀ a ∈ profiles1 o r, a.1 ≠ "X1s" → Profile f a.1 n a.2
  hel : Integer f "helicity" r.axis.helicity
  dphi : Square f "d_d_phi" n r.axis.dDphi
  dvarphi : Square f "d_d_varphi" n r.axis.dDvarphi
  gradB : Tensor f "grad_B_tensor" n fun j => R1.gradB r.cfg r.r1 j
  s2 : ∀ d, r.second = some d → ∀ a ∈ scalars2 o d, Scalar f a.1 a.2
  p2 : ∀ d, r.second = some d → ∀ a ∈ profiles2 o d, Profile f a.1 n a.2
  gradgradB : ∀ d, r.second = some d → Tensor3 f "grad_grad_B_tensor" n fun j => GradGradB.main (.of d.inp d.r2 j)
  s3 : ∀ d t, r.second = some d → d.third = some t → ∀ a ∈ scalars3 t, Scalar f a.1 a.2
  p3 : ∀ d t, r.second = some d → d.third = some t → ∀ a ∈ profiles3 d.inp t, Profile f a.1 n a.2
  zeros : ord.r2p1 = true → ∀ a ∈ untouchedNames, Profile f a n fun _ => 0
  nphi : Integer f "nphi" n
  ints : ∀ a ∈ [("nfp", q.nfp), ("sG", q.sG), ("spsi", q.spsi), ("max_newton_iterations", q.max_newton_iterations),
    ("max_linesearch_iterations", q.max_linesearch_iterations)], Integer f a.1 a.2
  flts : ∀ a ∈ [("eta_bar", q.eta_bar), ("sigma0", q.sigma0), ("I2", q.I2), ("B0", q.B0),
    ("newton_tolerance", q.newton_tolerance)], Scalar f a.1 a.2
  flts2 : ord.atLeastR2 = true → ∀ a ∈ [("B2c", q.B2c), ("B2s", q.B2s), ("p2", q.p2)], Scalar f a.1 a.2
  coefs : ∀ a ∈ [("R0c", q.R0c), ("R0s", q.R0s), ("Z0c", q.Z0c), ("Z0s", q.Z0s)], Coefs f a.1 a.2
  flags : ∀ a ∈ [("at_least_order_r2", ord.atLeastR2), ("order_r2.1", ord.r2p1), ("order_r3", ord.r3)],
    Integer f a.1 (if a.2 then 1 else 0)
  option : Text f "order_r_option" q.order_r_option
  general : Text f "general_option" "single"

theorem names_mem {α : Type} {l : List (String × α)} {ns : List String} (h : l.map (·.1) = ns) {a : String × α}
    (ha : a ∈ l) : a.1 ∈ ns := h ▸ List.mem_map_of_mem ha

theorem file_vars {toF : Nat → K} {o : Ops K} {m0 : Mem K} {q : QscIn K} {ord : Setup.Order} {n : Nat} {r : Result K}
    (hd : Done ord r) (hs : q.order_r_option ≠ "") {ax : Nat} (h0 : q.R0c.length = ax)
    (h1 : q.R0s.length = ax) (h2 : q.Z0c.length = ax) (h3 : q.Z0s.length = ax) (hn : 0 < n) (ha : 0 < ax)
    {f : Netcdf.File K} (hf : writeQsc toF ⟨flags ord, final o m0 q ord n r⟩ = .ok f) : Vars o q ord n r f := by
  have he := file_entries hd hs h0 h1 h2 h3 hn ha hf
  obtain ⟨f', w1, -, hp, -, -⟩ := file_written toF o m0 q ord n r hd hs h0 h1 h2 h3 hn ha
  have e := w1.symm.trans hf
  injection e with e
  subst e
  have c1 := calls1 _ (orders_of hd)
  simp only [Bool.and_eq_true, List.all_eq_true, decide_eq_true_eq] at c1
  obtain ⟨⟨⟨⟨⟨⟨⟨c11, c12⟩, c13⟩, c14⟩, c15⟩, c16⟩, c17⟩, c18⟩ := c1
  have hfree : ∀ a, a ∈ (([("nphi", Shape.int)] ++ inputShapes ++ resultShapes ord.atLeastR2 ord.r2p1 ++
      (if ord.r2p1 then all (.flts [0]) untouchedNames else [])).map (·.1)) →
      scope o m0 q ord n r a = final o m0 q ord n r a := by
    intro a h
    have h' := List.all_eq_true.mp (locals_free ord.atLeastR2 ord.r2p1) _ h
    rw [decide_eq_true_eq] at h'
    exact scope_member o m0 q ord n r h'
  have hres : ∀ a ∈ results o n r, scope o m0 q ord n r a.1 = a.2 := by
    intro a h
    rw [hfree, final_result o m0 q ord n r h]
    have h' := List.mem_map_of_mem (f := Prod.fst) h
    rw [results_names, hd.2.1, hd.2.2] at h'
    rw [List.map_append, List.map_append]
    exact List.mem_append_left _ (List.mem_append_right _ h')
  have hin : ∀ a ∈ inputMembers q, a.1 ≠ "nphi" → scope o m0 q ord n r a.1 = a.2 := by
    intro a h hne
    rw [hfree, final_input o m0 q ord n r h hne]
    have h' := names_mem (inputMembers_names q) h
    rw [List.map_append, List.map_append]
    exact List.mem_append_left _ (List.mem_append_left _ (by simpa using h'))
  have hr1 : ∀ a ∈ results1 o n r, scope o m0 q ord n r a.1 = a.2 :=
    fun a h => hres a (List.mem_append_left _ h)
  have hr2 : ∀ d, r.second = some d → ∀ a ∈ results2 o n d, scope o m0 q ord n r a.1 = a.2 := by
    intro d hd a h
    refine hres a (List.mem_append_right _ ?_)
    rw [hd]
    exact List.mem_append_left _ h
  have hr3 : ∀ d t, r.second = some d → d.third = some t → ∀ a ∈ results3 n d.inp t,
      scope o m0 q ord n r a.1 = a.2 := by
    intro d t hd ht a h
    refine hres a (List.mem_append_right _ ?_)
    simp only [hd, ht]
    exact List.mem_append_right _ h
  have b2 : ∀ d, r.second = some d → (flags ord).r2 = true := by
    intro d h
    have := hd.2.1
    rw [isSecond, h] at this
    exact this.symm
  have b3 : ∀ d t, r.second = some d → d.third = some t → (flags ord).r2p1 = true := by
    intro d t h h'
    have := hd.2.2
    simp only [isThird, h, h'] at this
    exact this.symm
  have c2 : (flags ord).r2 = true → _ := calls2 _ (orders_of hd)
  simp only [Bool.and_eq_true, List.all_eq_true, decide_eq_true_eq] at c2
  have c3 : (flags ord).r2p1 = true → _ := calls3 _ (orders_of hd)
  simp only [Bool.and_eq_true, List.all_eq_true, decide_eq_true_eq] at c3
  constructor
  · intro a h
    refine entry_flt he (c11 _ (names_mem (l := scalars1 o r) rfl h)) (hr1 (a.1, .flts [a.2]) ?_)
    exact List.mem_append_left _ (List.mem_append_left _ (List.mem_append_right _ (List.mem_map.mpr ⟨a, h, rfl⟩)))
  · intro a h hx
    refine entry_vec he hp ((c12 _ (names_mem (l := profiles1 o r) rfl h)).resolve_left hx)
      (hr1 (a.1, .flts (vector n a.2)) ?_)
    exact List.mem_append_left _ (List.mem_append_right _ (List.mem_map.mpr ⟨a, h, rfl⟩))
  · exact entry_int he (c15 "helicity" (by simp)) (hr1 ("helicity", _) (by simp [results1]))
  · exact entry_square he hp (c13 "d_d_phi" (by simp)) (hr1 ("d_d_phi", _) (by simp [results1]))
  · exact entry_square he hp (c13 "d_d_varphi" (by simp)) (hr1 ("d_d_varphi", _) (by simp [results1]))
  · exact entry_tensor3 he hp c14 (hr1 ("grad_B_tensor", _) (by simp [results1]))
  · intro d hs2 a h
    refine entry_flt he ((c2 (b2 d hs2)).1.1.1 _ (names_mem (l := scalars2 o d) rfl h))
      (hr2 d hs2 (a.1, .flts [a.2]) ?_)
    exact List.mem_append_left _ (List.mem_append_left _ (List.mem_map.mpr ⟨a, h, rfl⟩))
  · intro d hs2 a h
    refine entry_vec he hp ((c2 (b2 d hs2)).1.1.2 _ (names_mem (l := profiles2 o d) rfl h))
      (hr2 d hs2 (a.1, .flts (vector n a.2)) ?_)
    exact List.mem_append_left _ (List.mem_append_right _ (List.mem_map.mpr ⟨a, h, rfl⟩))
  · intro d hs2
    exact entry_tensor4 he hp (c2 (b2 d hs2)).1.2 (hr2 d hs2 ("grad_grad_B_tensor", _) (by simp [results2]))
  · intro d t hs2 ht a h
    refine entry_flt he ((c3 (b3 d t hs2 ht)).1.1 _ (names_mem (l := scalars3 t) rfl h))
      (hr3 d t hs2 ht (a.1, .flts [a.2]) ?_)
    exact List.mem_append_left _ (List.mem_map.mpr ⟨a, h, rfl⟩)
  · intro d t hs2 ht a h
    refine entry_vec he hp ((c3 (b3 d t hs2 ht)).1.2 _ (names_mem (l := profiles3 d.inp t) rfl h))
      (hr3 d t hs2 ht (a.1, .flts (vector n a.2)) ?_)
    exact List.mem_append_right _ (List.mem_map.mpr ⟨a, h, rfl⟩)
  · intro hb a h
    refine entry_vec he hp ((c3 hb).2 a h) ?_
    rw [hfree a]
    · have ho := hd.1
      simp only [List.mem_cons, List.not_mem_nil, or_false] at ho
      rcases ho with rfl | rfl | rfl
      · cases hb
      · cases hb
      · rw [final_untouched o m0 q n r hd.2.1 hd.2.2 h]
        congr 1
        apply List.ext_getElem <;> simp [vector]
    · rw [if_pos hb, List.map_append]
      exact List.mem_append_right _ (List.mem_map.mpr ⟨(a, .flts [0]), List.mem_map.mpr ⟨a, h, rfl⟩, rfl⟩)
  · exact entry_int he (c15 "nphi" (by simp)) ((hfree "nphi" (by simp)).trans (final_nphi o m0 q ord n r))
  · intro a h
    have h' := List.mem_map_of_mem (f := fun a => (a.1, Data.ints (F := K) [a.2])) h
    refine entry_int he (c15 a.1 ?_) (hin (a.1, .ints [a.2]) ?_ ?_)
    all_goals simp only [List.mem_cons, List.not_mem_nil, or_false] at h; rcases h with rfl | rfl | rfl | rfl | rfl <;> simp [inputMembers]
  · intro a h
    refine entry_flt he (c16 a.1 ?_) (hin (a.1, .flts [a.2]) ?_ ?_)
    all_goals simp only [List.mem_cons, List.not_mem_nil, or_false] at h; rcases h with rfl | rfl | rfl | rfl | rfl <;> simp [inputMembers]
  · intro hb a h
    refine entry_flt he ((c2 hb).2 a.1 ?_) (hin (a.1, .flts [a.2]) ?_ ?_)
    all_goals simp only [List.mem_cons, List.not_mem_nil, or_false] at h; rcases h with rfl | rfl | rfl <;> simp [inputMembers]
  · intro a h
    refine entry_coefs he hp (c17 a.1 ?_) (hin (a.1, .flts a.2) ?_ ?_) ?_
    all_goals simp only [List.mem_cons, List.not_mem_nil, or_false] at h; rcases h with rfl | rfl | rfl | rfl <;> first | assumption | simp [inputMembers]
  · intro a h
    obtain ⟨g1, g2, g3⟩ := flagCalls (Qsc.Single.flags ord)
    simp only [List.mem_cons, List.not_mem_nil, or_false] at h
    rcases h with rfl | rfl | rfl
    · refine entry_int' he g1 ?_
      cases hb : ord.atLeastR2 <;> simp [scope, withLocals, singleLocals, List.lookup_cons, bit, Qsc.Single.flags, hb]
    · refine entry_int' he g2 ?_
      cases hb : ord.r2p1 <;> simp [scope, withLocals, singleLocals, List.lookup_cons, bit, Qsc.Single.flags, hb]
    · refine entry_int' he g3 ?_
      cases hb : ord.r3 <;> simp [scope, withLocals, singleLocals, List.lookup_cons, bit, Qsc.Single.flags, hb]
  · exact entry_str he (c18 "order_r_option" (by simp)) (hin ("order_r_option", _) (by simp [inputMembers]) (by simp))
  · refine entry_str he (c18 "general_option" (by simp)) ?_
    simp [scope, withLocals, singleLocals, List.lookup_cons]

end Qsc.Single
