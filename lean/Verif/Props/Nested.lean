import Verif.Lemmas.Nested
import Verif.Props.Shift

/-!
# Runs of different orders (C105)
-/

namespace Qsc.Nested
open Qsc.Netcdf Qsc.Single Qsc.Toml Qsc.Shift Qsc.Spec.Single Qsc.Spec.Nested Qsc.Spec.Reversal

section
variable {q q' : QscIn ℝ} {ord ord' : Setup.Order} {n : Nat}
  {r : Result ℝ} {f f' : File ℝ} (hv : Vars realOps q ord n r f) (hv' : Vars realOps q' ord' n (cut ord' r) f')
include hv hv'

theorem first_var (I : InputRel q q') : ∀ u ∈ Spec.Scaling.units1, Same f f' u.1 := by
  have S := same_scalars (x := "") (l := scalars1 realOps r) (fun p hp _ => hp) hv.s1 hv'.s1
  have P := same_profiles (f := f) (f' := f') (n := n) (x := ["X1s"]) (l := profiles1 realOps r) (fun p hp _ => hp)
    (fun p hp hx => hv.p1 p hp fun e => hx (by simp [e])) (fun p hp hx => hv'.p1 p hp fun e => hx (by simp [e]))
  have A := same_scalars (f := f) (f' := f') (x := "") (l := [("eta_bar", q.eta_bar), ("sigma0", q.sigma0), ("I2", q.I2),
    ("B0", q.B0), ("newton_tolerance", q.newton_tolerance)]) (fun p hp _ => hp) hv.flts (by
      have := hv'.flts
      rwa [I.etaBar, I.sigma0, I.I2, I.B0, I.tol] at this)
  have C := hv.coefs
  have C' := hv'.coefs
  have e1 := congrArg Axis.Coeffs.R0c I.coeffs
  have e2 := congrArg Axis.Coeffs.R0s I.coeffs
  have e3 := congrArg Axis.Coeffs.Z0c I.coeffs
  have e4 := congrArg Axis.Coeffs.Z0s I.coeffs
  change q'.R0c = q.R0c at e1
  change q'.R0s = q.R0s at e2
  change q'.Z0c = q.Z0c at e3
  change q'.Z0s = q.Z0s at e4
  rw [e1, e2, e3, e4] at C'
  have B : ∀ v ∈ ["R0c", "R0s", "Z0c", "Z0s"], Same f f' v := by
    simp only [List.forall_mem_cons, List.not_mem_nil, false_imp_iff, implies_true, and_true] at C C' ⊢
    exact ⟨⟨_, _, C.1, C'.1⟩, ⟨_, _, C.2.1, C'.2.1⟩, ⟨_, _, C.2.2.1, C'.2.2.1⟩, ⟨_, _, C.2.2.2, C'.2.2.2⟩⟩
  have D1 : Same f f' "d_d_phi" := same_of (Scaling.mult_square hv.dphi (by simp only [one_mul]; exact hv'.dphi))
  have D2 : Same f f' "d_d_varphi" := same_of (Scaling.mult_square hv.dvarphi (by simp only [one_mul]; exact hv'.dvarphi))
  have G : Same f f' "grad_B_tensor" := same_of (Scaling.mult_tensor hv.gradB (by simp only [one_mul]; exact hv'.gradB))
  have all : ∀ v ∈ ["eta_bar", "sigma0", "I2", "B0", "newton_tolerance"] ++ ["R0c", "R0s", "Z0c", "Z0s"] ++
    (scalars1 realOps r).map (·.1) ++ ((profiles1 realOps r).map (·.1)).filter (fun v => v ≠ "X1s") ++
    ["d_d_phi", "d_d_varphi", "grad_B_tensor"], Same f f' v := by
    intro v hv
    simp only [List.mem_append] at hv
    rcases hv with (((hv | hv) | hv) | hv) | hv
    · exact A v hv (by rintro rfl; simp at hv)
    · exact B v hv
    · exact S v hv (by rintro rfl; simp [scalars1] at hv)
    · rw [List.mem_filter] at hv
      exact P v hv.1 (by simpa using hv.2)
    · simp only [List.mem_cons, List.not_mem_nil, or_false] at hv
      rcases hv with rfl | rfl | rfl
      · exact D1
      · exact D2
      · exact G
  intro u hu
  refine all u.1 ?_
  have e : Spec.Scaling.units1.map (·.1) = ["eta_bar", "sigma0", "I2", "B0", "newton_tolerance"] ++
    ["R0c", "R0s", "Z0c", "Z0s"] ++ (scalars1 realOps r).map (·.1) ++
    ((profiles1 realOps r).map (·.1)).filter (fun v => v ≠ "X1s") ++ ["d_d_phi", "d_d_varphi", "grad_B_tensor"] := rfl
  rw [← e]
  exact List.mem_map.2 ⟨u, hu, rfl⟩

theorem second_var (hi : q'.p2 = q.p2 ∧ q'.B2c = q.B2c ∧ q'.B2s = q.B2s) (h2 : ord.atLeastR2 = true)
    (h2' : ord'.atLeastR2 = true) {d : Second ℝ} (hd : r.second = some d) :
    (∀ u ∈ Spec.Scaling.units2, Same f f' u.1) ∧ ∀ v ∈ Spec.Scaling.singular, Same f f' v := by
  have hd' : (cut ord' r).second = some (cutSecond ord' d) := by simp [cut, h2', hd]
  have S := same_scalars (x := "") (l := scalars2 realOps d) (fun p hp _ => hp) (hv.s2 d hd) (hv'.s2 (cutSecond ord' d) hd')
  have P := same_profiles (f := f) (f' := f') (n := n) (x := []) (l := profiles2 realOps d) (fun p hp _ => hp)
    (fun p hp _ => hv.p2 d hd p hp) (fun p hp _ => hv'.p2 _ hd' p hp)
  have A := same_scalars (f := f) (f' := f') (x := "") (l := [("B2c", q.B2c), ("B2s", q.B2s), ("p2", q.p2)])
    (fun p hp _ => hp) (hv.flts2 h2) (by
      have := hv'.flts2 h2'
      rwa [hi.1, hi.2.1, hi.2.2] at this)
  have G : Same f f' "grad_grad_B_tensor" :=
    same_of (Scaling.mult_tensor3 (hv.gradgradB d hd)
      (by simp only [one_mul]; exact hv'.gradgradB (cutSecond ord' d) hd'))
  have all : ∀ v ∈ ["B2c", "B2s", "p2"] ++ (scalars2 realOps d).map (·.1) ++ (profiles2 realOps d).map (·.1) ++
      ["grad_grad_B_tensor"], Same f f' v := by
    intro v hv
    simp only [List.mem_append] at hv
    rcases hv with ((hv | hv) | hv) | hv
    · exact A v hv (by rintro rfl; simp at hv)
    · exact S v hv (by rintro rfl; simp [scalars2] at hv)
    · exact P v hv (by simp)
    · simp only [List.mem_singleton] at hv
      subst hv
      exact G
  have sub1 : ∀ v ∈ Spec.Scaling.units2.map (·.1), v ∈ ["B2c", "B2s", "p2"] ++ (scalars2 realOps d).map (·.1) ++
      (profiles2 realOps d).map (·.1) ++ ["grad_grad_B_tensor"] := by
    simp [Spec.Scaling.units2, scalars2, profiles2]
  have sub2 : ∀ v ∈ Spec.Scaling.singular, v ∈ ["B2c", "B2s", "p2"] ++ (scalars2 realOps d).map (·.1) ++
      (profiles2 realOps d).map (·.1) ++ ["grad_grad_B_tensor"] := by
    simp [Spec.Scaling.singular, scalars2, profiles2]
  exact ⟨fun u hu => all _ (sub1 _ (List.mem_map.2 ⟨u, hu, rfl⟩)), fun v hv => all v (sub2 v hv)⟩

theorem third_var (h2' : ord'.atLeastR2 = true) (h3' : ord'.r2p1 = true) {d : Second ℝ} (hd : r.second = some d)
    (h3 : d.third.isSome = true) : ∀ u ∈ Spec.Scaling.units3, Same f f' u.1 := by
  have hd' : (cut ord' r).second = some (cutSecond ord' d) := by simp [cut, h2', hd]
  obtain ⟨t, ht⟩ := Option.isSome_iff_exists.1 h3
  have ht' : (cutSecond ord' d).third = some t := by simp [cutSecond, h3', ht]
  have S := same_scalars (x := "") (l := scalars3 t) (fun p hp _ => hp) (hv.s3 d t hd ht) (hv'.s3 _ t hd' ht')
  have P := same_profiles (f := f) (f' := f') (n := n) (x := []) (l := profiles3 d.inp t) (fun p hp _ => hp)
    (fun p hp _ => hv.p3 d t hd ht p hp) (fun p hp _ => hv'.p3 _ t hd' ht' p hp)
  intro u hu
  have e : Spec.Scaling.units3.map (·.1) = (scalars3 t).map (·.1) ++ (profiles3 d.inp t).map (·.1) := rfl
  have hv : u.1 ∈ Spec.Scaling.units3.map (·.1) := List.mem_map.2 ⟨u, hu, rfl⟩
  rw [e] at hv
  rcases List.mem_append.1 hv with hv | hv
  · exact S _ hv (by intro e; rw [e] at hv; simp [scalars3] at hv)
  · exact P _ hv (by simp)

theorem labels_var (I : InputRel q q') :
    ∀ v ∈ Spec.Scaling.labels, v ∉ Spec.Nested.orders → Spec.Scaling.Unchanged f f' v := by
  have i1 := hv.ints
  have i2 := hv'.ints
  simp only [List.forall_mem_cons, List.not_mem_nil, false_imp_iff, implies_true, and_true, I.nfp, I.sG, I.spsi, I.N,
    I.M] at i1 i2
  obtain ⟨x1, x2, x3, x4, x5⟩ := i1
  obtain ⟨y1, y2, y3, y4, y5⟩ := i2
  have hh := hv'.hel
  simp only [Spec.Scaling.labels, List.forall_mem_cons]
  simp only [Spec.Nested.orders, List.mem_cons, List.not_mem_nil, or_false, String.reduceEq, not_false_iff, true_imp_iff,
    true_or, or_true, not_true, false_imp_iff, true_and, implies_true, and_true]
  exact ⟨.inl ⟨_, hv.nphi, hv'.nphi⟩, .inl ⟨_, x1, y1⟩, .inl ⟨_, x2, y2⟩, .inl ⟨_, x3, y3⟩, .inl ⟨_, x4, y4⟩,
    .inl ⟨_, x5, y5⟩, .inl ⟨_, hv.hel, hh⟩, .inr ⟨_, hv.general, hv'.general⟩⟩

end

/-- The flags of the orders. -/
theorem flags_of {q q' : QscIn ℝ} (hu : Lower q q') {ord ord' : Setup.Order}
    (ho : Setup.validate q.order_r_option = .ok ord) (ho' : Setup.validate q'.order_r_option = .ok ord') :
    (ord'.atLeastR2 = true → ord.atLeastR2 = true ∧ q'.p2 = q.p2 ∧ q'.B2c = q.B2c ∧ q'.B2s = q.B2s) ∧
    (ord'.r2p1 = true → ord.r2p1 = true) := by
  have h1 := (validate_ok ho).2
  have h2 := (validate_ok ho').2
  have h3 := hu.order
  have h4 := hu.second
  rcases h2 with ⟨e', rfl⟩ | ⟨e', rfl⟩ | ⟨e', rfl⟩ <;> rcases h1 with ⟨e, rfl⟩ | ⟨e, rfl⟩ | ⟨e, rfl⟩ <;>
    simp [e, e'] at h3 h4 ⊢ <;> exact h4

/-- **C105.** Two runs whose input files ask for the same configuration, the second one up to the same or a lower
order: everything that its file contains is the same in the first file.  The libraries may answer anything, but the
same to both. -/
theorem contains_lower {L : Lib ℝ} (ho : L.ops = realOps) (hl : Literals L.lit) {m0 m0' : Mem ℝ}
    {path path' : List Char} {file file' : Sections.File ℝ} (hf : Spec.Sections.WellFormed file)
    (hf' : Spec.Sections.WellFormed file') {name name' : List Char} {r r' : Result ℝ} {f f' : File ℝ}
    (h : run L m0 path file = .ok (name, r, f)) (h' : run L m0' path' file' = .ok (name', r', f'))
    {q q' : QscIn ℝ} (hq : Input L.single file q) (hq' : Input L.single file' q') (hu : Lower q q') :
    r'.newton = r.newton ∧ Contains q'.order_r_option f f' := by
  have I := inputRel hu
  obtain ⟨qq, -, n, -, i1, -, -, hn, -⟩ := ended ho hl hf h
  have e := ((input_iff hl _ hf q).2 hq).symm.trans ((input_iff hl _ hf qq).2 i1)
  injection e with e
  subst e
  have hn' : Points q' n := by
    unfold Points at hn ⊢
    rwa [I.nphi]
  obtain ⟨ord, M, rfl, -, hc, ho1, hv, -, hr⟩ := ended_with ho hl hf h hq hn
  obtain ⟨ord', -, -, -, -, ho2, hv', -, hr'⟩ := ended_with ho hl hf' h' hq' hn'
  obtain ⟨k2, k3⟩ := flags_of hu ho1 ho2
  rw [calculate_cut I k2 k3 hr] at hr'
  injection hr' with hr'
  subst hr'
  have key : q'.order_r_option ≠ "r1" → ord'.atLeastR2 = true ∧ ∃ d, r.second = some d ∧ d.third.isSome = ord.r2p1 := by
    intro h1
    have h2 : ord'.atLeastR2 = true := by
      rcases (validate_ok ho2).2 with ⟨e, -⟩ | ⟨-, rfl⟩ | ⟨-, rfl⟩
      · exact absurd e h1
      · rfl
      · rfl
    obtain ⟨d, x, k1, -, -, -, k5, -, -⟩ := calculate_second ho hr (k2 h2).1
    refine ⟨h2, d, k1, ?_⟩
    rw [k5]
    cases ord.r2p1 <;> rfl
  refine ⟨rfl, labels_var hv hv' I, first_var hv hv' I, ?_, ?_, ?_⟩
  · intro h1
    obtain ⟨h2, d, hd, -⟩ := key h1
    exact (second_var hv hv' (k2 h2).2 (k2 h2).1 h2 hd).1
  · intro h1
    obtain ⟨h2, d, hd, -⟩ := key h1
    exact (second_var hv hv' (k2 h2).2 (k2 h2).1 h2 hd).2
  · intro h1
    obtain ⟨h2, d, hd, h3⟩ := key (by rw [h1]; decide)
    have h4 : ord'.r2p1 = true := by
      rcases (validate_ok ho2).2 with ⟨e, -⟩ | ⟨e, -⟩ | ⟨-, rfl⟩
      · rw [h1] at e; exact absurd e (by decide)
      · rw [h1] at e; exact absurd e (by decide)
      · rfl
    exact third_var hv hv' h2 h4 hd (h3.trans (k3 h4))

/-- **C105.** If the run ends, so does the run of the lower order. -/
theorem ends_lower {L : Lib ℝ} (ho : L.ops = realOps) (hl : Literals L.lit) {m0 : Mem ℝ} (m0' : Mem ℝ)
    {path : List Char} {file file' : Sections.File ℝ} (hf : Spec.Sections.WellFormed file)
    (hf' : Spec.Sections.WellFormed file') {name : List Char} {r : Result ℝ} {f : File ℝ}
    (h : run L m0 path file = .ok (name, r, f)) {path' dir ext : List Char} (hp : Outfile.IsInputPath path' dir ext)
    {q q' : QscIn ℝ} (hq : Input L.single file q) (hq' : Input L.single file' q') (hu : Lower q q') :
    ∃ r' f', run L m0' path' file' = .ok (dir ++ "qsc_out.".toList ++ ext ++ ".nc".toList, r', f') := by
  have I := inputRel hu
  obtain ⟨qq, -, n, -, i1, -, hsd, hn, -⟩ := ended ho hl hf h
  have e := ((input_iff hl _ hf q).2 hq).symm.trans ((input_iff hl _ hf qq).2 i1)
  injection e with e
  subst e
  obtain ⟨ord, M, rfl, -, hc, ho1, hv, -, hr⟩ := ended_with ho hl hf h hq hn
  have h2 := (input_iff hl L.single hf' q').2 hq'
  obtain ⟨l1, l2, l3⟩ := sized hf' h2
  have e1 := congrArg Axis.Coeffs.R0c I.coeffs
  change q'.R0c = q.R0c at e1
  have hpos : 0 < q'.R0c.length := by
    rw [e1]
    exact List.length_pos_of_ne_nil hsd.2.2.2
  obtain ⟨ord', ho2⟩ : ∃ ord', Setup.validate q'.order_r_option = .ok ord' := by
    rcases hu.order with e | ⟨e, -⟩ | ⟨e, -⟩ <;> rw [e] <;> exact ⟨_, rfl⟩
  obtain ⟨k2, k3⟩ := flags_of hu ho1 ho2
  have hr' := calculate_cut I k2 k3 hr
  rw [run_eq L m0' (Outfile.outfile_ok path' dir ext hp) h2 ho2 (by rw [I.nphi]; exact hsd.2.1)
    (n := 2 * M + 1) (by rw [I.nphi]; exact (points_iff q _).2 hn) (by rw [I.nfp]; exact hsd.2.2.1)]
  obtain ⟨f', hw, -⟩ := file_written L.toF L.ops m0' q' ord' (2 * M + 1) (cut ord' r)
    (calculate_done (validate_order ho2) hr') (validate_ok ho2).1 rfl l1 l2 l3 (by omega) hpos
  exact ⟨cut ord' r, f', by simp only [hr', hw]⟩

/-! ## Examples -/

theorem exLower (order : String) (h : order = "r1" ∨ order = "r2") : Lower (exInput "r2.1" 20) (exInput order 20) where
  rest := rfl
  order := by rcases h with rfl | rfl <;> simp [exInput]
  second _ := ⟨rfl, rfl, rfl⟩

/-- The file of second order and the file of third order have the same second order and the same results of the search
for singularities. -/
example (m0 m0' : Mem ℝ) : ∃ r f r' f',
    run exLib m0 "dir/qsc_in.torus".toList (exFile "r2.1" 20) = .ok ("dir/qsc_out.torus.nc".toList, r, f) ∧
    run exLib m0' "dir/qsc_in.torus".toList (exFile "r2" 20) = .ok ("dir/qsc_out.torus.nc".toList, r', f') ∧
    Same f f' "iota" ∧ Same f f' "B20" ∧ Same f f' "r_singularity_robust" := by
  have hu := exLower "r2" (.inr rfl)
  obtain ⟨r, f, h⟩ := ex_run m0
  obtain ⟨r', f', h'⟩ := ends_lower rfl exLiterals m0' (exWellFormed _ _) (exWellFormed _ _) h ex_path (ex_input "r2.1" 20)
    (ex_input "r2" 20) hu
  obtain ⟨-, H⟩ := contains_lower rfl exLiterals (exWellFormed _ _) (exWellFormed _ _) h h' (ex_input "r2.1" 20)
    (ex_input "r2" 20) hu
  exact ⟨r, f, r', f', h, h', H.first ("iota", 0, 0) (by simp [Spec.Scaling.units1]),
    H.second (by simp [exInput]) ("B20", -2, 1) (by simp [Spec.Scaling.units2]),
    H.singular (by simp [exInput]) "r_singularity_robust" (by simp [Spec.Scaling.singular])⟩

/-- A file of first order with a pressure: the pressure makes no difference. -/
example : Lower (exInput "r2.1" 20) { exInput "r1" 20 with p2 := -1000 } where
  rest := rfl
  order := .inl rfl
  second h := absurd rfl h

end Qsc.Nested
