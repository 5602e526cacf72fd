import Verif.Lemmas.Shift

/-!
# A run with the axis moved, or given by other coefficients (C104)
-/

namespace Qsc.Shift
open Qsc.Netcdf Qsc.Single Qsc.Toml Qsc.Spec.Single Qsc.Spec.Shift Qsc.Spec.Reversal

theorem same_of {f f' : File ℝ} {v : String} (h : Spec.Scaling.Multiplied f f' 1 v) : Same f f' v := by
  obtain ⟨dims, l, h1, h2⟩ := h
  exact ⟨dims, l, h1, by simpa only [one_mul, List.map_id'] using h2⟩

theorem same_scalars {f f' : File ℝ} {x : String} {l l' : List (String × ℝ)} (h : ∀ p ∈ l, p.1 ≠ x → p ∈ l')
    (hf : ∀ p ∈ l, Scalar f p.1 p.2) (hf' : ∀ p ∈ l', Scalar f' p.1 p.2) : ∀ v ∈ l.map (·.1), v ≠ x → Same f f' v := by
  intro v hv hx
  obtain ⟨p, hp, rfl⟩ := List.mem_map.1 hv
  exact same_of (Scaling.mult_scalar (hf p hp) (by rw [one_mul]; exact hf' p (h p hp hx)))

theorem same_profiles {f f' : File ℝ} {n : Nat} {x : List String} {l l' : List (String × (Nat → ℝ))}
    (h : ∀ p ∈ l, p.1 ∉ x → p ∈ l') (hf : ∀ p ∈ l, p.1 ∉ x → Profile f p.1 n p.2)
    (hf' : ∀ p ∈ l', p.1 ∉ x → Profile f' p.1 n p.2) : ∀ v ∈ l.map (·.1), v ∉ x → Same f f' v := by
  intro v hv hx
  obtain ⟨p, hp, rfl⟩ := List.mem_map.1 hv
  refine same_of (Scaling.mult_profile (hf p hp hx) ?_)
  simpa only [one_mul] using hf' p (h p hp hx) hx

theorem scalars1_move (h : ℝ) (r : Result ℝ) :
    ∀ p ∈ scalars1 realOps r, p.1 ≠ "mean_Z" → p ∈ scalars1 realOps (moveResult h r) := by
  have e : scalars1 realOps (moveResult h r) = (scalars1 realOps r).map fun p =>
      if p.1 = "mean_Z" then (p.1, p.2 + h) else p := by
    simp [scalars1, moveResult, moveAxis]
  intro p hp hx
  rw [e]
  exact List.mem_map.2 ⟨p, hp, if_neg hx⟩

theorem profiles1_move (h : ℝ) (r : Result ℝ) :
    ∀ p ∈ profiles1 realOps r, p.1 ∉ ["X1s", "Z0"] → p ∈ profiles1 realOps (moveResult h r) := by
  have e : profiles1 realOps (moveResult h r) = (profiles1 realOps r).map fun p =>
      if p.1 = "Z0" then (p.1, fun j => p.2 j + h) else p := by
    simp [profiles1, moveResult, moveAxis, movePt]
  intro p hp hx
  rw [e]
  exact List.mem_map.2 ⟨p, hp, if_neg fun h => hx (by simp [h])⟩

section
variable {h : ℝ} {q q' : QscIn ℝ} {ord : Setup.Order} {n : Nat}
  {r : Result ℝ} {f f' : File ℝ} (hv : Vars realOps q ord n r f) (hv' : Vars realOps q' ord n (moveResult h r) f')
include hv hv'

theorem first_var (I : InputRel h q q') : ∀ u ∈ Spec.Scaling.units1, u.1 ∉ moving → Same f f' u.1 := by
  have S := same_scalars (scalars1_move h r) hv.s1 hv'.s1
  have P := same_profiles (n := n) (profiles1_move h r) (fun p hp hx => hv.p1 p hp fun e => hx (by simp [e]))
    (fun p hp hx => hv'.p1 p hp fun e => hx (by simp [e]))
  have A := same_scalars (f := f) (f' := f') (x := "") (l := [("eta_bar", q.eta_bar), ("sigma0", q.sigma0), ("I2", q.I2),
    ("B0", q.B0), ("newton_tolerance", q.newton_tolerance)]) (fun p hp _ => hp) hv.flts (by
      have := hv'.flts
      rwa [I.etaBar, I.sigma0, I.I2, I.B0, I.tol] at this)
  have D1 : Same f f' "d_d_phi" := same_of (Scaling.mult_square hv.dphi (by simp only [one_mul]; exact hv'.dphi))
  have D2 : Same f f' "d_d_varphi" := same_of (Scaling.mult_square hv.dvarphi (by simp only [one_mul]; exact hv'.dvarphi))
  have G : Same f f' "grad_B_tensor" := same_of (Scaling.mult_tensor hv.gradB (by simp only [one_mul]; exact hv'.gradB))
  have all : ∀ v ∈ ["eta_bar", "sigma0", "I2", "B0", "newton_tolerance"] ++ ["R0c", "R0s", "Z0c", "Z0s"] ++
    (scalars1 realOps r).map (·.1) ++ ((profiles1 realOps r).map (·.1)).filter (fun v => v ≠ "X1s") ++
    ["d_d_phi", "d_d_varphi", "grad_B_tensor"], v ∉ moving → Same f f' v := by
    intro v hv hm
    simp only [List.mem_append] at hv
    rcases hv with (((hv | hv) | hv) | hv) | hv
    · exact A v hv (by rintro rfl; simp at hv)
    · exact absurd (by simp at hv; rcases hv with rfl | rfl | rfl | rfl <;> simp [moving]) hm
    · exact S v hv (by rintro rfl; simp [moving] at hm)
    · rw [List.mem_filter] at hv
      refine P v hv.1 fun hx => ?_
      simp only [List.mem_cons, List.not_mem_nil, or_false] at hx
      rcases hx with rfl | rfl
      · simp at hv
      · simp [moving] at hm
    · simp only [List.mem_cons, List.not_mem_nil, or_false] at hv
      rcases hv with rfl | rfl | rfl
      · exact D1
      · exact D2
      · exact G
  intro u hu hm
  refine all u.1 ?_ hm
  have e : Spec.Scaling.units1.map (·.1) = ["eta_bar", "sigma0", "I2", "B0", "newton_tolerance"] ++
    ["R0c", "R0s", "Z0c", "Z0s"] ++ (scalars1 realOps r).map (·.1) ++
    ((profiles1 realOps r).map (·.1)).filter (fun v => v ≠ "X1s") ++ ["d_d_phi", "d_d_varphi", "grad_B_tensor"] := rfl
  rw [← e]
  exact List.mem_map.2 ⟨u, hu, rfl⟩

theorem second_var (I : InputRel h q q') (h2 : ord.atLeastR2 = true) {d : Second ℝ} (hd : r.second = some d) :
    (∀ u ∈ Spec.Scaling.units2, Same f f' u.1) ∧ ∀ v ∈ Spec.Scaling.singular, Same f f' v := by
  have S := same_scalars (x := "") (l := scalars2 realOps d) (fun p hp _ => hp) (hv.s2 d hd) (hv'.s2 d hd)
  have P := same_profiles (f := f) (f' := f') (n := n) (x := []) (l := profiles2 realOps d) (fun p hp _ => hp)
    (fun p hp _ => hv.p2 d hd p hp) (fun p hp _ => hv'.p2 d hd p hp)
  have A := same_scalars (f := f) (f' := f') (x := "") (l := [("B2c", q.B2c), ("B2s", q.B2s), ("p2", q.p2)])
    (fun p hp _ => hp) (hv.flts2 h2) (by
      have := hv'.flts2 h2
      rwa [I.B2c, I.B2s, I.p2] at this)
  have G : Same f f' "grad_grad_B_tensor" :=
    same_of (Scaling.mult_tensor3 (hv.gradgradB d hd) (by simp only [one_mul]; exact hv'.gradgradB d hd))
  have all : ∀ v ∈ ["B2c", "B2s", "p2"] ++ (scalars2 realOps d).map (·.1) ++ (profiles2 realOps d).map (·.1) ++
      ["grad_grad_B_tensor"], Same f f' v := by
    intro v hv
    simp only [List.mem_append] at hv
    rcases hv with ((hv | hv) | hv) | hv
    · exact A v hv (by rintro rfl; simp at hv)
    · exact S v hv (by rintro rfl; simp [scalars2] at hv)
    · exact P v hv (by simp)
    · simp only [List.mem_singleton] at hv
      subst hv
      exact G
  have sub1 : ∀ v ∈ Spec.Scaling.units2.map (·.1), v ∈ ["B2c", "B2s", "p2"] ++ (scalars2 realOps d).map (·.1) ++
      (profiles2 realOps d).map (·.1) ++ ["grad_grad_B_tensor"] := by
    simp [Spec.Scaling.units2, scalars2, profiles2]
  have sub2 : ∀ v ∈ Spec.Scaling.singular, v ∈ ["B2c", "B2s", "p2"] ++ (scalars2 realOps d).map (·.1) ++
      (profiles2 realOps d).map (·.1) ++ ["grad_grad_B_tensor"] := by
    simp [Spec.Scaling.singular, scalars2, profiles2]
  exact ⟨fun u hu => all _ (sub1 _ (List.mem_map.2 ⟨u, hu, rfl⟩)), fun v hv => all v (sub2 v hv)⟩

theorem third_var {d : Second ℝ} (hd : r.second = some d) (h3 : d.third.isSome = true) :
    ∀ u ∈ Spec.Scaling.units3, Same f f' u.1 := by
  obtain ⟨t, ht⟩ := Option.isSome_iff_exists.1 h3
  have S := same_scalars (x := "") (l := scalars3 t) (fun p hp _ => hp) (hv.s3 d t hd ht) (hv'.s3 d t hd ht)
  have P := same_profiles (f := f) (f' := f') (n := n) (x := []) (l := profiles3 d.inp t) (fun p hp _ => hp)
    (fun p hp _ => hv.p3 d t hd ht p hp) (fun p hp _ => hv'.p3 d t hd ht p hp)
  intro u hu
  have e : Spec.Scaling.units3.map (·.1) = (scalars3 t).map (·.1) ++ (profiles3 d.inp t).map (·.1) := rfl
  have hv : u.1 ∈ Spec.Scaling.units3.map (·.1) := List.mem_map.2 ⟨u, hu, rfl⟩
  rw [e] at hv
  rcases List.mem_append.1 hv with hv | hv
  · exact S _ hv (by intro e; rw [e] at hv; simp [scalars3] at hv)
  · exact P _ hv (by simp)

theorem labels_var (I : InputRel h q q') : ∀ v ∈ Spec.Scaling.labels, Spec.Scaling.Unchanged f f' v := by
  have i1 := hv.ints
  have i2 := hv'.ints
  have g1 := hv.flags
  have g2 := hv'.flags
  simp only [List.forall_mem_cons, List.not_mem_nil, false_imp_iff, implies_true, and_true, I.nfp, I.sG, I.spsi, I.N,
    I.M] at i1 i2 g1 g2
  obtain ⟨x1, x2, x3, x4, x5⟩ := i1
  obtain ⟨y1, y2, y3, y4, y5⟩ := i2
  obtain ⟨u1, u2, u3⟩ := g1
  obtain ⟨w1, w2, w3⟩ := g2
  have hh := hv'.hel
  have ho := hv'.option
  rw [I.order] at ho
  simp only [Spec.Scaling.labels, List.forall_mem_cons, List.not_mem_nil, false_imp_iff, implies_true, and_true]
  exact ⟨.inl ⟨_, hv.nphi, hv'.nphi⟩, .inl ⟨_, x1, y1⟩, .inl ⟨_, x2, y2⟩, .inl ⟨_, x3, y3⟩, .inl ⟨_, x4, y4⟩,
    .inl ⟨_, x5, y5⟩, .inl ⟨_, hv.hel, hh⟩, .inl ⟨_, u1, w1⟩, .inl ⟨_, u2, w2⟩, .inl ⟨_, u3, w3⟩,
    .inr ⟨_, hv.option, ho⟩, .inr ⟨_, hv.general, hv'.general⟩⟩

end

/-- An axis away from the axis of symmetry has a length. -/
theorem length_ne {q : QscIn ℝ} {M : Nat} {a : Axis.Axis ℝ} (hn : 0 < q.nfp) (hc : (coeffs q).WellSized)
    (h : Axis.initAxis realOps (coeffs q) (2 * M + 1) q.sG q.spsi q.B0 = .ok a) (h0 : axisR q 0 ≠ 0) : a.axisLength ≠ 0 := by
  rw [length_is hc h hn]
  unfold Spec.Single.length
  have hs : 0 < ∑ j ∈ Finset.range (2 * M + 1), Spec.Axis.speed (axis q) (grid q (2 * M + 1) j) := by
    refine Finset.sum_pos' (fun j _ => Real.sqrt_nonneg _) ⟨0, by simp, ?_⟩
    have e : grid q (2 * M + 1) 0 = 0 := by simp [grid]
    rw [e]
    exact Axis.speed_pos (c := coeffs q) h0
  have := Real.pi_pos
  positivity

/-- **C104.** Two runs whose input files give the same axis by other coefficients, or the axis moved by `h` in the
direction of `Z`: the second file is the first one, moved.  The libraries may answer anything, but the same to both.
A curve through the axis of symmetry could have the length zero; `mean_Z` has no meaning then. -/
theorem same_moved {L : Lib ℝ} (ho : L.ops = realOps) (hl : Literals L.lit) {m0 m0' : Mem ℝ}
    {path path' : List Char} {file file' : Sections.File ℝ} (hf : Spec.Sections.WellFormed file)
    (hf' : Spec.Sections.WellFormed file') {name name' : List Char} {r r' : Result ℝ} {f f' : File ℝ}
    (h : run L m0 path file = .ok (name, r, f)) (h' : run L m0' path' file' = .ok (name', r', f'))
    {q q' : QscIn ℝ} (hq : Input L.single file q) (hq' : Input L.single file' q') {z : ℝ} (hu : Moved z q q')
    (h0 : z = 0 ∨ axisR q 0 ≠ 0) {n : Nat} (hn : Points q n) :
    r'.newton = r.newton ∧ SameMoved z q.order_r_option n f f' := by
  have I := inputRel hu
  have hn' : Points q' n := by
    unfold Points at hn ⊢
    rwa [I.nphi]
  obtain ⟨ord, M, rfl, hsd, hc, ho1, hv, hx, hr⟩ := ended_with ho hl hf h hq hn
  obtain ⟨ord', -, -, -, hc', ho2, hv', -, hr'⟩ := ended_with ho hl hf' h' hq' hn'
  rw [I.order, ho1] at ho2
  injection ho2 with ho2
  subst ho2
  rw [calculate_rel ho I hc hc' hr (h0.imp_right (length_ne hsd.2.2.1 hc hx))] at hr'
  injection hr' with hr'
  subst hr'
  have key : q.order_r_option ≠ "r1" → ord.atLeastR2 = true ∧ ∃ d, r.second = some d ∧ d.third.isSome = ord.r2p1 := by
    intro h1
    have h2 : ord.atLeastR2 = true := by
      rcases (validate_ok ho1).2 with ⟨e, -⟩ | ⟨-, rfl⟩ | ⟨-, rfl⟩
      · exact absurd e h1
      · rfl
      · rfl
    obtain ⟨d, x, k1, k2, k3, k4, k5, k6, k7⟩ := calculate_second ho hr h2
    refine ⟨h2, d, k1, ?_⟩
    rw [k5]
    cases ord.r2p1 <;> rfl
  refine ⟨rfl, labels_var hv hv' I, ?_, ?_, first_var hv hv' I, ?_, ?_, ?_⟩
  · exact ⟨_, hv.p1 ("Z0", fun j => (r.axis.pt j).Z0) (by simp [profiles1]) (by simp),
      hv'.p1 ("Z0", fun j => (r.axis.pt j).Z0 + z) (by simp [profiles1, moveResult, moveAxis, movePt]) (by simp)⟩
  · exact ⟨_, hv.s1 ("mean_Z", r.axis.meanZ) (by simp [scalars1]),
      hv'.s1 ("mean_Z", r.axis.meanZ + z) (by simp [scalars1, moveResult, moveAxis])⟩
  · intro h1
    obtain ⟨h2, d, hd, -⟩ := key h1
    exact (second_var hv hv' I h2 hd).1
  · intro h1
    obtain ⟨h2, d, hd, -⟩ := key h1
    exact (second_var hv hv' I h2 hd).2
  · intro h1
    obtain ⟨h2, d, hd, h3⟩ := key (by rw [h1]; decide)
    refine third_var hv hv' hd ?_
    rw [h3]
    rcases (validate_ok ho1).2 with ⟨e, -⟩ | ⟨e, -⟩ | ⟨-, rfl⟩
    · rw [h1] at e; exact absurd e (by decide)
    · rw [h1] at e; exact absurd e (by decide)
    · rfl

/-- **C104.** If the run ends, so does the run with the axis moved. -/
theorem ends_moved {L : Lib ℝ} (ho : L.ops = realOps) (hl : Literals L.lit) {m0 : Mem ℝ} (m0' : Mem ℝ)
    {path : List Char} {file file' : Sections.File ℝ} (hf : Spec.Sections.WellFormed file)
    (hf' : Spec.Sections.WellFormed file') {name : List Char} {r : Result ℝ} {f : File ℝ}
    (h : run L m0 path file = .ok (name, r, f)) {path' dir ext : List Char} (hp : Outfile.IsInputPath path' dir ext)
    {q q' : QscIn ℝ} (hq : Input L.single file q) (hq' : Input L.single file' q') {z : ℝ} (hu : Moved z q q')
    (h0 : z = 0 ∨ axisR q 0 ≠ 0) (he : q'.R0c ≠ []) :
    ∃ r' f', run L m0' path' file' = .ok (dir ++ "qsc_out.".toList ++ ext ++ ".nc".toList, r', f') := by
  have I := inputRel hu
  obtain ⟨qq, -, n, -, i1, -, hsd, hn, -⟩ := ended ho hl hf h
  have e := ((input_iff hl _ hf q).2 hq).symm.trans ((input_iff hl _ hf qq).2 i1)
  injection e with e
  subst e
  obtain ⟨ord, M, rfl, -, hc, ho1, hv, hx, hr⟩ := ended_with ho hl hf h hq hn
  have h2 := (input_iff hl L.single hf' q').2 hq'
  obtain ⟨l1, l2, l3⟩ := sized hf' h2
  have hpos : 0 < q'.R0c.length := List.length_pos_of_ne_nil he
  have hc' : (coeffs q').WellSized := ⟨hpos, l1, l2, l3⟩
  have hr' := calculate_rel ho I hc hc' hr (h0.imp_right (length_ne hsd.2.2.1 hc hx))
  have ho2 : Setup.validate q'.order_r_option = .ok ord := by rw [I.order]; exact ho1
  rw [run_eq L m0' (Outfile.outfile_ok path' dir ext hp) h2 ho2 (by rw [I.nphi]; exact hsd.2.1)
    (n := 2 * M + 1) (by rw [I.nphi]; exact (points_iff q _).2 hn) (by rw [I.nfp]; exact hsd.2.2.1)]
  obtain ⟨f', hw, -⟩ := file_written L.toF L.ops m0' q' ord (2 * M + 1) (moveResult z r)
    (calculate_done (validate_order ho2) hr') (validate_ok ho2).1 rfl l1 l2 l3 (by omega) hpos
  exact ⟨moveResult z r, f', by simp only [hr', hw]⟩

/-! ## An example -/

/-- The configuration of `exFile`, moved by `1 / 3` and with a mode of amplitude zero in addition. -/
noncomputable def exMovedFile : Sections.File ℝ :=
  [("qsc", [("order_r_option", .str "r2.1"), ("nfp", .int 4), ("nphi", .int 20),
    ("R0c", .arr [.flt 1, .flt (1 / 20), .flt 0]), ("Z0c", .arr [.flt (1 / 3)]),
    ("Z0s", .arr [.flt 7, .flt (1 / 20)]), ("eta_bar", .flt (3 / 2))])]

noncomputable def exMovedInput : QscIn ℝ :=
  { exInput "r2.1" 20 with R0c := [1, 1 / 20, 0], R0s := [0, 0, 0], Z0c := [1 / 3, 0, 0], Z0s := [7, 1 / 20, 0] }

theorem exMovedWell : Spec.Sections.WellFormed exMovedFile := by
  refine ⟨by simp [exMovedFile], ?_⟩
  simp [exMovedFile]

theorem exMoved_input : Input exLib.single exMovedFile exMovedInput := by
  rw [← input_iff exLiterals _ exMovedWell, defaults_eq exLiterals]
  rfl

theorem exMoved : Moved (1 / 3) (exInput "r2.1" 20) exMovedInput where
  rest := rfl
  R0c n := by rcases n with _ | _ | _ | n <;> simp [exMovedInput, exInput]
  R0s n _ := by rcases n with _ | _ | _ | n <;> simp [exMovedInput, exInput]
  Z0c0 := by simp [exMovedInput, exInput]
  Z0c n h := by rcases n with _ | _ | _ | n <;> first | exact absurd rfl h | simp [exMovedInput, exInput]
  Z0s n h := by rcases n with _ | _ | _ | n <;> first | exact absurd rfl h | simp [exMovedInput, exInput]

theorem exMoved_away : axisR (exInput "r2.1" 20) 0 ≠ 0 := by
  simp [axisR, Spec.Axis.fourier, exInput, Finset.sum_range_succ]
  norm_num

/-- The file of the moved configuration has the same rotational transform and the same torsion; `mean_Z` is larger by
`1 / 3`. -/
example (m0 m0' : Mem ℝ) : ∃ r f r' f',
    run exLib m0 "dir/qsc_in.torus".toList (exFile "r2.1" 20) = .ok ("dir/qsc_out.torus.nc".toList, r, f) ∧
    run exLib m0' "dir/qsc_in.torus".toList exMovedFile = .ok ("dir/qsc_out.torus.nc".toList, r', f') ∧
    Same f f' "iota" ∧ Same f f' "torsion" ∧ Same f f' "r_singularity_robust" ∧
    ∃ x, Scalar f "mean_Z" x ∧ Scalar f' "mean_Z" (x + 1 / 3) := by
  obtain ⟨r, f, h⟩ := ex_run m0
  obtain ⟨r', f', h'⟩ := ends_moved rfl exLiterals m0' (exWellFormed _ _) exMovedWell h ex_path (ex_input "r2.1" 20)
    exMoved_input exMoved (.inr exMoved_away) (by simp [exMovedInput])
  obtain ⟨-, H⟩ := same_moved rfl exLiterals (exWellFormed _ _) exMovedWell h h' (ex_input "r2.1" 20)
    exMoved_input exMoved (.inr exMoved_away) (n := 21) (by simp [Points, exInput])
  exact ⟨r, f, r', f', h, h', H.first ("iota", 0, 0) (by simp [Spec.Scaling.units1]) (by simp [moving]),
    H.first ("torsion", -1, 0) (by simp [Spec.Scaling.units1]) (by simp [moving]),
    H.singular (by simp [exInput]) "r_singularity_robust" (by simp [Spec.Scaling.singular]), H.mean⟩

end Qsc.Shift
