import Verif.Lemmas.HalfTurn
import Verif.Spec.HalfTurn

/-!
# A run with the opposite `eta_bar` (C102)
-/

namespace Qsc.HalfTurn
open Qsc.Netcdf Qsc.Single Qsc.Toml Qsc.Spec.Single Qsc.Spec.HalfTurn

theorem inputRel {q q' : QscIn ℝ} (h : OtherSide q q') : InputRel q q' := by
  unfold OtherSide at h
  generalize q'.verbose = w at h
  subst h
  exact ⟨rfl, rfl, rfl, rfl, rfl, rfl, rfl, rfl, rfl, rfl, rfl, rfl, rfl, rfl, rfl, rfl⟩

/-- The sign of a variable. -/
noncomputable def sgn (v : String) : ℝ := if v ∈ odd then -1 else 1

theorem var_of {f f' : File ℝ} {v : String} (h : Spec.Scaling.Multiplied f f' (sgn v) v) : Turned f f' v := by
  obtain ⟨dims, l, h1, h2⟩ := h
  unfold Turned
  unfold sgn at h2
  split
  · rename_i hv
    rw [if_pos hv] at h2
    refine ⟨dims, l, h1, ?_⟩
    simpa only [neg_mul, one_mul] using h2
  · rename_i hv
    rw [if_neg hv] at h2
    refine ⟨dims, l, h1, ?_⟩
    simpa only [one_mul, List.map_id'] using h2

theorem var_scalars {f f' : File ℝ} {l l' : List (String × ℝ)} (h : l' = l.map fun p => (p.1, sgn p.1 * p.2))
    (hf : ∀ p ∈ l, Scalar f p.1 p.2) (hf' : ∀ p ∈ l', Scalar f' p.1 p.2) : ∀ v ∈ l.map (·.1), Turned f f' v := by
  intro v hv
  obtain ⟨p, hp, rfl⟩ := List.mem_map.1 hv
  refine var_of (Scaling.mult_scalar (hf p hp) ?_)
  subst h
  exact hf' (p.1, _) (List.mem_map.2 ⟨p, hp, rfl⟩)

theorem var_profiles {f f' : File ℝ} {n : Nat} {x : String} {l l' : List (String × (Nat → ℝ))}
    (h : l' = l.map fun p => (p.1, fun j => sgn p.1 * p.2 j))
    (hf : ∀ p ∈ l, p.1 ≠ x → Profile f p.1 n p.2) (hf' : ∀ p ∈ l', p.1 ≠ x → Profile f' p.1 n p.2) :
    ∀ v ∈ l.map (·.1), v ≠ x → Turned f f' v := by
  intro v hv hx
  obtain ⟨p, hp, rfl⟩ := List.mem_map.1 hv
  refine var_of (Scaling.mult_profile (hf p hp hx) ?_)
  subst h
  exact hf' (p.1, _) (List.mem_map.2 ⟨p, hp, rfl⟩) hx

theorem var_all {f f' : File ℝ} {l : List (String × Int × Int)} {m : List String} (h : l.map (·.1) = m)
    (hm : ∀ v ∈ m, Turned f f' v) : ∀ u ∈ l, Turned f f' u.1 := fun u hu => hm _ (h ▸ List.mem_map.2 ⟨u, hu, rfl⟩)

theorem scalars1_eta (r : Result ℝ) :
    scalars1 realOps (etaResult r) = (scalars1 realOps r).map fun p => (p.1, sgn p.1 * p.2) := by
  simp only [scalars1, etaResult, minLgradB_eta]
  simp [sgn, odd, etaR1]

theorem profiles1_eta (r : Result ℝ) :
    profiles1 realOps (etaResult r) = (profiles1 realOps r).map fun p => (p.1, fun j => sgn p.1 * p.2 j) := by
  simp only [profiles1, etaResult, LgradB_eta, LgradBInverse_eta]
  simp [sgn, odd, etaR1]

theorem scalars2_eta (d : Second ℝ) :
    scalars2 realOps (etaSecond d) = (scalars2 realOps d).map fun p => (p.1, sgn p.1 * p.2) := by
  simp only [scalars2, etaSecond, pre_eta, minLgradGradB_eta]
  simp [sgn, odd, etaPre]

theorem profiles2_eta (d : Second ℝ) :
    profiles2 realOps (etaSecond d) = (profiles2 realOps d).map fun p => (p.1, fun j => sgn p.1 * p.2 j) := by
  simp only [profiles2, etaSecond, pre_eta, at_eta, LgradGradB_eta, LgradGradBInverse_eta]
  simp [sgn, odd, etaPre, etaIn, etaCfg]

theorem scalars3_eta (t : R2.R2p1 ℝ) :
    scalars3 (etaThird t) = (scalars3 t).map fun p => (p.1, sgn p.1 * p.2) := by
  simp [scalars3, sgn, odd, etaThird]

theorem profiles3_eta (i : R2.In ℝ) (t : R2.R2p1 ℝ) :
    profiles3 (etaIn i) (etaThird t) = (profiles3 i t).map fun p => (p.1, fun j => sgn p.1 * p.2 j) := by
  simp [profiles3, sgn, odd, etaThird, etaIn, etaCfg, matVec_neg]

section
variable {q q' : QscIn ℝ} (I : InputRel q q') {ord : Setup.Order} {n : Nat}
  {r : Result ℝ} {f f' : File ℝ} (hv : Vars realOps q ord n r f) (hv' : Vars realOps q' ord n (etaResult r) f')
include hv hv'

theorem first_var (I : InputRel q q') : ∀ u ∈ Spec.Scaling.units1, Turned f f' u.1 := by
  have S := var_scalars (scalars1_eta r) hv.s1 hv'.s1
  have P := var_profiles (n := n) (x := "X1s") (profiles1_eta r) hv.p1 hv'.p1
  have F := hv.flts
  have F' := hv'.flts
  have C := hv.coefs
  have C' := hv'.coefs
  have e1 := congrArg Axis.Coeffs.R0c I.coeffs
  have e2 := congrArg Axis.Coeffs.R0s I.coeffs
  have e3 := congrArg Axis.Coeffs.Z0c I.coeffs
  have e4 := congrArg Axis.Coeffs.Z0s I.coeffs
  change q'.R0c = q.R0c at e1
  change q'.R0s = q.R0s at e2
  change q'.Z0c = q.Z0c at e3
  change q'.Z0s = q.Z0s at e4
  rw [e1, e2, e3, e4] at C'
  have A := var_scalars (f := f) (f' := f') (l := [("eta_bar", q.eta_bar), ("sigma0", q.sigma0), ("I2", q.I2), ("B0", q.B0),
    ("newton_tolerance", q.newton_tolerance)]) rfl F (by
      simpa [sgn, odd, I.etaBar, I.sigma0, I.I2, I.B0, I.tol] using F')
  have B : ∀ v ∈ ["R0c", "R0s", "Z0c", "Z0s"], Turned f f' v := by
    simp only [List.forall_mem_cons, List.not_mem_nil, false_imp_iff, implies_true, and_true] at C C' ⊢
    have s1 : ∀ l : List ℝ, l.map (1 * ·) = l := fun l => by simp
    refine ⟨var_of ?_, var_of ?_, var_of ?_, var_of ?_⟩
    · rw [show sgn "R0c" = 1 from by simp [sgn, odd]]
      exact Scaling.mult_coefs C.1 (by rw [s1]; exact C'.1)
    · rw [show sgn "R0s" = 1 from by simp [sgn, odd]]
      exact Scaling.mult_coefs C.2.1 (by rw [s1]; exact C'.2.1)
    · rw [show sgn "Z0c" = 1 from by simp [sgn, odd]]
      exact Scaling.mult_coefs C.2.2.1 (by rw [s1]; exact C'.2.2.1)
    · rw [show sgn "Z0s" = 1 from by simp [sgn, odd]]
      exact Scaling.mult_coefs C.2.2.2 (by rw [s1]; exact C'.2.2.2)
  have D1 : Turned f f' "d_d_phi" := var_of (by
    rw [show sgn "d_d_phi" = 1 from by simp [sgn, odd]]
    exact Scaling.mult_square hv.dphi (by simp only [one_mul]; exact hv'.dphi))
  have D2 : Turned f f' "d_d_varphi" := var_of (by
    rw [show sgn "d_d_varphi" = 1 from by simp [sgn, odd]]
    exact Scaling.mult_square hv.dvarphi (by simp only [one_mul]; exact hv'.dvarphi))
  have G : Turned f f' "grad_B_tensor" := var_of (by
    rw [show sgn "grad_B_tensor" = 1 from by simp [sgn, odd]]
    refine Scaling.mult_tensor hv.gradB ?_
    simp only [one_mul]
    rw [← gradB_eta]
    exact hv'.gradB)
  refine var_all (m := ["eta_bar", "sigma0", "I2", "B0", "newton_tolerance"] ++ ["R0c", "R0s", "Z0c", "Z0s"] ++
    (scalars1 realOps r).map (·.1) ++ ((profiles1 realOps r).map (·.1)).filter (fun v => v ≠ "X1s") ++
    ["d_d_phi", "d_d_varphi", "grad_B_tensor"]) rfl ?_
  intro v hv
  simp only [List.mem_append] at hv
  rcases hv with (((hv | hv) | hv) | hv) | hv
  · exact A v hv
  · exact B v hv
  · exact S v hv
  · rw [List.mem_filter] at hv
    exact P v hv.1 (by simpa using hv.2)
  · simp only [List.mem_cons, List.not_mem_nil, or_false] at hv
    rcases hv with rfl | rfl | rfl
    · exact D1
    · exact D2
    · exact G

theorem second_var (I : InputRel q q') (h2 : ord.atLeastR2 = true) {d : Second ℝ} (hd : r.second = some d) :
    (∀ u ∈ Spec.Scaling.units2, Turned f f' u.1) ∧ ∀ v ∈ Spec.Scaling.singular, Turned f f' v := by
  have hd' : (etaResult r).second = some (etaSecond d) := by simp [etaResult, hd]
  have S := var_scalars (scalars2_eta d) (hv.s2 d hd) (hv'.s2 _ hd')
  have P := var_profiles (n := n) (x := "") (profiles2_eta d) (fun p hp _ => hv.p2 d hd p hp)
    (fun p hp _ => hv'.p2 _ hd' p hp)
  have F := hv.flts2 h2
  have F' := hv'.flts2 h2
  have A := var_scalars (f := f) (f' := f') (l := [("B2c", q.B2c), ("B2s", q.B2s), ("p2", q.p2)]) rfl F (by
      simpa [sgn, odd, I.B2c, I.B2s, I.p2] using F')
  have G : Turned f f' "grad_grad_B_tensor" := var_of (by
    rw [show sgn "grad_grad_B_tensor" = 1 from by simp [sgn, odd]]
    refine Scaling.mult_tensor3 (hv.gradgradB d hd) ?_
    have h := hv'.gradgradB _ hd'
    simp only [etaSecond, at_eta, main_eta] at h
    simp only [one_mul]
    exact h)
  have all : ∀ v ∈ ["B2c", "B2s", "p2"] ++ (scalars2 realOps d).map (·.1) ++ (profiles2 realOps d).map (·.1) ++
      ["grad_grad_B_tensor"], Turned f f' v := by
    intro v hv
    simp only [List.mem_append] at hv
    rcases hv with ((hv | hv) | hv) | hv
    · exact A v hv
    · exact S v hv
    · exact P v hv (by rintro rfl; simp [profiles2] at hv)
    · simp only [List.mem_singleton] at hv
      subst hv
      exact G
  have sub1 : ∀ v ∈ Spec.Scaling.units2.map (·.1), v ∈ ["B2c", "B2s", "p2"] ++ (scalars2 realOps d).map (·.1) ++
      (profiles2 realOps d).map (·.1) ++ ["grad_grad_B_tensor"] := by
    simp [Spec.Scaling.units2, scalars2, profiles2]
  have sub2 : ∀ v ∈ Spec.Scaling.singular, v ∈ ["B2c", "B2s", "p2"] ++ (scalars2 realOps d).map (·.1) ++
      (profiles2 realOps d).map (·.1) ++ ["grad_grad_B_tensor"] := by
    simp [Spec.Scaling.singular, scalars2, profiles2]
  exact ⟨fun u hu => all _ (sub1 _ (List.mem_map.2 ⟨u, hu, rfl⟩)), fun v hv => all v (sub2 v hv)⟩

theorem third_var {d : Second ℝ} (hd : r.second = some d) (h3 : d.third.isSome = true) :
    ∀ u ∈ Spec.Scaling.units3, Turned f f' u.1 := by
  have hd' : (etaResult r).second = some (etaSecond d) := by simp [etaResult, hd]
  obtain ⟨t, ht⟩ := Option.isSome_iff_exists.1 h3
  have ht' : (etaSecond d).third = some (etaThird t) := by simp [etaSecond, ht]
  have S := var_scalars (scalars3_eta t) (hv.s3 d t hd ht) (hv'.s3 _ _ hd' ht')
  have P := var_profiles (n := n) (x := "") (profiles3_eta d.inp t) (fun p hp _ => hv.p3 d t hd ht p hp)
    (fun p hp _ => hv'.p3 _ _ hd' ht' p hp)
  refine var_all (m := (scalars3 t).map (·.1) ++ (profiles3 d.inp t).map (·.1)) rfl ?_
  intro v hv
  rcases List.mem_append.1 hv with hv | hv
  · exact S v hv
  · exact P v hv (by rintro rfl; simp [profiles3] at hv)

theorem labels_var (I : InputRel q q') : ∀ v ∈ Spec.Scaling.labels, Spec.Scaling.Unchanged f f' v := by
  have i1 := hv.ints
  have i2 := hv'.ints
  have g1 := hv.flags
  have g2 := hv'.flags
  simp only [List.forall_mem_cons, List.not_mem_nil, false_imp_iff, implies_true, and_true, I.nfp, I.sG, I.spsi, I.N,
    I.M] at i1 i2 g1 g2
  obtain ⟨x1, x2, x3, x4, x5⟩ := i1
  obtain ⟨y1, y2, y3, y4, y5⟩ := i2
  obtain ⟨u1, u2, u3⟩ := g1
  obtain ⟨w1, w2, w3⟩ := g2
  have hh := hv'.hel
  have ho := hv'.option
  rw [I.order] at ho
  simp only [Spec.Scaling.labels, List.forall_mem_cons, List.not_mem_nil, false_imp_iff, implies_true, and_true]
  exact ⟨.inl ⟨_, hv.nphi, hv'.nphi⟩, .inl ⟨_, x1, y1⟩, .inl ⟨_, x2, y2⟩, .inl ⟨_, x3, y3⟩, .inl ⟨_, x4, y4⟩,
    .inl ⟨_, x5, y5⟩, .inl ⟨_, hv.hel, hh⟩, .inl ⟨_, u1, w1⟩, .inl ⟨_, u2, w2⟩, .inl ⟨_, u3, w3⟩,
    .inr ⟨_, hv.option, ho⟩, .inr ⟨_, hv.general, hv'.general⟩⟩

end

theorem order_solver {L : Lib ℝ} {q : QscIn ℝ} {ord : Setup.Order} (h : Setup.validate q.order_r_option = .ok ord)
    (hg : q.order_r_option ≠ "r1" → SignFree L.gesv) : ord.atLeastR2 = true → SignFree L.gesv := by
  intro h2
  rcases (validate_ok h).2 with ⟨-, rfl⟩ | ⟨e, -⟩ | ⟨e, -⟩
  · cases h2
  · exact hg (by rw [e]; decide)
  · exact hg (by rw [e]; decide)

/-- **C102.** Two runs whose input files differ in the sign of `eta_bar`: the second file is the first one with the
poloidal angle counted from the opposite side. -/
theorem same_turned {L : Lib ℝ} (ho : L.ops = realOps) (hl : Literals L.lit) {m0 m0' : Mem ℝ}
    {path path' : List Char} {file file' : Sections.File ℝ} (hf : Spec.Sections.WellFormed file)
    (hf' : Spec.Sections.WellFormed file') {name name' : List Char} {r r' : Result ℝ} {f f' : File ℝ}
    (h : run L m0 path file = .ok (name, r, f)) (h' : run L m0' path' file' = .ok (name', r', f'))
    {q q' : QscIn ℝ} (hq : Input L.single file q) (hq' : Input L.single file' q') (hu : OtherSide q q')
    (hg : q.order_r_option ≠ "r1" → SignFree L.gesv) :
    r'.newton = r.newton ∧ SameTurned q.order_r_option f f' := by
  have I := inputRel hu
  obtain ⟨qq, -, n, -, i1, -, -, hn, -⟩ := ended ho hl hf h
  have e := ((input_iff hl _ hf q).2 hq).symm.trans ((input_iff hl _ hf qq).2 i1)
  injection e with e
  subst e
  have hn' : Points q' n := by
    unfold Points at hn ⊢
    rwa [I.nphi]
  obtain ⟨ord, M, rfl, -, hc, ho1, hv, -, hr⟩ := ended_with ho hl hf h hq hn
  obtain ⟨ord', -, -, -, -, ho2, hv', -, hr'⟩ := ended_with ho hl hf' h' hq' hn'
  rw [I.order, ho1] at ho2
  injection ho2 with ho2
  subst ho2
  rw [calculate_eta ho I _ _ (order_solver ho1 hg), hr] at hr'
  injection hr' with hr'
  subst hr'
  have key : q.order_r_option ≠ "r1" → ord.atLeastR2 = true ∧ ∃ d, r.second = some d ∧ d.third.isSome = ord.r2p1 := by
    intro h1
    have h2 : ord.atLeastR2 = true := by
      rcases (validate_ok ho1).2 with ⟨e, -⟩ | ⟨-, rfl⟩ | ⟨-, rfl⟩
      · exact absurd e h1
      · rfl
      · rfl
    obtain ⟨d, x, k1, k2, k3, k4, k5, k6, k7⟩ := calculate_second ho hr h2
    refine ⟨h2, d, k1, ?_⟩
    rw [k5]
    cases ord.r2p1 <;> rfl
  refine ⟨rfl, labels_var hv hv' I, first_var hv hv' I, ?_, ?_, ?_⟩
  · intro h1
    obtain ⟨h2, d, hd, -⟩ := key h1
    exact (second_var hv hv' I h2 hd).1
  · intro h1
    obtain ⟨h2, d, hd, -⟩ := key h1
    exact (second_var hv hv' I h2 hd).2
  · intro h1
    obtain ⟨h2, d, hd, h3⟩ := key (by rw [h1]; decide)
    refine third_var hv hv' hd ?_
    rw [h3]
    rcases (validate_ok ho1).2 with ⟨e, -⟩ | ⟨e, -⟩ | ⟨-, rfl⟩
    · rw [h1] at e; exact absurd e (by decide)
    · rw [h1] at e; exact absurd e (by decide)
    · rfl

/-- **C102.** If the run ends, so does the run with the opposite `eta_bar`. -/
theorem ends_turned {L : Lib ℝ} (ho : L.ops = realOps) (hl : Literals L.lit) {m0 : Mem ℝ} (m0' : Mem ℝ)
    {path : List Char} {file file' : Sections.File ℝ} (hf : Spec.Sections.WellFormed file)
    (hf' : Spec.Sections.WellFormed file') {name : List Char} {r : Result ℝ} {f : File ℝ}
    (h : run L m0 path file = .ok (name, r, f)) {path' dir ext : List Char} (hp : Outfile.IsInputPath path' dir ext)
    {q q' : QscIn ℝ} (hq : Input L.single file q) (hq' : Input L.single file' q') (hu : OtherSide q q')
    (hg : q.order_r_option ≠ "r1" → SignFree L.gesv) :
    ∃ r' f', run L m0' path' file' = .ok (dir ++ "qsc_out.".toList ++ ext ++ ".nc".toList, r', f') := by
  have I := inputRel hu
  obtain ⟨qq, -, n, -, i1, -, hsd, hn, -⟩ := ended ho hl hf h
  have e := ((input_iff hl _ hf q).2 hq).symm.trans ((input_iff hl _ hf qq).2 i1)
  injection e with e
  subst e
  obtain ⟨ord, M, rfl, -, hc, ho1, hv, -, hr⟩ := ended_with ho hl hf h hq hn
  have h2 := (input_iff hl L.single hf' q').2 hq'
  obtain ⟨l1, l2, l3⟩ := sized hf' h2
  have e1 := congrArg Axis.Coeffs.R0c I.coeffs
  change q'.R0c = q.R0c at e1
  have hpos : 0 < q'.R0c.length := by
    rw [e1]
    exact List.length_pos_of_ne_nil hsd.2.2.2
  have hr' : calculate L q' (2 * M + 1) ord = .ok (etaResult r) := by
    rw [calculate_eta ho I _ _ (order_solver ho1 hg), hr]
    rfl
  have ho2 : Setup.validate q'.order_r_option = .ok ord := by rw [I.order]; exact ho1
  rw [run_eq L m0' (Outfile.outfile_ok path' dir ext hp) h2 ho2 (by rw [I.nphi]; exact hsd.2.1)
    (n := 2 * M + 1) (by rw [I.nphi]; exact (points_iff q _).2 hn) (by rw [I.nfp]; exact hsd.2.2.1)]
  obtain ⟨f', hw, -⟩ := file_written L.toF L.ops m0' q' ord (2 * M + 1) (etaResult r)
    (calculate_done (validate_order ho2) hr') (validate_ok ho2).1 rfl l1 l2 l3 (by omega) hpos
  exact ⟨etaResult r, f', by simp only [hr', hw]⟩

/-! ## An example -/

/-- A linear solver that divides by the diagonal. -/
noncomputable def diagLib : Lib ℝ := { exLib with gesv := fun _ m y => some fun j => y j / m j j }

theorem diag_signFree : SignFree diagLib.gesv := by
  intro n m y
  simp only [diagLib, neg_div_neg_eq]

/-- The configuration of `exFile` with the poloidal angle counted from the opposite side. -/
noncomputable def exTurnedFile : Sections.File ℝ :=
  [("qsc", [("order_r_option", .str "r2.1"), ("nfp", .int 4), ("nphi", .int 20), ("R0c", .arr [.flt 1, .flt (1 / 20)]),
    ("Z0s", .arr [.flt 0, .flt (1 / 20)]), ("eta_bar", .flt (-(3 / 2)))])]

noncomputable def exTurnedInput : QscIn ℝ := { exInput "r2.1" 20 with eta_bar := -(3 / 2) }

theorem exTurnedWell : Spec.Sections.WellFormed exTurnedFile := by
  refine ⟨by simp [exTurnedFile], ?_⟩
  simp [exTurnedFile]

theorem exTurned_input : Input diagLib.single exTurnedFile exTurnedInput := by
  change Input exLib.single exTurnedFile exTurnedInput
  rw [← input_iff exLiterals _ exTurnedWell, defaults_eq exLiterals]
  rfl

theorem diag_run (m0 : Mem ℝ) : ∃ r f, run diagLib m0 "dir/qsc_in.torus".toList (exFile "r2.1" 20) =
    .ok ("dir/qsc_out.torus.nc".toList, r, f) := by
  rcases ends (L := diagLib) rfl exLiterals m0 ex_path (exWellFormed _ _) (ex_input "r2.1" 20) ex_sound with
    h | ⟨-, n, m, b, h⟩ | ⟨-, m, h⟩
  · exact h
  · cases h
  · cases h

/-- The file of the run with the opposite `eta_bar` has the same rotational transform and radius of the singularity and
the opposite shape of first order. -/
example (m0 m0' : Mem ℝ) : ∃ r f r' f',
    run diagLib m0 "dir/qsc_in.torus".toList (exFile "r2.1" 20) = .ok ("dir/qsc_out.torus.nc".toList, r, f) ∧
    run diagLib m0' "dir/qsc_in.torus".toList exTurnedFile = .ok ("dir/qsc_out.torus.nc".toList, r', f') ∧
    Spec.Reversal.Same f f' "iota" ∧ Spec.Reversal.Negated f f' "X1c" ∧
    Spec.Reversal.Same f f' "r_singularity_robust" := by
  have hu : OtherSide (exInput "r2.1" 20) exTurnedInput := rfl
  obtain ⟨r, f, h⟩ := diag_run m0
  obtain ⟨r', f', h'⟩ := ends_turned (L := diagLib) rfl exLiterals m0' (exWellFormed _ _) exTurnedWell h ex_path
    (ex_input "r2.1" 20) exTurned_input hu fun _ => diag_signFree
  obtain ⟨-, H⟩ := same_turned (L := diagLib) rfl exLiterals (exWellFormed _ _) exTurnedWell h h' (ex_input "r2.1" 20)
    exTurned_input hu fun _ => diag_signFree
  have h1 := H.first ("iota", 0, 0) (by simp [Spec.Scaling.units1])
  have h2 := H.first ("X1c", 0, 0) (by simp [Spec.Scaling.units1])
  have h3 := H.singular (by simp [exInput]) "r_singularity_robust" (by simp [Spec.Scaling.singular])
  simp only [Turned, odd, List.mem_cons, List.not_mem_nil, String.reduceEq, or_false, or_true, true_or, if_true, if_false]
    at h1 h2 h3
  exact ⟨r, f, r', f', h, h', h1, h2, h3⟩

end Qsc.HalfTurn
