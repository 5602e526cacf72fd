import Verif.Lemmas.ScalingRun

/-!
# A run in other units (C100)
-/

namespace Qsc.Scaling
open Qsc.Netcdf Qsc.Single Qsc.Toml Qsc.Spec.Single Qsc.Spec.Scaling

/-- The powers of the units. -/
theorem pow_units {a : ℝ} (ha : 0 < a) : a ^ (-2 : ℤ) = a⁻¹ * a⁻¹ := by
  rw [show (-2 : ℤ) = -((2 : ℕ) : ℤ) from rfl, zpow_neg, zpow_natCast, pow_two, mul_inv]

theorem pow_two_units (a : ℝ) : a ^ (2 : ℤ) = a * a := by
  rw [show (2 : ℤ) = ((2 : ℕ) : ℤ) from rfl, zpow_natCast, pow_two]

/-- A list of named numbers and the same list in the other units; some names are left out. -/
theorem mult_scalars {f f' : File ℝ} {x : List String} {l l' : List (String × ℝ)} {u : List (String × ℝ)}
    (h : l' = List.zipWith (fun p t => (p.1, t.2 * p.2)) l u) (hn : l.map (·.1) = u.map (·.1))
    (hf : ∀ p ∈ l, p.1 ∉ x → Scalar f p.1 p.2) (hf' : ∀ p ∈ l', p.1 ∉ x → Scalar f' p.1 p.2) :
    ∀ t ∈ u, t.1 ∉ x → Multiplied f f' t.2 t.1 := by
  induction u generalizing l l' with
  | nil => intro t ht; cases ht
  | cons t u ih =>
    cases l with
    | nil => cases hn
    | cons p l =>
      subst h
      injection hn with hp hn
      intro s hs hx
      rw [List.mem_cons] at hs
      rcases hs with rfl | hs
      · change p.1 = s.1 at hp
        rw [← hp] at hx ⊢
        exact mult_scalar (hf p (.head _) hx) (hf' (p.1, _) (.head _) hx)
      · exact ih rfl hn (fun p h => hf p (.tail _ h)) (fun p h => hf' p (.tail _ h)) s hs hx

/-- A list of named profiles and the same list in the other units; some names are left out. -/
theorem mult_profiles {f f' : File ℝ} {n : Nat} {x : List String} {l l' : List (String × (Nat → ℝ))}
    {u : List (String × ℝ)} (h : l' = List.zipWith (fun p t => (p.1, fun j => t.2 * p.2 j)) l u)
    (hn : l.map (·.1) = u.map (·.1)) (hf : ∀ p ∈ l, p.1 ∉ x → Profile f p.1 n p.2)
    (hf' : ∀ p ∈ l', p.1 ∉ x → Profile f' p.1 n p.2) : ∀ t ∈ u, t.1 ∉ x → Multiplied f f' t.2 t.1 := by
  induction u generalizing l l' with
  | nil => intro t ht; cases ht
  | cons t u ih =>
    cases l with
    | nil => cases hn
    | cons p l =>
      subst h
      injection hn with hp hn
      intro s hs hx
      rw [List.mem_cons] at hs
      rcases hs with rfl | hs
      · change p.1 = s.1 at hp
        rw [← hp] at hx ⊢
        exact mult_profile (hf p (.head _) hx) (hf' (p.1, _) (.head _) hx)
      · exact ih rfl hn (fun p h => hf p (.tail _ h)) (fun p h => hf' p (.tail _ h)) s hs hx

section
variable {a b : ℝ} (ha : 0 < a) (hb : 0 < b) {r r' : Result ℝ} (R : Rel a b r r')
include ha hb R

theorem scalars1_rel : scalars1 realOps r' = List.zipWith (fun p t => (p.1, t.2 * p.2)) (scalars1 realOps r)
    [("d_phi", 1), ("B0_over_abs_G0", a⁻¹), ("abs_G0_over_B0", a), ("d_l_d_varphi", a), ("G0", a * b),
     ("grid_min_R0", a), ("axis_length", a), ("grid_max_curvature", a⁻¹), ("rms_curvature", a⁻¹), ("mean_R", a),
     ("mean_Z", a), ("standard_deviation_of_R", a), ("standard_deviation_of_Z", a), ("iota", 1), ("iota_N", 1),
     ("grid_max_elongation", 1), ("mean_elongation", 1), ("grid_min_L_grad_B", a)] := by
  simp only [scalars1, List.zipWith_cons_cons, List.zipWith_nil_left, R.axis, R.cfg, R.st, R.r1, scaleAxis, one_mul,
    minLgradB_scale ha hb]

theorem profiles1_rel : profiles1 realOps r' = List.zipWith (fun p t => (p.1, fun j => t.2 * p.2 j)) (profiles1 realOps r)
    [("phi", 1), ("R0", a), ("Z0", a), ("R0p", a), ("Z0p", a), ("R0pp", a), ("Z0pp", a), ("R0ppp", a), ("Z0ppp", a),
     ("d_l_d_phi", a), ("d2_l_d_phi2", a), ("curvature", a⁻¹), ("torsion", a⁻¹), ("Boozer_toroidal_angle", 1),
     ("sigma", 1), ("X1s", 1), ("X1c", 1), ("Y1s", 1), ("Y1c", 1), ("elongation", 1), ("d_X1c_d_varphi", 1),
     ("d_Y1s_d_varphi", 1), ("d_Y1c_d_varphi", 1), ("L_grad_B", a), ("L_grad_B_inverse", a⁻¹)] := by
  simp only [profiles1, List.zipWith_cons_cons, List.zipWith_nil_left, R.axis, R.cfg, R.st, R.r1, scaleAxis, scalePt,
    scaleLocal, one_mul, ← LgradB_scale ha hb, ← LgradBInverse_scale ha hb]

end

section
variable {a b : ℝ} (ha : 0 < a) (hb : 0 < b) {d d' : Second ℝ} (R : SecondRel a b d d')
include ha hb R

theorem scalars2_rel : scalars2 realOps { d' with sing := d.sing } =
    List.zipWith (fun p t => (p.1, t.2 * p.2)) (scalars2 realOps d)
    [("G2", a⁻¹ * b), ("beta_1s", a⁻¹ * a⁻¹), ("B20_mean", a⁻¹ * a⁻¹ * b), ("B20_residual", a⁻¹ * a⁻¹),
     ("B20_grid_variation", a⁻¹ * a⁻¹ * b), ("d2_volume_d_psi2", a⁻¹ * (b⁻¹ * b⁻¹)),
     ("DGeod_times_r2", a⁻¹ * a⁻¹ * (b⁻¹ * b⁻¹)), ("DWell_times_r2", a⁻¹ * a⁻¹ * (b⁻¹ * b⁻¹)),
     ("DMerc_times_r2", a⁻¹ * a⁻¹ * (b⁻¹ * b⁻¹)), ("grid_min_L_grad_grad_B", a), ("r_singularity_robust", 1),
     ("beta", 1), ("grid_max_XY2", a⁻¹), ("grid_max_Z2", a⁻¹), ("grid_max_d_XY2_d_varphi", a⁻¹),
     ("grid_max_d_Z2_d_varphi", a⁻¹), ("grid_max_d2_XY2_d_varphi2", a⁻¹)] := by
  have c1 : b * a⁻¹ = a⁻¹ * b := mul_comm _ _
  have c2 : b * (a⁻¹ * a⁻¹) = a⁻¹ * a⁻¹ * b := mul_comm _ _
  simp only [scalars2, List.zipWith_cons_cons, List.zipWith_nil_left, R.inp, R.r2, R.merc, pre_scale ha hb,
    minLgradGradB_scale ha hb]
  simp only [scalePre, scaleR2, scaleMerc, one_mul, c1, c2]

theorem profiles2_rel : profiles2 realOps { d' with sing := d.sing } =
    List.zipWith (fun p t => (p.1, fun j => t.2 * p.2 j)) (profiles2 realOps d)
    [("X20", a⁻¹), ("X2s", a⁻¹), ("X2c", a⁻¹), ("Y20", a⁻¹), ("Y2s", a⁻¹), ("Y2c", a⁻¹), ("Z20", a⁻¹), ("Z2s", a⁻¹),
     ("Z2c", a⁻¹), ("B20", a⁻¹ * a⁻¹ * b), ("B20_anomaly", a⁻¹ * a⁻¹ * b),
     ("d_X20_d_varphi", a⁻¹), ("d_X2s_d_varphi", a⁻¹), ("d_X2c_d_varphi", a⁻¹), ("d_Y20_d_varphi", a⁻¹),
     ("d_Y2s_d_varphi", a⁻¹), ("d_Y2c_d_varphi", a⁻¹), ("d_Z20_d_varphi", a⁻¹), ("d_Z2s_d_varphi", a⁻¹),
     ("d_Z2c_d_varphi", a⁻¹), ("d2_X20_d_varphi2", a⁻¹), ("d2_X2s_d_varphi2", a⁻¹), ("d2_X2c_d_varphi2", a⁻¹),
     ("d2_Y20_d_varphi2", a⁻¹), ("d2_Y2s_d_varphi2", a⁻¹), ("d2_Y2c_d_varphi2", a⁻¹),
     ("d2_Z20_d_varphi2", a⁻¹), ("d2_Z2s_d_varphi2", a⁻¹), ("d2_Z2c_d_varphi2", a⁻¹),
     ("L_grad_grad_B", a), ("L_grad_grad_B_inverse", a⁻¹), ("r_hat_singularity_robust", 1)] := by
  have c2 : b * (a⁻¹ * a⁻¹) = a⁻¹ * a⁻¹ * b := mul_comm _ _
  simp only [profiles2, List.zipWith_cons_cons, List.zipWith_nil_left, R.inp, R.r2, pre_scale ha hb, at_scale ha hb,
    LgradGradB_scale ha hb, LgradGradBInverse_scale ha hb]
  simp only [scalePre, scaleR2, scaleIn, scaleCfg, one_mul, c2, matVec_scale]

theorem scalars3_rel (t : R2.R2p1 ℝ) : scalars3 (scaleR2p1 a t) = List.zipWith (fun p t => (p.1, t.2 * p.2)) (scalars3 t)
    [("grid_max_XY3", a⁻¹ * a⁻¹), ("grid_max_d_XY3_d_varphi", a⁻¹ * a⁻¹), ("grid_max_d2_XY3_d_varphi2", a⁻¹ * a⁻¹)] := rfl

theorem profiles3_rel (t : R2.R2p1 ℝ) : profiles3 d'.inp (scaleR2p1 a t) =
    List.zipWith (fun p t => (p.1, fun j => t.2 * p.2 j)) (profiles3 d.inp t)
    [("lambda_for_XY3", a⁻¹ * a⁻¹), ("X3c1", a⁻¹ * a⁻¹), ("Y3c1", a⁻¹ * a⁻¹), ("Y3s1", a⁻¹ * a⁻¹),
     ("d_X3c1_d_varphi", a⁻¹ * a⁻¹), ("d_Y3c1_d_varphi", a⁻¹ * a⁻¹), ("d_Y3s1_d_varphi", a⁻¹ * a⁻¹),
     ("d2_X3c1_d_varphi2", a⁻¹ * a⁻¹), ("d2_Y3c1_d_varphi2", a⁻¹ * a⁻¹), ("d2_Y3s1_d_varphi2", a⁻¹ * a⁻¹)] := by
  simp only [profiles3, List.zipWith_cons_cons, List.zipWith_nil_left, R.inp]
  simp only [scaleR2p1, scaleIn, scaleCfg, matVec_scale]

end

section
variable {a b : ℝ} (ha : 0 < a) (hb : 0 < b) {q q' : QscIn ℝ} (I : InputRel a b q q') {ord : Setup.Order} {n : Nat}
  {r r' : Result ℝ} (R : Rel a b r r') {f f' : File ℝ} (hv : Vars realOps q ord n r f) (hv' : Vars realOps q' ord n r' f')
include I R hv hv'

theorem labels_rel : ∀ v ∈ labels, Unchanged f f' v := by
  have i1 := hv.ints
  have i2 := hv'.ints
  have g1 := hv.flags
  have g2 := hv'.flags
  simp only [List.forall_mem_cons, List.not_mem_nil, false_imp_iff, implies_true, and_true, I.nfp, I.sG, I.spsi, I.N,
    I.M] at i1 i2 g1 g2
  obtain ⟨x1, x2, x3, x4, x5⟩ := i1
  obtain ⟨y1, y2, y3, y4, y5⟩ := i2
  obtain ⟨u1, u2, u3⟩ := g1
  obtain ⟨w1, w2, w3⟩ := g2
  have hh := hv'.hel
  rw [R.axis] at hh
  have ho := hv'.option
  rw [I.order] at ho
  simp only [labels, List.forall_mem_cons, List.not_mem_nil, false_imp_iff, implies_true, and_true]
  exact ⟨.inl ⟨_, hv.nphi, hv'.nphi⟩, .inl ⟨_, x1, y1⟩, .inl ⟨_, x2, y2⟩, .inl ⟨_, x3, y3⟩, .inl ⟨_, x4, y4⟩,
    .inl ⟨_, x5, y5⟩, .inl ⟨_, hv.hel, hh⟩, .inl ⟨_, u1, w1⟩, .inl ⟨_, u2, w2⟩, .inl ⟨_, u3, w3⟩,
    .inr ⟨_, hv.option, ho⟩, .inr ⟨_, hv.general, hv'.general⟩⟩

include ha hb

theorem units1_rel : ∀ u ∈ units1, Multiplied f f' (a ^ u.2.1 * b ^ u.2.2) u.1 := by
  have S := mult_scalars (f := f) (f' := f') (x := []) (scalars1_rel ha hb R) rfl (fun p h _ => hv.s1 p h)
    (fun p h _ => hv'.s1 p h)
  have P := mult_profiles (f := f) (f' := f') (n := n) (x := ["X1s"]) (profiles1_rel ha hb R) rfl
    (fun p h hx => hv.p1 p h (by simpa using hx)) (fun p h hx => hv'.p1 p h (by simpa using hx))
  have F := hv.flts
  have F' := hv'.flts
  have C := hv.coefs
  have C' := hv'.coefs
  simp only [List.forall_mem_cons, List.not_mem_nil, false_imp_iff, implies_true, and_true, not_false_iff, true_imp_iff,
    I.etaBar, I.sigma0, I.I2, I.B0, I.tol] at F F' C C' S
  simp only [List.forall_mem_cons, List.mem_singleton, List.not_mem_nil, false_imp_iff, implies_true, and_true,
    not_false_iff, not_true, true_imp_iff, true_and, String.reduceEq, forall_eq] at P
  have e1 := congrArg Axis.Coeffs.R0c I.coeffs
  have e2 := congrArg Axis.Coeffs.R0s I.coeffs
  have e3 := congrArg Axis.Coeffs.Z0c I.coeffs
  have e4 := congrArg Axis.Coeffs.Z0s I.coeffs
  change q'.R0c = q.R0c.map (a * ·) at e1
  change q'.R0s = q.R0s.map (a * ·) at e2
  change q'.Z0c = q.Z0c.map (a * ·) at e3
  change q'.Z0s = q.Z0s.map (a * ·) at e4
  rw [e1, e2, e3, e4] at C'
  have D1 : Multiplied f f' 1 "d_d_phi" := mult_square hv.dphi (by simpa [R.axis, scaleAxis] using hv'.dphi)
  have D2 : Multiplied f f' 1 "d_d_varphi" := mult_square hv.dvarphi (by simpa [R.axis, scaleAxis] using hv'.dvarphi)
  have G : Multiplied f f' (a⁻¹ * b) "grad_B_tensor" := mult_tensor hv.gradB (by
    have := hv'.gradB
    have e : R1.gradB (scaleCfg a b r.cfg) r.r1 = fun j i k => a⁻¹ * b * R1.gradB r.cfg r.r1 j i k := by
      funext j i k
      rw [gradB_scale ha, mul_comm b a⁻¹]
    rw [R.cfg, R.r1, e] at this
    exact this)
  have A1 : Multiplied f f' a⁻¹ "eta_bar" := mult_scalar F.1 F'.1
  have A2 : Multiplied f f' 1 "sigma0" := mult_scalar F.2.1 (by rw [one_mul]; exact F'.2.1)
  have A3 : Multiplied f f' (a⁻¹ * b) "I2" := mult_scalar F.2.2.1 (by rw [mul_comm a⁻¹ b]; exact F'.2.2.1)
  have A4 : Multiplied f f' b "B0" := mult_scalar F.2.2.2.1 F'.2.2.2.1
  have A5 : Multiplied f f' 1 "newton_tolerance" := mult_scalar F.2.2.2.2 (by rw [one_mul]; exact F'.2.2.2.2)
  have B1 : Multiplied f f' a "R0c" := mult_coefs C.1 C'.1
  have B2 : Multiplied f f' a "R0s" := mult_coefs C.2.1 C'.2.1
  have B3 : Multiplied f f' a "Z0c" := mult_coefs C.2.2.1 C'.2.2.1
  have B4 : Multiplied f f' a "Z0s" := mult_coefs C.2.2.2 C'.2.2.2
  simp only [units1, List.forall_mem_cons, zpow_neg_one, zpow_zero, zpow_one, mul_one, one_mul, S, P, D1, D2, G, A1, A2,
    A3, A4, A5, B1, B2, B3, B4, true_and, List.not_mem_nil, false_imp_iff, implies_true, and_true]

theorem units2_rel (h2 : ord.atLeastR2 = true) {d d' : Second ℝ} (hd : r.second = some d) (hd' : r'.second = some d')
    (R2 : SecondRel a b d d') : ∀ u ∈ units2, Multiplied f f' (a ^ u.2.1 * b ^ u.2.2) u.1 := by
  have S := mult_scalars (f := f) (f' := f') (x := singular) (scalars2_rel ha hb R2) rfl (fun p h _ => hv.s2 d hd p h)
    (fun p h hx => by
      have e : scalars2 realOps { d' with sing := d.sing } = (scalars2 realOps d').take 10 ++
        [("r_singularity_robust", d.sing.r), ("beta", d.sing.beta)] ++ (scalars2 realOps d').drop 12 := rfl
      rw [e, List.mem_append, List.mem_append] at h
      rcases h with (h | h) | h
      · exact hv'.s2 d' hd' p (List.mem_of_mem_take h)
      · simp only [List.mem_cons, List.not_mem_nil, or_false] at h
        rcases h with rfl | rfl <;> simp [singular] at hx
      · exact hv'.s2 d' hd' p (List.mem_of_mem_drop h))
  have P := mult_profiles (f := f) (f' := f') (n := n) (x := singular) (profiles2_rel ha hb R2) rfl
    (fun p h _ => hv.p2 d hd p h)
    (fun p h hx => by
      have e : profiles2 realOps { d' with sing := d.sing } = (profiles2 realOps d').take 31 ++
        [("r_hat_singularity_robust", d.sing.rhat)] := rfl
      rw [e, List.mem_append] at h
      rcases h with h | h
      · exact hv'.p2 d' hd' p (List.mem_of_mem_take h)
      · simp only [List.mem_singleton] at h
        subst h
        simp [singular] at hx)
  have F := hv.flts2 h2
  have F' := hv'.flts2 h2
  simp only [List.forall_mem_cons, List.not_mem_nil, false_imp_iff, implies_true, and_true, I.p2, I.B2c, I.B2s] at F F'
  simp only [singular, List.forall_mem_cons] at S P
  simp only [List.mem_cons, List.not_mem_nil, or_false, false_imp_iff, implies_true, and_true,
    not_false_iff, not_true, true_imp_iff, true_and, String.reduceEq, or_true, true_or] at S P
  have c2 : b * (a⁻¹ * a⁻¹) = a⁻¹ * a⁻¹ * b := mul_comm _ _
  have G : Multiplied f f' (a⁻¹ * a⁻¹ * b) "grad_grad_B_tensor" := mult_tensor3 (hv.gradgradB d hd) (by
    have := hv'.gradgradB d' hd'
    rw [R2.inp, R2.r2] at this
    simp only [at_scale ha hb] at this
    rw [← c2]
    simp only [← main_scale ha hb]
    exact this)
  have A1 : Multiplied f f' (a⁻¹ * a⁻¹ * b) "B2c" := mult_scalar F.1 (by rw [← c2]; exact F'.1)
  have A2 : Multiplied f f' (a⁻¹ * a⁻¹ * b) "B2s" := mult_scalar F.2.1 (by rw [← c2]; exact F'.2.1)
  have A3 : Multiplied f f' (a⁻¹ * a⁻¹ * (b * b)) "p2" := mult_scalar F.2.2 (by rw [mul_comm (a⁻¹ * a⁻¹)]; exact F'.2.2)
  simp only [units2, List.forall_mem_cons, zpow_neg_one, zpow_zero, zpow_one, mul_one, pow_units ha, pow_units hb,
    pow_two_units, S, P, G, A1, A2, A3, true_and, List.not_mem_nil, false_imp_iff, implies_true, and_true]

theorem units3_rel {d d' : Second ℝ} (hd : r.second = some d) (hd' : r'.second = some d') (R2 : SecondRel a b d d')
    (h3 : d.third.isSome = true) : ∀ u ∈ units3, Multiplied f f' (a ^ u.2.1 * b ^ u.2.2) u.1 := by
  obtain ⟨t, ht⟩ := Option.isSome_iff_exists.1 h3
  have ht' : d'.third = some (scaleR2p1 a t) := by rw [R2.third, ht]; rfl
  have S := mult_scalars (f := f) (f' := f') (x := []) (scalars3_rel ha hb R2 t) rfl (fun p h _ => hv.s3 d t hd ht p h)
    (fun p h _ => hv'.s3 d' _ hd' ht' p h)
  have P := mult_profiles (f := f) (f' := f') (n := n) (x := []) (profiles3_rel ha hb R2 t) rfl
    (fun p h _ => hv.p3 d t hd ht p h) (fun p h _ => hv'.p3 d' _ hd' ht' p h)
  simp only [List.forall_mem_cons, List.not_mem_nil, false_imp_iff, implies_true, and_true, not_false_iff, true_imp_iff]
    at S P
  simp only [units3, List.forall_mem_cons, zpow_zero, mul_one, pow_units ha, S, P, true_and, List.not_mem_nil,
    false_imp_iff, implies_true, and_true]

theorem singular_rel {d d' : Second ℝ} (hd : r.second = some d) (hd' : r'.second = some d') (R2 : SecondRel a b d d')
    (h1 : a = 1) : ∀ v ∈ singular, Multiplied f f' 1 v := by
  have e := R2.sing h1
  have S := hv.s2 d hd
  have S' := hv'.s2 d' hd'
  have P := hv.p2 d hd
  have P' := hv'.p2 d' hd'
  simp only [singular, List.forall_mem_cons, List.not_mem_nil, false_imp_iff, implies_true, and_true]
  refine ⟨mult_scalar (S ("r_singularity_robust", d.sing.r) (by simp [scalars2])) ?_,
    mult_scalar (S ("beta", d.sing.beta) (by simp [scalars2])) ?_,
    mult_profile (P ("r_hat_singularity_robust", d.sing.rhat) (by simp [profiles2])) ?_⟩
  · rw [one_mul, ← e]
    exact S' ("r_singularity_robust", d'.sing.r) (by simp [scalars2])
  · rw [one_mul, ← e]
    exact S' ("beta", d'.sing.beta) (by simp [scalars2])
  · simp only [one_mul]
    rw [← e]
    exact P' ("r_hat_singularity_robust", d'.sing.rhat) (by simp [profiles2])

end

/-- **C100.** Two runs whose input files describe the same configuration in different units write the same file in
these units.  To second order the linear solver has to be homogeneous, unless the unit of length is the same. -/
theorem same_in_units {L : Lib ℝ} (ho : L.ops = realOps) (hl : Literals L.lit) {m0 m0' : Mem ℝ}
    {path path' : List Char} {file file' : Sections.File ℝ} (hf : Spec.Sections.WellFormed file)
    (hf' : Spec.Sections.WellFormed file') {name name' : List Char} {r r' : Result ℝ} {f f' : File ℝ}
    (h : run L m0 path file = .ok (name, r, f)) (h' : run L m0' path' file' = .ok (name', r', f'))
    {q q' : QscIn ℝ} (hq : Input L.single file q) (hq' : Input L.single file' q') {a b : ℝ} (ha : 0 < a) (hb : 0 < b)
    (hu : InUnits a b q q') (hs : q.order_r_option = "r1" ∨ a = 1 ∨ Homogeneous L.gesv) :
    r'.newton = r.newton ∧ SameInUnits a b q.order_r_option f f' := by
  have I := inputRel hu
  obtain ⟨qq, -, n, -, i1, -, -, hn, -⟩ := ended ho hl hf h
  have e := ((input_iff hl _ hf q).2 hq).symm.trans ((input_iff hl _ hf qq).2 i1)
  injection e with e
  subst e
  have hn' : Points q' n := by
    unfold Points at hn ⊢
    rwa [I.nphi]
  obtain ⟨ord, M, rfl, -, hc, ho1, hv, -, hr⟩ := ended_with ho hl hf h hq hn
  obtain ⟨ord', -, -, -, -, ho2, hv', -, hr'⟩ := ended_with ho hl hf' h' hq' hn'
  rw [I.order, ho1] at ho2
  injection ho2 with ho2
  subst ho2
  have R := first_rel ha hb ho I hc hr hr'
  have key : q.order_r_option ≠ "r1" → ord.atLeastR2 = true ∧
      ∃ d d', r.second = some d ∧ r'.second = some d' ∧ SecondRel a b d d' ∧ (d.third.isSome = ord.r2p1) := by
    intro h1
    have h2 : ord.atLeastR2 = true := by
      rcases (validate_ok ho1).2 with ⟨e, -⟩ | ⟨-, rfl⟩ | ⟨-, rfl⟩
      · exact absurd e h1
      · rfl
      · rfl
    exact ⟨h2, second_rel ha hb ho I hc (hs.resolve_left h1) hr hr' h2⟩
  refine ⟨R.newton, labels_rel I R hv hv', units1_rel ha hb I R hv hv', ?_, ?_, ?_⟩
  · intro h1
    obtain ⟨h2, d, d', hd, hd', R2, -⟩ := key h1
    exact units2_rel ha hb I R hv hv' h2 hd hd' R2
  · intro h1
    obtain ⟨h2, d, d', hd, hd', R2, h3⟩ := key (by rw [h1]; decide)
    refine units3_rel ha hb I R hv hv' hd hd' R2 ?_
    rw [h3]
    rcases (validate_ok ho1).2 with ⟨e, -⟩ | ⟨e, -⟩ | ⟨-, rfl⟩
    · rw [h1] at e; exact absurd e (by decide)
    · rw [h1] at e; exact absurd e (by decide)
    · rfl
  · intro h1
    obtain ⟨h2, d, d', hd, hd', R2, -⟩ := key h1
    exact singular_rel ha hb I R hv hv' hd hd' R2

/-- **C100.** If the run ends for one choice of units, it ends for every other.  To second order the linear solver
has to be homogeneous and the eigenvalue solver must not fail, unless the unit of length is the same. -/
theorem ends_in_units {L : Lib ℝ} (ho : L.ops = realOps) (hl : Literals L.lit) {m0 : Mem ℝ} (m0' : Mem ℝ)
    {path : List Char} {file file' : Sections.File ℝ} (hf : Spec.Sections.WellFormed file)
    (hf' : Spec.Sections.WellFormed file') {name : List Char} {r : Result ℝ} {f : File ℝ}
    (h : run L m0 path file = .ok (name, r, f)) {path' dir ext : List Char} (hp : Outfile.IsInputPath path' dir ext)
    {q q' : QscIn ℝ} (hq : Input L.single file q) (hq' : Input L.single file' q') {a b : ℝ} (ha : 0 < a) (hb : 0 < b)
    (hu : InUnits a b q q')
    (hs : q.order_r_option = "r1" ∨ a = 1 ∨ Homogeneous L.gesv ∧ ∀ m, L.geev m ≠ none) :
    ∃ r' f', run L m0' path' file' = .ok (dir ++ "qsc_out.".toList ++ ext ++ ".nc".toList, r', f') := by
  have I := inputRel hu
  obtain ⟨qq, -, n, -, i1, -, hsd, hn, -⟩ := ended ho hl hf h
  have e := ((input_iff hl _ hf q).2 hq).symm.trans ((input_iff hl _ hf qq).2 i1)
  injection e with e
  subst e
  obtain ⟨ord, M, rfl, -, hc, ho1, hv, -, hr⟩ := ended_with ho hl hf h hq hn
  have h2 := (input_iff hl L.single hf' q').2 hq'
  obtain ⟨l1, l2, l3⟩ := sized hf' h2
  have hlen : q'.R0c.length = q.R0c.length := by
    have e1 := congrArg Axis.Coeffs.R0c I.coeffs
    change q'.R0c = q.R0c.map (a * ·) at e1
    rw [e1, List.length_map]
  have hpos : 0 < q'.R0c.length := by
    rw [hlen]
    exact List.length_pos_of_ne_nil hsd.2.2.2
  obtain ⟨r', hr'⟩ := calculate_rel ha hb ho I hc hr (fun h2 => by
    refine hs.resolve_left fun e => ?_
    rcases (validate_ok ho1).2 with ⟨-, rfl⟩ | ⟨e', -⟩ | ⟨e', -⟩
    · cases h2
    · rw [e] at e'; exact absurd e' (by decide)
    · rw [e] at e'; exact absurd e' (by decide))
  have ho2 : Setup.validate q'.order_r_option = .ok ord := by rw [I.order]; exact ho1
  rw [run_eq L m0' (Outfile.outfile_ok path' dir ext hp) h2 ho2 (by rw [I.nphi]; exact hsd.2.1)
    (n := 2 * M + 1) (by rw [I.nphi]; exact (points_iff q _).2 hn) (by rw [I.nfp]; exact hsd.2.2.1)]
  obtain ⟨f', hw, -⟩ := file_written L.toF L.ops m0' q' ord (2 * M + 1) r' (calculate_done (validate_order ho2) hr')
    (validate_ok ho2).1 rfl l1 l2 l3 (by omega) hpos
  exact ⟨r', f', by simp only [hr', hw]⟩

/-! ## An example -/

/-- The configuration of `exFile` with half the unit of length and a third of the unit of field strength. -/
noncomputable def exScaledFile : Sections.File ℝ :=
  [("qsc", [("order_r_option", .str "r2.1"), ("nfp", .int 4), ("nphi", .int 20), ("R0c", .arr [.flt 2, .flt (1 / 10)]),
    ("Z0s", .arr [.flt 0, .flt (1 / 10)]), ("eta_bar", .flt (3 / 4)), ("B0", .flt 3)])]

noncomputable def exScaledInput : QscIn ℝ :=
  { defaults false with
    order_r_option := "r2.1", nfp := 4, nphi := 20, R0c := [2, 1 / 10], R0s := [0, 0], Z0c := [0, 0],
    Z0s := [0, 1 / 10], eta_bar := 3 / 4, B0 := 3 }

theorem exScaledWell : Spec.Sections.WellFormed exScaledFile := by
  refine ⟨by simp [exScaledFile], ?_⟩
  simp [exScaledFile]

theorem exScaled_input : Input exLib.single exScaledFile exScaledInput := by
  rw [← input_iff exLiterals _ exScaledWell, defaults_eq exLiterals]
  rfl

theorem exInUnits : InUnits 2 3 (exInput "r2.1" 20) exScaledInput := by
  unfold InUnits
  simp [exInput, exScaledInput, defaults]
  norm_num

theorem exHomogeneous : Homogeneous exLib.gesv := by
  rintro c - n m y x h
  cases h
  rfl

/-- The file of the run with the other units has the same rotational transform, and its axis is twice as long. -/
example (m0 m0' : Mem ℝ) : ∃ r f r' f',
    run exLib m0 "dir/qsc_in.torus".toList (exFile "r2.1" 20) = .ok ("dir/qsc_out.torus.nc".toList, r, f) ∧
    run exLib m0' "dir/qsc_in.torus".toList exScaledFile = .ok ("dir/qsc_out.torus.nc".toList, r', f') ∧
    Multiplied f f' 1 "iota" ∧ Multiplied f f' 2 "axis_length" ∧ Multiplied f f' (1 / 4) "X3c1" := by
  obtain ⟨r, f, h⟩ := ex_run m0
  obtain ⟨r', f', h'⟩ := ends_in_units rfl exLiterals m0' (exWellFormed _ _) exScaledWell h ex_path (ex_input "r2.1" 20)
    exScaled_input (a := 2) (b := 3) (by norm_num) (by norm_num) exInUnits
    (.inr (.inr ⟨exHomogeneous, fun _ => by simp [exLib]⟩))
  obtain ⟨-, H⟩ := same_in_units rfl exLiterals (exWellFormed _ _) exScaledWell h h' (ex_input "r2.1" 20) exScaled_input
    (a := 2) (b := 3) (by norm_num) (by norm_num) exInUnits (.inr (.inr exHomogeneous))
  have h1 := H.first ("iota", 0, 0) (by simp [units1])
  have h2 := H.first ("axis_length", 1, 0) (by simp [units1])
  have h3 := H.third rfl ("X3c1", -2, 0) (by simp [units3])
  norm_num at h1 h2 h3
  exact ⟨r, f, r', f', h, h', h1, h2, by norm_num; exact h3⟩

end Qsc.Scaling
