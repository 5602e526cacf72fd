import Verif.Props.Single
import Verif.Props.Axis
import Verif.Props.Helicity

/-!
# A single run: the settings and the axis in the output file (C81)
-/

namespace Qsc.Single
open Qsc.Netcdf Qsc.Spec.Netcdf Qsc.Spec.Output Qsc.Output Qsc.Toml Qsc.Spec.Single

theorem calculate_axis {L : Lib ℝ} (ho : L.ops = realOps) {q : QscIn ℝ} {n : Nat} {ord : Setup.Order} {r : Result ℝ}
    (h : calculate L q n ord = .ok r) :
    Axis.initAxis realOps (coeffs q) n q.sG q.spsi q.B0 = .ok r.axis := by
  rw [← ho]
  unfold calculate at h
  split at h
  · cases h
  · rename_i a ha
    rw [ha]
    dsimp only at h
    split at h
    · cases h
    · split at h
      · cases h
      · split at h
        · split at h
          · cases h
          · injection h with h
            rw [← h]
        · injection h with h
          rw [← h]

theorem profile_congr {F : Type} {f : File F} {a : String} {n : Nat} {v w : Nat → F} (h : Profile f a n v)
    (e : ∀ j < n, v j = w j) : Profile f a n w := by
  obtain ⟨l, h1, h2, h3⟩ := h
  exact ⟨l, h1, h2, fun j hj => by rw [h3 j hj, e j hj]⟩

theorem scalar_congr {F : Type} {f : File F} {a : String} {v w : F} (h : Scalar f a v) (e : v = w) : Scalar f a w :=
  e ▸ h

/-- The parts of `ended` that concern the axis. -/
theorem ended_axis {L : Lib ℝ} (ho : L.ops = realOps) (hl : Literals L.lit) {m0 : Mem ℝ} {path : List Char}
    {file : Sections.File ℝ} (hf : Spec.Sections.WellFormed file) {name : List Char} {r : Result ℝ} {f : Netcdf.File ℝ}
    (h : run L m0 path file = .ok (name, r, f)) :
    ∃ (q : QscIn ℝ) (ord : Setup.Order) (M : Nat), Input L.single file q ∧ Sound q ∧ Points q (2 * M + 1) ∧
      (coeffs q).WellSized ∧ Setup.validate q.order_r_option = .ok ord ∧ Vars realOps q ord (2 * M + 1) r f ∧
      Axis.initAxis realOps (coeffs q) (2 * M + 1) q.sG q.spsi q.B0 = .ok r.axis ∧
      calculate L q (2 * M + 1) ord = .ok r := by
  obtain ⟨q, ord, n, -, h2, h3, h4, h5, h6, h7, -, h9, -⟩ := ended ho hl hf h
  obtain ⟨M, rfl⟩ : ∃ M, n = 2 * M + 1 := ⟨n / 2, by unfold Points at h5; omega⟩
  exact ⟨q, ord, M, h2, h4, h5, h6, h3, h9, calculate_axis ho h7, h7⟩

/-- The same for the configuration that the input file describes. -/
theorem ended_with {L : Lib ℝ} (ho : L.ops = realOps) (hl : Literals L.lit) {m0 : Mem ℝ} {path : List Char}
    {file : Sections.File ℝ} (hf : Spec.Sections.WellFormed file) {name : List Char} {r : Result ℝ} {f : Netcdf.File ℝ}
    (h : run L m0 path file = .ok (name, r, f)) {q : QscIn ℝ} (hq : Input L.single file q) {n : Nat} (hn : Points q n) :
    ∃ (ord : Setup.Order) (M : Nat), n = 2 * M + 1 ∧ Sound q ∧ (coeffs q).WellSized ∧
      Setup.validate q.order_r_option = .ok ord ∧ Vars realOps q ord n r f ∧
      Axis.initAxis realOps (coeffs q) n q.sG q.spsi q.B0 = .ok r.axis ∧ calculate L q n ord = .ok r := by
  obtain ⟨q', ord, M, h1, h2, h3, h4, h5, h6, h7, h8⟩ := ended_axis ho hl hf h
  have e := ((input_iff hl _ hf q).2 hq).symm.trans ((input_iff hl _ hf q').2 h1)
  injection e with e
  subst e
  have e : n = 2 * M + 1 := by
    have := (points_iff q n).2 hn
    have := (points_iff q (2 * M + 1)).2 h3
    omega
  subst e
  exact ⟨ord, M, rfl, h2, h4, h5, h6, h7, h8⟩

theorem inputs_in_file {q : QscIn ℝ} {ord : Setup.Order} {n : Nat} {r : Result ℝ} {f : Netcdf.File ℝ}
    (h3 : Setup.validate q.order_r_option = .ok ord) (hv : Vars realOps q ord n r f) : InputVars f q n := by
  have hi := hv.ints
  have hf := hv.flts
  have hc := hv.coefs
  have hg := hv.flags
  simp only [List.forall_mem_cons, List.not_mem_nil, false_imp_iff, implies_true, and_true] at hi hf hc hg
  obtain ⟨i1, i2, i3, i4, i5⟩ := hi
  obtain ⟨f1, f2, f3, f4, f5⟩ := hf
  obtain ⟨c1, c2, c3, c4⟩ := hc
  obtain ⟨g1, g2, g3⟩ := hg
  have hord := (validate_ok h3).2
  refine ⟨hv.nphi, i1, i2, i3, i4, i5, f1, f2, f3, f4, f5, ?_, c1, c2, c3, c4, ?_, ?_, ?_, hv.option, hv.general⟩
  · intro hne
    have h2 := hv.flts2 (by rcases hord with ⟨e, -⟩ | ⟨-, rfl⟩ | ⟨-, rfl⟩ <;> first | exact absurd e hne | rfl)
    simp only [List.forall_mem_cons, List.not_mem_nil, false_imp_iff, implies_true, and_true] at h2
    exact h2
  · rcases hord with ⟨e, rfl⟩ | ⟨e, rfl⟩ | ⟨e, rfl⟩ <;> rw [e] <;> simpa using g1
  · rcases hord with ⟨e, rfl⟩ | ⟨e, rfl⟩ | ⟨e, rfl⟩ <;> rw [e] <;> simpa using g2
  · rcases hord with ⟨e, rfl⟩ | ⟨e, rfl⟩ | ⟨e, rfl⟩ <;> rw [e] <;> simpa using g3

section
variable {q : QscIn ℝ} {M : Nat} {a : Axis.Axis ℝ}

theorem nfp_cast (hn : 0 < q.nfp) : ((coeffs q).nfp : ℝ) = q.nfp := by
  have : ((q.nfp.toNat : Int) : ℝ) = (q.nfp : ℝ) := by rw [Int.toNat_of_nonneg hn.le]
  rw [← this]
  rfl

theorem phi_eq (hc : (coeffs q).WellSized) (h : Axis.initAxis realOps (coeffs q) (2 * M + 1) q.sG q.spsi q.B0 = .ok a)
    (hn : 0 < q.nfp) : a.phi = grid q (2 * M + 1) := by
  funext j
  rw [Axis.grid hc h, nfp_cast hn]
  rfl

theorem dPhi_eq (hc : (coeffs q).WellSized) (h : Axis.initAxis realOps (coeffs q) (2 * M + 1) q.sG q.spsi q.B0 = .ok a)
    (hn : 0 < q.nfp) : a.dPhi = 2 * Real.pi / (q.nfp * (2 * M + 1 : Nat)) := by
  obtain ⟨D, k, -, rfl, -⟩ := Axis.of_ok hc h
  change 2 * Real.pi / (((coeffs q).nfp * (2 * M + 1) : Nat) : ℝ) = _
  rw [Nat.cast_mul, nfp_cast hn]

theorem length_is (hc : (coeffs q).WellSized) (h : Axis.initAxis realOps (coeffs q) (2 * M + 1) q.sG q.spsi q.B0 = .ok a)
    (hn : 0 < q.nfp) : a.axisLength = Spec.Single.length q (2 * M + 1) := by
  rw [Axis.length_eq hc h (by change 0 < q.nfp.toNat; omega), phi_eq hc h hn, mul_div_assoc]
  rfl

end

theorem axis_in_file {q : QscIn ℝ} {ord : Setup.Order} {M : Nat} {r : Result ℝ} {f : Netcdf.File ℝ} (hn : 0 < q.nfp)
    (hc : (coeffs q).WellSized) (hv : Vars realOps q ord (2 * M + 1) r f)
    (h : Axis.initAxis realOps (coeffs q) (2 * M + 1) q.sG q.spsi q.B0 = .ok r.axis) : AxisVars f q (2 * M + 1) := by
  have hphi := phi_eq hc h hn
  have hs1 := hv.s1
  have hp1 := hv.p1
  have hD := fun j => Axis.derivatives hc h j
  have hsp := fun j => Axis.speed_eq hc h j
  simp only [hphi] at hD hsp
  have P : ∀ {a v w}, (a, v) ∈ profiles1 realOps r → a ≠ "X1s" → (∀ j < 2 * M + 1, v j = w j) →
    Profile f a (2 * M + 1) w := fun hm hne e => profile_congr (hp1 _ hm hne) e
  refine
    { phi := P (v := r.axis.phi) (by simp [profiles1]) (by decide) fun j _ => by rw [hphi]
      d_phi := scalar_congr (hs1 ("d_phi", r.axis.dPhi) (by simp [scalars1])) (dPhi_eq hc h hn)
      R0 := P (v := fun j => (r.axis.pt j).R0) (by simp [profiles1]) (by decide) fun j _ => (hD j).1
      Z0 := P (v := fun j => (r.axis.pt j).Z0) (by simp [profiles1]) (by decide) fun j _ => (hD j).2.1
      R0p := P (v := fun j => (r.axis.pt j).R0p) (by simp [profiles1]) (by decide) fun j _ => (hD j).2.2.1.deriv.symm
      Z0p := P (v := fun j => (r.axis.pt j).Z0p) (by simp [profiles1]) (by decide) fun j _ => (hD j).2.2.2.1.deriv.symm
      R0pp := P (v := fun j => (r.axis.pt j).R0pp) (by simp [profiles1]) (by decide) fun j _ =>
        (hD j).2.2.2.2.1.deriv.symm
      Z0pp := P (v := fun j => (r.axis.pt j).Z0pp) (by simp [profiles1]) (by decide) fun j _ =>
        (hD j).2.2.2.2.2.1.deriv.symm
      R0ppp := P (v := fun j => (r.axis.pt j).R0ppp) (by simp [profiles1]) (by decide) fun j _ =>
        (hD j).2.2.2.2.2.2.1.deriv.symm
      Z0ppp := P (v := fun j => (r.axis.pt j).Z0ppp) (by simp [profiles1]) (by decide) fun j _ =>
        (hD j).2.2.2.2.2.2.2.deriv.symm
      d_l_d_phi := P (v := fun j => (r.axis.loc j).dl) (by simp [profiles1]) (by decide) fun j _ => hsp j
      axis_length := scalar_congr (hs1 ("axis_length", r.axis.axisLength) (by simp [scalars1])) (length_is hc h hn)
      grid_min_R0 := ⟨_, hs1 ("grid_min_R0", r.axis.minR0) (by simp [scalars1]), ?_⟩
      d_d_phi := ⟨_, hv.dphi, ?_⟩ }
  · obtain ⟨x1, ⟨j, hj, x2⟩, -⟩ := Axis.extrema hc h
    rw [hphi] at x1 x2
    exact ⟨⟨j, hj, x2⟩, by rintro y ⟨k, hk, rfl⟩; exact x1 k hk⟩
  · intro a b j hj
    dsimp only
    obtain ⟨D, k, hDD, e, -⟩ := Axis.of_ok hc h
    have hdd : r.axis.dDphi = D := by rw [e]; rfl
    have hx : (0 : ℝ) ≠ 2 * Real.pi / q.nfp := by
      have : (0 : ℝ) < q.nfp := by exact_mod_cast hn
      have := Real.pi_pos
      positivity
    obtain ⟨m, m1, D', m2, m3⟩ := DiffMat.exact_on_trigPoly M 0 (2 * Real.pi / q.nfp) hx a b
    obtain ⟨m', m1', -, -, -, m5⟩ := DiffMat.entries_odd M 0 (2 * Real.pi / q.nfp)
    have hE : ∀ k < 2 * M + 1, r.axis.dDphi j k = D' j k := by
      intro k hk
      have e1 : some m = some m' := m1.symm.trans m1'
      injection e1 with e1
      have e2 := (m2 j k hj hk).symm.trans (e1 ▸ m5 j k hj hk)
      injection e2 with e2
      rw [hdd, hDD j k hj hk, e2, nfp_cast hn]
    have hg : ∀ k, Spec.DiffMat.gridPoint (2 * M + 1) 0 (2 * Real.pi / q.nfp) k = grid q (2 * M + 1) k := by
      intro k
      unfold Spec.DiffMat.gridPoint grid
      have : (0 : ℝ) < q.nfp := by exact_mod_cast hn
      have : (((2 * M + 1 : Nat)) : ℝ) ≠ 0 := by positivity
      field_simp
      ring
    have := m3 j hj
    simp only [hg, sub_zero] at this
    rw [show (2 * M + 1) / 2 = M by omega, Finset.sum_congr rfl fun k hk => by rw [hE k (Finset.mem_range.1 hk)]]
    exact this

theorem speed_ne {q : QscIn ℝ} {φ : ℝ} (h : axisR q φ ≠ 0) : Spec.Axis.speed (axis q) φ ≠ 0 :=
  (Axis.speed_pos (c := coeffs q) h).ne'

/-- The Boozer angle as a sum. -/
theorem boozer_is {q : QscIn ℝ} {M : Nat} {a : Axis.Axis ℝ} (hn : 0 < q.nfp) (hc : (coeffs q).WellSized)
    (h : Axis.initAxis realOps (coeffs q) (2 * M + 1) q.sG q.spsi q.B0 = .ok a) (j : Nat) :
    a.boozer j = 2 * Real.pi / Spec.Single.length q (2 * M + 1) *
      ∑ k ∈ Finset.range j, (grid q (2 * M + 1) (k + 1) - grid q (2 * M + 1) k) *
        ((Spec.Axis.speed (axis q) (grid q (2 * M + 1) k) + Spec.Axis.speed (axis q) (grid q (2 * M + 1) (k + 1))) / 2) := by
  obtain ⟨b0, b1⟩ := Axis.boozer_steps hc h
  rw [phi_eq hc h hn, length_is hc h hn, dPhi_eq hc h hn] at b1
  induction j with
  | zero => simpa using b0
  | succ j ih =>
    rw [Finset.sum_range_succ, mul_add, ← ih, ← sub_eq_iff_eq_add', b1]
    have : grid q (2 * M + 1) (j + 1) - grid q (2 * M + 1) j = 2 * Real.pi / (q.nfp * (2 * M + 1 : Nat)) := by
      unfold grid
      push_cast
      ring
    rw [this, ← mul_div_assoc (2 * Real.pi / (q.nfp * (2 * M + 1 : Nat)))]
    rfl

theorem regular_in_file {q : QscIn ℝ} {ord : Setup.Order} {M : Nat} {r : Result ℝ} {f : Netcdf.File ℝ} (hn : 0 < q.nfp)
    (hc : (coeffs q).WellSized) (hv : Vars realOps q ord (2 * M + 1) r f)
    (h : Axis.initAxis realOps (coeffs q) (2 * M + 1) q.sG q.spsi q.B0 = .ok r.axis)
    (hR : ∀ j < 2 * M + 1, axisR q (grid q (2 * M + 1) j) ≠ 0) : RegularVars f q (2 * M + 1) := by
  have hphi := phi_eq hc h hn
  have hlen := length_is hc h hn
  have hs1 := hv.s1
  have hp1 := hv.p1
  have hn' : 0 < (coeffs q).nfp := by change 0 < q.nfp.toNat; omega
  have hR' : ∀ k < 2 * M + 1, Axis.Rf (coeffs q) (r.axis.phi k) ≠ 0 := by rw [hphi]; exact hR
  have hsp : ∀ j < 2 * M + 1, Spec.Axis.speed (axis q) (grid q (2 * M + 1) j) ≠ 0 := fun j hj => speed_ne (hR j hj)
  have hcur : ∀ j < 2 * M + 1, (r.axis.loc j).curvature = Spec.Axis.curvature (axis q) (grid q (2 * M + 1) j) := by
    intro j hj
    have := (Axis.curvature_regular hc h j (by rw [hphi]; exact hsp j hj)).2
    rwa [hphi] at this
  have P : ∀ {a v w}, (a, v) ∈ profiles1 realOps r → a ≠ "X1s" → (∀ j < 2 * M + 1, v j = w j) →
    Profile f a (2 * M + 1) w := fun hm hne e => profile_congr (hp1 _ hm hne) e
  obtain ⟨a1, a2, a3, a4, a5, a6, a7, a8, a9, a10, a11, a12⟩ := Axis.averages hc h hn' hR'
  have hmean : ∀ g, Axis.avg (coeffs q) (2 * M + 1) r.axis.phi g = mean q (2 * M + 1) g := by
    intro g
    rw [hphi]
    rfl
  have hmc : ∀ g g' : Nat → ℝ, (∀ j < 2 * M + 1, g j = g' j) → mean q (2 * M + 1) g = mean q (2 * M + 1) g' := by
    intro g g' e
    unfold mean
    rw [Finset.sum_congr rfl fun j hj => by rw [e j (Finset.mem_range.1 hj)]]
  simp only [hmean, hlen] at a1 a2 a3 a4 a5 a6 a8 a10 a12
  simp only [hphi] at a5 a6 a8 a10
  have hl0 : r.axis.G0overB0 ≠ 0 := fun e => by rw [e, mul_zero] at a4; exact zero_ne_one a4
  have root : ∀ {x y : ℝ}, 0 ≤ x → x ^ 2 = y → x = Real.sqrt y := fun h0 e => by rw [← e, Real.sqrt_sq h0]
  refine
    { d2_l_d_phi2 := P (v := fun j => (r.axis.loc j).d2l) (by simp [profiles1]) (by decide) fun j hj => ?_
      curvature := P (v := fun j => (r.axis.loc j).curvature) (by simp [profiles1]) (by decide) hcur
      grid_max_curvature := ⟨_, hs1 ("grid_max_curvature", r.axis.maxCurvature) (by simp [scalars1]), ?_⟩
      rms_curvature := scalar_congr (hs1 ("rms_curvature", r.axis.rmsCurvature) (by simp [scalars1]))
        (root a11 (a12.trans (hmc _ _ fun j hj => by rw [hcur j hj])))
      Boozer_toroidal_angle := P (v := r.axis.boozer) (by simp [profiles1]) (by decide) fun j _ => boozer_is hn hc h j
      d_l_d_varphi := scalar_congr (hs1 ("d_l_d_varphi", r.axis.dlDvarphi) (by simp [scalars1])) a2
      abs_G0_over_B0 := scalar_congr (hs1 ("abs_G0_over_B0", r.axis.G0overB0) (by simp [scalars1])) a3
      B0_over_abs_G0 := scalar_congr (hs1 ("B0_over_abs_G0", r.axis.B0overG0) (by simp [scalars1])) ?_
      G0 := scalar_congr (hs1 ("G0", r.axis.G0) (by simp [scalars1])) a1
      mean_R := scalar_congr (hs1 ("mean_R", r.axis.meanR) (by simp [scalars1])) a5
      mean_Z := scalar_congr (hs1 ("mean_Z", r.axis.meanZ) (by simp [scalars1])) a6
      standard_deviation_of_R := scalar_congr (hs1 ("standard_deviation_of_R", r.axis.sdR) (by simp [scalars1]))
        (root a7 (by rw [a8, a5]; rfl))
      standard_deviation_of_Z := scalar_congr (hs1 ("standard_deviation_of_Z", r.axis.sdZ) (by simp [scalars1]))
        (root a9 (by rw [a10, a6]; rfl))
      d_d_varphi := ⟨_, hv.dvarphi, ?_⟩ }
  · have := Axis.d2l_eq hc h j (by rw [hphi]; exact hsp j hj)
    rw [hphi] at this
    exact this.deriv.symm
  · obtain ⟨-, -, x1, ⟨j, hj, x2⟩⟩ := Axis.extrema hc h
    refine ⟨⟨j, hj, by rw [x2, hcur j hj]⟩, ?_⟩
    rintro y ⟨k, hk, rfl⟩
    rw [← hcur k hk]
    exact x1 k hk
  · rw [eq_div_of_mul_eq hl0 a4, a3, one_div_div]
  · intro w nu a b hw j hj hnu hwd
    rw [show (2 * M + 1) / 2 = M by omega, ← nfp_cast hn] at hw
    have := Axis.varphi_derivative hc h hn' hR' w nu a b hw hj (by rw [hphi, hlen]; exact hnu) (by rw [hphi]; exact hwd)
    rwa [hphi] at this

theorem curved_in_file {q : QscIn ℝ} {ord : Setup.Order} {M : Nat} {r : Result ℝ} {f : Netcdf.File ℝ} (hn : 0 < q.nfp)
    (hc : (coeffs q).WellSized) (hv : Vars realOps q ord (2 * M + 1) r f)
    (h : Axis.initAxis realOps (coeffs q) (2 * M + 1) q.sG q.spsi q.B0 = .ok r.axis)
    (hR : ∀ j < 2 * M + 1, axisR q (grid q (2 * M + 1) j) ≠ 0)
    (hk : ∀ j < 2 * M + 1, Spec.Axis.curvature (axis q) (grid q (2 * M + 1) j) ≠ 0) : CurvedVars f q (2 * M + 1) := by
  have hphi := phi_eq hc h hn
  have hfr : ∀ j < 2 * M + 1, _ := fun j hj => Axis.frenet hc h j
    (by rw [hphi]; exact speed_ne (hR j hj)) (by rw [hphi]; exact hk j hj)
  simp only [hphi] at hfr
  refine
    { torsion := profile_congr (hv.p1 ("torsion", fun j => (r.axis.loc j).torsion) (by simp [profiles1]) (by simp))
        fun j hj => (hfr j hj).2.2.2.2.2
      helicity := fun ρ α w h1 h2 h3 h4 => ?_ }
  have hx : ∀ j < 2 * M + 1, (r.axis.loc j).normal.x = ρ j * Real.cos (α j) ∧
      (r.axis.loc j).normal.z = ρ j * Real.sin (α j) := by
    intro j hj
    obtain ⟨e1, e2⟩ := h4 j hj
    have e3 : Spec.Axis.normal (axis q) (grid q (2 * M + 1) j) = _ := (hfr j hj).2.2.1.symm
    rw [e3] at e1 e2
    refine ⟨?_, e2⟩
    rw [← e1]
    simp only [Spec.Axis.dot, Spec.Axis.cart, eR]
    have := Real.cos_sq_add_sin_sq (grid q (2 * M + 1) j)
    linear_combination (-(r.axis.loc j).normal.x) * this
  have hw := Helicity.helicity_eq_winding (2 * M + 1) ρ α w q.spsi q.sG h1 h2 h3
  have hh := Axis.helicity_eq hc h
  have hq : Helicity.quadrant realOps.ge0 (2 * M + 1) (fun j => (r.axis.loc j).normal.x)
      (fun j => (r.axis.loc j).normal.z) = Helicity.quadrant realOps.ge0 (2 * M + 1) (fun j => ρ j * Real.cos (α j))
      fun j => ρ j * Real.sin (α j) := by
    funext j
    unfold Helicity.quadrant
    beta_reduce
    rw [if_neg (by omega : ¬ 2 * M + 1 = 0), if_neg (by omega : ¬ 2 * M + 1 = 0)]
    split
    · rename_i hj
      rw [(hx j hj).1, (hx j hj).2]
    · rw [(hx 0 (by omega)).1, (hx 0 (by omega)).2]
  unfold Helicity.calculateHelicity at hh hw
  rw [hq] at hh
  have e := hw.symm.trans hh
  injection e with e
  rw [e]
  exact hv.hel

/-- **C81.** Every run that ends leaves an output file that repeats the settings of the input file. -/
theorem output_settings {L : Lib ℝ} (ho : L.ops = realOps) (hl : Literals L.lit) {m0 : Mem ℝ} {path : List Char}
    {file : Sections.File ℝ} (hf : Spec.Sections.WellFormed file) {name : List Char} {r : Result ℝ} {f : Netcdf.File ℝ}
    (h : run L m0 path file = .ok (name, r, f)) {q : QscIn ℝ} (hq : Input L.single file q) {n : Nat} (hn : Points q n) :
    InputVars f q n := by
  obtain ⟨ord, M, rfl, -, -, h5, h6, -⟩ := ended_with ho hl hf h hq hn
  exact inputs_in_file h5 h6

/-- **C81.** The axis in the output file is the one described in the input file. -/
theorem output_axis {L : Lib ℝ} (ho : L.ops = realOps) (hl : Literals L.lit) {m0 : Mem ℝ} {path : List Char}
    {file : Sections.File ℝ} (hf : Spec.Sections.WellFormed file) {name : List Char} {r : Result ℝ} {f : Netcdf.File ℝ}
    (h : run L m0 path file = .ok (name, r, f)) {q : QscIn ℝ} (hq : Input L.single file q) {n : Nat} (hn : Points q n) :
    AxisVars f q n ∧
    ((∀ j < n, axisR q (grid q n j) ≠ 0) → RegularVars f q n ∧
      ((∀ j < n, Spec.Axis.curvature (axis q) (grid q n j) ≠ 0) → CurvedVars f q n)) := by
  obtain ⟨ord, M, rfl, h2, h4, -, h6, h7, -⟩ := ended_with ho hl hf h hq hn
  exact ⟨axis_in_file h2.2.2.1 h4 h6 h7, fun hR => ⟨regular_in_file h2.2.2.1 h4 h6 h7 hR, fun hk =>
    curved_in_file h2.2.2.1 h4 h6 h7 hR hk⟩⟩

/-- **C81.** The variables of the file have different names, so that what is found under a name is unique. -/
theorem output_unique {L : Lib ℝ} (ho : L.ops = realOps) (hl : Literals L.lit) {m0 : Mem ℝ} {path : List Char}
    {file : Sections.File ℝ} (hf : Spec.Sections.WellFormed file) {name : List Char} {r : Result ℝ} {f : Netcdf.File ℝ}
    (h : run L m0 path file = .ok (name, r, f)) {a : String} {d d' : List (String × Nat)} {x x' : Data ℝ}
    (h1 : Holds f a d x) (h2 : Holds f a d' x') : d = d' ∧ x = x' := by
  obtain ⟨q, ord, n, -, -, h3, h4, h5, h6, -, h7, -, h8⟩ := ended ho hl hf h
  have hn : 0 < n := by unfold Points at h5; omega
  obtain ⟨f', w, -, -, w6, -⟩ := file_written L.toF L.ops m0 q ord n r h7 (validate_ok h3).1 rfl h6.R0s h6.Z0c h6.Z0s hn
    h6.pos
  have e := w.symm.trans h8
  injection e with e
  subst e
  have hnd : ((contents f').map (·.name)).Nodup := by
    unfold contents
    rw [List.map_map]
    have : (fun e : Entry ℝ => e.name) ∘ view f'.dims = fun v => v.name := rfl
    rw [this, w6]
    exact qscNames _
  obtain ⟨e1, m1, n1, d1, x1⟩ := h1
  obtain ⟨e2, m2, n2, d2, x2⟩ := h2
  have := List.inj_on_of_nodup_map hnd m1 m2 (n1.trans n2.symm)
  subst this
  exact ⟨d1.symm.trans d2, Option.some.inj (x1.symm.trans x2)⟩

/-! ## Example -/

theorem ex_R (order : String) (nphi : Int) (φ : ℝ) :
    axisR (exInput order nphi) φ = 1 + 1 / 20 * Real.cos (4 * φ) := by
  simp [axisR, exInput, defaults, Spec.Axis.fourier, Finset.sum_range_succ]

theorem ex_R_ne (order : String) (nphi : Int) (φ : ℝ) : axisR (exInput order nphi) φ ≠ 0 := by
  rw [ex_R]
  have := Real.neg_one_le_cos (4 * φ)
  intro h
  linarith

theorem ex_curved (order : String) (nphi : Int) (φ : ℝ) :
    Spec.Axis.curvature (axis (exInput order nphi)) φ ≠ 0 := by
  have dR : ∀ φ, HasDerivAt (axisR (exInput order nphi)) (-(1 / 5) * Real.sin (4 * φ)) φ := by
    intro φ
    rw [funext (ex_R order nphi)]
    have hi : HasDerivAt (fun x : ℝ => 4 * x) 4 φ := by simpa using (hasDerivAt_id φ).const_mul 4
    refine ((hi.cos.const_mul (1 / 20)).const_add 1).congr_deriv ?_
    ring
  have ddR : ∀ φ, HasDerivAt (deriv (axisR (exInput order nphi))) (-(4 / 5) * Real.cos (4 * φ)) φ := by
    intro φ
    rw [funext fun φ => (dR φ).deriv]
    have hi : HasDerivAt (fun x : ℝ => 4 * x) 4 φ := by simpa using (hasDerivAt_id φ).const_mul 4
    refine (hi.sin.const_mul (-(1 / 5))).congr_deriv ?_
    ring
  obtain ⟨h1, h2, -⟩ := Axis.curve_components (coeffs (exInput order nphi))
  change Spec.Axis.d3 (axis _) = _ at h1
  change Spec.Axis.d3 (Spec.Axis.d3 (axis _)) = _ at h2
  unfold Spec.Axis.curvature
  refine div_ne_zero ?_ (pow_ne_zero _ (speed_ne (ex_R_ne _ _ φ)))
  rw [h2, h1]
  dsimp only
  change Spec.Axis.len (Spec.Axis.cross (Spec.Axis.cart φ ⟨deriv (axisR _) φ, axisR _ φ, _⟩) (Spec.Axis.cart φ ⟨deriv (deriv (axisR _)) φ - axisR _ φ,
    2 * deriv (axisR _) φ, _⟩)) ≠ 0
  rw [Axis.cross_cart, Axis.len_cart, (ddR φ).deriv, (dR φ).deriv, ex_R]
  apply ne_of_gt
  apply Real.sqrt_pos.2
  simp only [Spec.Axis.dot, Spec.Axis.cross]
  have c1 := Real.neg_one_le_cos (4 * φ)
  have c2 := Real.cos_le_one (4 * φ)
  have hz : 0 < (-(1 / 5) * Real.sin (4 * φ)) * (2 * (-(1 / 5) * Real.sin (4 * φ))) -
      (1 + 1 / 20 * Real.cos (4 * φ)) * (-(4 / 5) * Real.cos (4 * φ) - (1 + 1 / 20 * Real.cos (4 * φ))) := by
    nlinarith [mul_self_nonneg (Real.sin (4 * φ))]
  have := mul_pos hz hz
  nlinarith [mul_self_nonneg ((1 + 1 / 20 * Real.cos (4 * φ)) * deriv (deriv (Axis.Zf (coeffs (exInput order nphi)))) φ -
      deriv (Axis.Zf (coeffs (exInput order nphi))) φ * (2 * (-(1 / 5) * Real.sin (4 * φ)))),
    mul_self_nonneg (deriv (Axis.Zf (coeffs (exInput order nphi))) φ *
      (-(4 / 5) * Real.cos (4 * φ) - (1 + 1 / 20 * Real.cos (4 * φ))) -
      -(1 / 5) * Real.sin (4 * φ) * deriv (deriv (Axis.Zf (coeffs (exInput order nphi)))) φ)]

/-- All hypotheses are met by a run of the example. -/
example (m0 : Mem ℝ) : ∃ r f, run exLib m0 "dir/qsc_in.torus".toList (exFile "r2.1" 20) =
    .ok ("dir/qsc_out.torus.nc".toList, r, f) ∧ InputVars f (exInput "r2.1" 20) 21 ∧ AxisVars f (exInput "r2.1" 20) 21 ∧
    RegularVars f (exInput "r2.1" 20) 21 ∧ CurvedVars f (exInput "r2.1" 20) 21 := by
  obtain ⟨r, f, h⟩ := ex_run m0
  have hp : Points (exInput "r2.1" 20) 21 := Or.inr ⟨rfl, rfl⟩
  obtain ⟨h1, h2⟩ := output_axis rfl exLiterals (exWellFormed _ _) h (ex_input _ _) hp
  obtain ⟨h3, h4⟩ := h2 fun j _ => ex_R_ne _ _ _
  exact ⟨r, f, h, output_settings rfl exLiterals (exWellFormed _ _) h (ex_input _ _) hp, h1, h3,
    h4 fun j _ => ex_curved _ _ _⟩

end Qsc.Single
