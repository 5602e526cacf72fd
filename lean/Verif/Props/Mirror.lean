import Verif.Lemmas.MirrorRun
import Verif.Props.HalfTurn

/-!
# A run of the mirror image of a configuration (C103)
-/

namespace Qsc.Mirror
open Qsc.Netcdf Qsc.Single Qsc.HalfTurn Qsc.Toml Qsc.Spec.Single Qsc.Spec.Mirror

/-- The sign of a variable. -/
noncomputable def sgn (v : String) : ℝ := if v ∈ odd then -1 else 1

theorem sgn_pos {v : String} (h : v ∉ odd) : sgn v = 1 := if_neg h
theorem sgn_neg {v : String} (h : v ∈ odd) : sgn v = -1 := if_pos h

theorem var_of {f f' : File ℝ} {v : String} (h : Spec.Scaling.Multiplied f f' (sgn v) v) : Turned f f' v := by
  obtain ⟨dims, l, h1, h2⟩ := h
  unfold Turned
  unfold sgn at h2
  split
  · rename_i hv
    rw [if_pos hv] at h2
    refine ⟨dims, l, h1, ?_⟩
    simpa only [neg_mul, one_mul] using h2
  · rename_i hv
    rw [if_neg hv] at h2
    refine ⟨dims, l, h1, ?_⟩
    simpa only [one_mul, List.map_id'] using h2

/-- The second list of scalars is the mirror image of the first one, except for the names in `x`. -/
def ScalarsMir (x : List String) (l l' : List (String × ℝ)) : Prop :=
  List.Forall₂ (fun p p' => p'.1 = p.1 ∧ (p.1 ∉ x → p'.2 = sgn p.1 * p.2)) l l'

/-- The second list of profiles is the mirror image of the first one, except for the names in `x`. -/
def ProfilesMir (n : Nat) (x : List String) (l l' : List (String × (Nat → ℝ))) : Prop :=
  List.Forall₂ (fun p p' => p'.1 = p.1 ∧ (p.1 ∉ x → On n p'.2 fun j => sgn p.1 * p.2 j)) l l'

theorem forall₂_mem {α : Type} {R : α → α → Prop} {l l' : List α} (h : List.Forall₂ R l l') {p : α} (hp : p ∈ l) :
    ∃ p' ∈ l', R p p' := by
  induction h with
  | nil => cases hp
  | cons h1 h2 ih =>
    rcases List.mem_cons.1 hp with rfl | hp
    · exact ⟨_, List.mem_cons_self, h1⟩
    · obtain ⟨p', m, hR⟩ := ih hp
      exact ⟨p', List.mem_cons_of_mem _ m, hR⟩

theorem var_scalars {f f' : File ℝ} {x : List String} {l l' : List (String × ℝ)} (h : ScalarsMir x l l')
    (hf : ∀ p ∈ l, Scalar f p.1 p.2) (hf' : ∀ p ∈ l', Scalar f' p.1 p.2) :
    ∀ v ∈ l.map (·.1), v ∉ x → Turned f f' v := by
  intro v hv hx
  obtain ⟨p, hp, rfl⟩ := List.mem_map.1 hv
  refine var_of (Scaling.mult_scalar (hf p hp) ?_)
  obtain ⟨p', m, e1, e2⟩ := forall₂_mem h hp
  have := hf' p' m
  rwa [e1, e2 hx] at this

theorem var_profiles {f f' : File ℝ} {n : Nat} {x : List String} {l l' : List (String × (Nat → ℝ))}
    (h : ProfilesMir n x l l') (hf : ∀ p ∈ l, p.1 ∉ x → Profile f p.1 n p.2)
    (hf' : ∀ p ∈ l', p.1 ∉ x → Profile f' p.1 n p.2) : ∀ v ∈ l.map (·.1), v ∉ x → Turned f f' v := by
  intro v hv hx
  obtain ⟨p, hp, rfl⟩ := List.mem_map.1 hv
  refine var_of (Scaling.mult_profile (hf p hp hx) ?_)
  obtain ⟨p', m, e1, e2⟩ := forall₂_mem h hp
  have := hf' p' m (by rwa [e1])
  rw [e1] at this
  exact profile_congr this (e2 hx)

theorem var_all {f f' : File ℝ} {l : List (String × Int × Int)} {m x : List String} (h : l.map (·.1) = m)
    (hm : ∀ v ∈ m, v ∉ x → Turned f f' v) : ∀ u ∈ l, u.1 ∉ x → Turned f f' u.1 :=
  fun u hu => hm _ (h ▸ List.mem_map.2 ⟨u, hu, rfl⟩)

theorem one_on {n : Nat} {v : String} {f g : Nat → ℝ} (h : On n g f) (hv : v ∉ odd := by simp [odd]) :
    On n g fun j => sgn v * f j := fun j hj => by dsimp only; rw [sgn_pos hv, one_mul, h j hj]

theorem neg_on {n : Nat} {v : String} {f g : Nat → ℝ} (h : On n g fun j => -f j) (hv : v ∈ odd := by simp [odd]) :
    On n g fun j => sgn v * f j := fun j hj => by dsimp only; rw [sgn_neg hv, neg_one_mul, h j hj]

theorem one_eq {v : String} {x y : ℝ} (h : y = x) (hv : v ∉ odd := by simp [odd]) : y = sgn v * x := by
  rw [sgn_pos hv, one_mul, h]

theorem neg_eq {v : String} {x y : ℝ} (h : y = -x) (hv : v ∈ odd := by simp [odd]) : y = sgn v * x := by
  rw [sgn_neg hv, neg_one_mul, h]

theorem deriv_on {n : Nat} (D : Nat → Nat → ℝ) {f g : Nat → ℝ} (h : On n g fun j => -f j) :
    matVec n D g = fun j => -matVec n D f j := by
  rw [matVec_on D h, matVec_neg]

theorem scalars1_mir {r r' : Result ℝ} (R : Rel r r') : ScalarsMir [] (scalars1 realOps r) (scalars1 realOps r') := by
  have e : scalars1 realOps r' = scalars1 realOps ⟨mirAxis r.axis, r.newton, mirCfg r.cfg, mirSt r.st, mirR1 r.r1, none⟩ := by
    simp only [scalars1, R.axis, R.cfg, R.st, R.r1]
  rw [e]
  simp only [scalars1, minLgradB_mir]
  exact .cons ⟨rfl, fun _ => one_eq rfl⟩ <|
    .cons ⟨rfl, fun _ => one_eq rfl⟩ <|
    .cons ⟨rfl, fun _ => one_eq rfl⟩ <|
    .cons ⟨rfl, fun _ => one_eq rfl⟩ <|
    .cons ⟨rfl, fun _ => one_eq rfl⟩ <|
    .cons ⟨rfl, fun _ => one_eq rfl⟩ <|
    .cons ⟨rfl, fun _ => one_eq rfl⟩ <|
    .cons ⟨rfl, fun _ => one_eq rfl⟩ <|
    .cons ⟨rfl, fun _ => one_eq rfl⟩ <|
    .cons ⟨rfl, fun _ => one_eq rfl⟩ <|
    .cons ⟨rfl, fun _ => neg_eq rfl⟩ <|
    .cons ⟨rfl, fun _ => one_eq rfl⟩ <|
    .cons ⟨rfl, fun _ => one_eq rfl⟩ <|
    .cons ⟨rfl, fun _ => neg_eq rfl⟩ <|
    .cons ⟨rfl, fun _ => neg_eq rfl⟩ <|
    .cons ⟨rfl, fun _ => one_eq rfl⟩ <|
    .cons ⟨rfl, fun _ => one_eq rfl⟩ <|
    .cons ⟨rfl, fun _ => one_eq rfl⟩ .nil

theorem profiles1_mir {r r' : Result ℝ} (R : Rel r r') (n : Nat) :
    ProfilesMir n ["X1s"] (profiles1 realOps r) (profiles1 realOps r') := by
  have e : profiles1 realOps r' = profiles1 realOps ⟨mirAxis r.axis, r.newton, mirCfg r.cfg, mirSt r.st, mirR1 r.r1, none⟩ := by
    simp only [profiles1, R.axis, R.cfg, R.st, R.r1]
  rw [e]
  simp only [profiles1, LgradB_mir, LgradBInverse_mir]
  exact .cons ⟨rfl, fun _ => one_on .rfl⟩ <|
    .cons ⟨rfl, fun _ => one_on .rfl⟩ <|
    .cons ⟨rfl, fun _ => neg_on .rfl⟩ <|
    .cons ⟨rfl, fun _ => one_on .rfl⟩ <|
    .cons ⟨rfl, fun _ => neg_on .rfl⟩ <|
    .cons ⟨rfl, fun _ => one_on .rfl⟩ <|
    .cons ⟨rfl, fun _ => neg_on .rfl⟩ <|
    .cons ⟨rfl, fun _ => one_on .rfl⟩ <|
    .cons ⟨rfl, fun _ => neg_on .rfl⟩ <|
    .cons ⟨rfl, fun _ => one_on .rfl⟩ <|
    .cons ⟨rfl, fun _ => one_on .rfl⟩ <|
    .cons ⟨rfl, fun _ => one_on .rfl⟩ <|
    .cons ⟨rfl, fun _ => neg_on .rfl⟩ <|
    .cons ⟨rfl, fun _ => one_on .rfl⟩ <|
    .cons ⟨rfl, fun _ => neg_on .rfl⟩ <|
    .cons ⟨rfl, fun h => absurd (by simp) h⟩ <|
    .cons ⟨rfl, fun _ => one_on .rfl⟩ <|
    .cons ⟨rfl, fun _ => one_on .rfl⟩ <|
    .cons ⟨rfl, fun _ => neg_on .rfl⟩ <|
    .cons ⟨rfl, fun _ => one_on .rfl⟩ <|
    .cons ⟨rfl, fun _ => one_on .rfl⟩ <|
    .cons ⟨rfl, fun _ => one_on .rfl⟩ <|
    .cons ⟨rfl, fun _ => neg_on .rfl⟩ <|
    .cons ⟨rfl, fun _ => one_on .rfl⟩ <|
    .cons ⟨rfl, fun _ => one_on .rfl⟩ .nil

/-- The results of the search for singularities. -/
abbrev sing : List String := ["r_singularity_robust", "beta", "r_hat_singularity_robust"]

theorem scalars2_mir {n : Nat} (hn : 0 < n) {d d' : Second ℝ} (S : SecondRel n d d') :
    ScalarsMir sing (scalars2 realOps d) (scalars2 realOps d') := by
  have hm := minLgradGradB_mir d.inp (by rw [S.nphi]; exact hn) (S.nphi.symm ▸ S.r2)
  simp only [scalars2, S.inp, S.merc, pre_mir]
  exact .cons ⟨rfl, fun _ => one_eq rfl⟩ <|
    .cons ⟨rfl, fun _ => neg_eq rfl⟩ <|
    .cons ⟨rfl, fun _ => one_eq S.r2.mean⟩ <|
    .cons ⟨rfl, fun _ => one_eq S.r2.residual⟩ <|
    .cons ⟨rfl, fun _ => one_eq S.r2.variation⟩ <|
    .cons ⟨rfl, fun _ => one_eq rfl⟩ <|
    .cons ⟨rfl, fun _ => one_eq rfl⟩ <|
    .cons ⟨rfl, fun _ => one_eq rfl⟩ <|
    .cons ⟨rfl, fun _ => one_eq rfl⟩ <|
    .cons ⟨rfl, fun _ => one_eq hm⟩ <|
    .cons ⟨rfl, fun h => absurd (by simp) h⟩ <|
    .cons ⟨rfl, fun h => absurd (by simp) h⟩ <|
    .cons ⟨rfl, fun _ => one_eq S.r2.maxXY2⟩ <|
    .cons ⟨rfl, fun _ => one_eq S.r2.maxZ2⟩ <|
    .cons ⟨rfl, fun _ => one_eq S.r2.maxDXY2⟩ <|
    .cons ⟨rfl, fun _ => one_eq S.r2.maxDZ2⟩ <|
    .cons ⟨rfl, fun _ => one_eq S.r2.maxD2XY2⟩ .nil

theorem profiles2_mir {n : Nat} {d d' : Second ℝ} (S : SecondRel n d d') :
    ProfilesMir n sing (profiles2 realOps d) (profiles2 realOps d') := by
  have hr : R2Rel d.inp.cfg.nphi d.r2 d'.r2 := S.nphi.symm ▸ S.r2
  have h0 : On n (fun j => GradGradB.LgradGradB realOps (.of (mirIn d.inp) d'.r2 j))
      fun j => GradGradB.LgradGradB realOps (.of d.inp d.r2 j) := by
    intro j hj
    dsimp only
    rw [at_mir d.inp hr (S.nphi.symm ▸ hj), LgradGradB_mir]
  have h1 : On n (fun j => GradGradB.LgradGradBInverse realOps (.of (mirIn d.inp) d'.r2 j))
      fun j => GradGradB.LgradGradBInverse realOps (.of d.inp d.r2 j) := by
    intro j hj
    dsimp only
    rw [at_mir d.inp hr (S.nphi.symm ▸ hj), LgradGradBInverse_mir]
  have hn : (mirIn d.inp).cfg.nphi = n := S.nphi
  have hD : (mirIn d.inp).cfg.dDvarphi = d.inp.cfg.dDvarphi := rfl
  simp only [profiles2, S.inp, pre_mir, hn, hD, S.nphi]
  exact .cons ⟨rfl, fun _ => one_on S.r2.X20⟩ <|
    .cons ⟨rfl, fun _ => neg_on .rfl⟩ <|
    .cons ⟨rfl, fun _ => one_on .rfl⟩ <|
    .cons ⟨rfl, fun _ => neg_on S.r2.Y20⟩ <|
    .cons ⟨rfl, fun _ => one_on S.r2.Y2s⟩ <|
    .cons ⟨rfl, fun _ => neg_on S.r2.Y2c⟩ <|
    .cons ⟨rfl, fun _ => one_on .rfl⟩ <|
    .cons ⟨rfl, fun _ => neg_on .rfl⟩ <|
    .cons ⟨rfl, fun _ => one_on .rfl⟩ <|
    .cons ⟨rfl, fun _ => one_on S.r2.B20⟩ <|
    .cons ⟨rfl, fun _ => one_on S.r2.anomaly⟩ <|
    .cons ⟨rfl, fun _ => one_on (on_of_eq (matVec_on _ S.r2.X20))⟩ <|
    .cons ⟨rfl, fun _ => neg_on .rfl⟩ <|
    .cons ⟨rfl, fun _ => one_on .rfl⟩ <|
    .cons ⟨rfl, fun _ => neg_on (on_of_eq (deriv_on _ S.r2.Y20))⟩ <|
    .cons ⟨rfl, fun _ => one_on (on_of_eq (matVec_on _ S.r2.Y2s))⟩ <|
    .cons ⟨rfl, fun _ => neg_on (on_of_eq (deriv_on _ S.r2.Y2c))⟩ <|
    .cons ⟨rfl, fun _ => one_on .rfl⟩ <|
    .cons ⟨rfl, fun _ => neg_on .rfl⟩ <|
    .cons ⟨rfl, fun _ => one_on .rfl⟩ <|
    .cons ⟨rfl, fun _ => one_on (on_of_eq (matVec_on _ (on_of_eq (matVec_on _ S.r2.X20))))⟩ <|
    .cons ⟨rfl, fun _ => neg_on (on_of_eq (deriv_on _ .rfl))⟩ <|
    .cons ⟨rfl, fun _ => one_on .rfl⟩ <|
    .cons ⟨rfl, fun _ => neg_on (on_of_eq (deriv_on _ (on_of_eq (deriv_on _ S.r2.Y20))))⟩ <|
    .cons ⟨rfl, fun _ => one_on (on_of_eq (matVec_on _ (on_of_eq (matVec_on _ S.r2.Y2s))))⟩ <|
    .cons ⟨rfl, fun _ => neg_on (on_of_eq (deriv_on _ (on_of_eq (deriv_on _ S.r2.Y2c))))⟩ <|
    .cons ⟨rfl, fun _ => one_on .rfl⟩ <|
    .cons ⟨rfl, fun _ => neg_on (on_of_eq (deriv_on _ .rfl))⟩ <|
    .cons ⟨rfl, fun _ => one_on .rfl⟩ <|
    .cons ⟨rfl, fun _ => one_on h0⟩ <|
    .cons ⟨rfl, fun _ => one_on h1⟩ <|
    .cons ⟨rfl, fun h => absurd (by simp) h⟩ .nil

theorem scalars3_mir {n : Nat} {t t' : R2.R2p1 ℝ} (T : R3Rel n t t') : ScalarsMir [] (scalars3 t) (scalars3 t') :=
  .cons ⟨rfl, fun _ => one_eq T.maxXY3⟩ <| .cons ⟨rfl, fun _ => one_eq T.maxDXY3⟩ <|
    .cons ⟨rfl, fun _ => one_eq T.maxD2XY3⟩ .nil

theorem profiles3_mir {n : Nat} {i : R2.In ℝ} (hi : i.cfg.nphi = n) {t t' : R2.R2p1 ℝ} (T : R3Rel n t t') :
    ProfilesMir n [] (profiles3 i t) (profiles3 (mirIn i) t') := by
  have hn : (mirIn i).cfg.nphi = n := hi
  have hD : (mirIn i).cfg.dDvarphi = i.cfg.dDvarphi := rfl
  simp only [profiles3, hn, hD, hi]
  exact .cons ⟨rfl, fun _ => one_on T.lambda⟩ <|
    .cons ⟨rfl, fun _ => one_on T.X3c1⟩ <|
    .cons ⟨rfl, fun _ => neg_on T.Y3c1⟩ <|
    .cons ⟨rfl, fun _ => one_on T.Y3s1⟩ <|
    .cons ⟨rfl, fun _ => one_on (on_of_eq (matVec_on _ T.X3c1))⟩ <|
    .cons ⟨rfl, fun _ => neg_on (on_of_eq (deriv_on _ T.Y3c1))⟩ <|
    .cons ⟨rfl, fun _ => one_on (on_of_eq (matVec_on _ T.Y3s1))⟩ <|
    .cons ⟨rfl, fun _ => one_on (on_of_eq (matVec_on _ (on_of_eq (matVec_on _ T.X3c1))))⟩ <|
    .cons ⟨rfl, fun _ => neg_on (on_of_eq (deriv_on _ (on_of_eq (deriv_on _ T.Y3c1))))⟩ <|
    .cons ⟨rfl, fun _ => one_on (on_of_eq (matVec_on _ (on_of_eq (matVec_on _ T.Y3s1))))⟩ .nil

section
variable {q q' : QscIn ℝ} {ord : Setup.Order} {n : Nat}
  {r r' : Result ℝ} {f f' : File ℝ} (hv : Vars realOps q ord n r f) (hv' : Vars realOps q' ord n r' f')
include hv hv'

theorem first_var (I : InputRel q q') (R : Rel r r') :
    ∀ u ∈ Spec.Scaling.units1, u.1 ≠ "grad_B_tensor" → Turned f f' u.1 := by
  have S := var_scalars (scalars1_mir R) hv.s1 hv'.s1
  have P := var_profiles (n := n) (profiles1_mir R n) (fun p hp hx => hv.p1 p hp (by simpa using hx))
    fun p hp hx => hv'.p1 p hp (by simpa using hx)
  have C := hv.coefs
  have C' := hv'.coefs
  have e1 := congrArg Axis.Coeffs.R0c I.coeffs
  have e2 := congrArg Axis.Coeffs.R0s I.coeffs
  have e3 := congrArg Axis.Coeffs.Z0c I.coeffs
  have e4 := congrArg Axis.Coeffs.Z0s I.coeffs
  change q'.R0c = q.R0c at e1
  change q'.R0s = q.R0s at e2
  change q'.Z0c = q.Z0c.map (- ·) at e3
  change q'.Z0s = q.Z0s.map (- ·) at e4
  rw [e1, e2, e3, e4] at C'
  have A0 : ScalarsMir [] [("eta_bar", q.eta_bar), ("sigma0", q.sigma0), ("I2", q.I2), ("B0", q.B0),
      ("newton_tolerance", q.newton_tolerance)] [("eta_bar", q'.eta_bar), ("sigma0", q'.sigma0), ("I2", q'.I2),
      ("B0", q'.B0), ("newton_tolerance", q'.newton_tolerance)] :=
    .cons ⟨rfl, fun _ => one_eq I.etaBar⟩ <| .cons ⟨rfl, fun _ => neg_eq I.sigma0⟩ <| .cons ⟨rfl, fun _ => neg_eq I.I2⟩ <|
      .cons ⟨rfl, fun _ => one_eq I.B0⟩ <| .cons ⟨rfl, fun _ => one_eq I.tol⟩ .nil
  have A := var_scalars A0 hv.flts hv'.flts
  have B : ∀ v ∈ ["R0c", "R0s", "Z0c", "Z0s"], Turned f f' v := by
    simp only [List.forall_mem_cons, List.not_mem_nil, false_imp_iff, implies_true, and_true] at C C' ⊢
    have s1 : ∀ l : List ℝ, l.map (1 * ·) = l := fun l => by simp
    have s2 : ∀ l : List ℝ, l.map (-1 * ·) = l.map (- ·) := fun l => by simp
    refine ⟨var_of ?_, var_of ?_, var_of ?_, var_of ?_⟩
    · rw [show sgn "R0c" = 1 from sgn_pos (by simp [odd])]
      exact Scaling.mult_coefs C.1 (by rw [s1]; exact C'.1)
    · rw [show sgn "R0s" = 1 from sgn_pos (by simp [odd])]
      exact Scaling.mult_coefs C.2.1 (by rw [s1]; exact C'.2.1)
    · rw [show sgn "Z0c" = -1 from sgn_neg (by simp [odd])]
      exact Scaling.mult_coefs C.2.2.1 (by rw [s2]; exact C'.2.2.1)
    · rw [show sgn "Z0s" = -1 from sgn_neg (by simp [odd])]
      exact Scaling.mult_coefs C.2.2.2 (by rw [s2]; exact C'.2.2.2)
  have d1 := hv'.dphi
  have d2 := hv'.dvarphi
  rw [R.axis] at d1 d2
  have D1 : Turned f f' "d_d_phi" := var_of (by
    rw [show sgn "d_d_phi" = 1 from sgn_pos (by simp [odd])]
    exact Scaling.mult_square hv.dphi (by simp only [one_mul]; exact d1))
  have D2 : Turned f f' "d_d_varphi" := var_of (by
    rw [show sgn "d_d_varphi" = 1 from sgn_pos (by simp [odd])]
    exact Scaling.mult_square hv.dvarphi (by simp only [one_mul]; exact d2))
  intro u hu hx
  refine var_all (x := ["grad_B_tensor"]) (m := ["eta_bar", "sigma0", "I2", "B0", "newton_tolerance"] ++
    ["R0c", "R0s", "Z0c", "Z0s"] ++
    (scalars1 realOps r).map (·.1) ++ ((profiles1 realOps r).map (·.1)).filter (fun v => v ≠ "X1s") ++
    ["d_d_phi", "d_d_varphi", "grad_B_tensor"]) rfl ?_ u hu (by simpa using hx)
  intro v hv hx
  simp only [List.mem_append] at hv
  rcases hv with (((hv | hv) | hv) | hv) | hv
  · exact A v hv (by simp)
  · exact B v hv
  · exact S v hv (by simp)
  · rw [List.mem_filter] at hv
    exact P v hv.1 (by simpa using hv.2)
  · simp only [List.mem_cons, List.not_mem_nil, or_false] at hv
    rcases hv with rfl | rfl | rfl
    · exact D1
    · exact D2
    · exact absurd (by simp) hx

theorem gradient_var (R : Rel r r') : ∃ t, Tensor f "grad_B_tensor" n t ∧
    Tensor f' "grad_B_tensor" n fun j a b => bsgn a * bsgn b * t j a b := by
  refine ⟨_, hv.gradB, ?_⟩
  have h := hv'.gradB
  rw [R.cfg, R.r1] at h
  simp only [gradB_mir] at h
  exact h

theorem second_var (I : InputRel q q') (h2 : ord.atLeastR2 = true) (hn : 0 < n) {d d' : Second ℝ} (hd : r.second = some d)
    (hd' : r'.second = some d') (D : SecondRel n d d') :
    ∀ u ∈ Spec.Scaling.units2, u.1 ≠ "grad_grad_B_tensor" → Turned f f' u.1 := by
  have S := var_scalars (scalars2_mir hn D) (hv.s2 d hd) (hv'.s2 _ hd')
  have P := var_profiles (n := n) (profiles2_mir D) (fun p hp _ => hv.p2 d hd p hp) (fun p hp _ => hv'.p2 _ hd' p hp)
  have A0 : ScalarsMir [] [("B2c", q.B2c), ("B2s", q.B2s), ("p2", q.p2)] [("B2c", q'.B2c), ("B2s", q'.B2s),
      ("p2", q'.p2)] :=
    .cons ⟨rfl, fun _ => one_eq I.B2c⟩ <| .cons ⟨rfl, fun _ => neg_eq I.B2s⟩ <| .cons ⟨rfl, fun _ => one_eq I.p2⟩ .nil
  have A := var_scalars A0 (hv.flts2 h2) (hv'.flts2 h2)
  have all : ∀ v ∈ ["B2c", "B2s", "p2"] ++ (scalars2 realOps d).map (·.1) ++ (profiles2 realOps d).map (·.1),
      v ∉ sing → Turned f f' v := by
    intro v hv hs
    simp only [List.mem_append] at hv
    rcases hv with (hv | hv) | hv
    · exact A v hv (by simp)
    · exact S v hv hs
    · exact P v hv hs
  have sub : ∀ v ∈ Spec.Scaling.units2.map (·.1), v ≠ "grad_grad_B_tensor" → v ∈ ["B2c", "B2s", "p2"] ++
      (scalars2 realOps d).map (·.1) ++ (profiles2 realOps d).map (·.1) ∧ v ∉ sing := by
    simp [Spec.Scaling.units2, scalars2, profiles2]
  intro u hu hx
  obtain ⟨s1, s2⟩ := sub _ (List.mem_map.2 ⟨u, hu, rfl⟩) hx
  exact all _ s1 s2

theorem gradient2_var {d d' : Second ℝ} (hd : r.second = some d) (hd' : r'.second = some d') (D : SecondRel n d d') :
    ∃ t, Tensor3 f "grad_grad_B_tensor" n t ∧
      Tensor3 f' "grad_grad_B_tensor" n fun j a b c => bsgn a * bsgn b * bsgn c * t j a b c := by
  refine ⟨_, hv.gradgradB d hd, ?_⟩
  obtain ⟨l, h1, h2, h3⟩ := hv'.gradgradB d' hd'
  refine ⟨l, h1, h2, fun j a b c hj ha hb hc => ?_⟩
  rw [h3 j a b c hj ha hb hc]
  have hr : R2Rel d.inp.cfg.nphi d.r2 d'.r2 := D.nphi.symm ▸ D.r2
  rw [D.inp]
  dsimp only
  rw [at_mir d.inp hr (D.nphi.symm ▸ hj), main_mir]

theorem third_var {d d' : Second ℝ} (hd : r.second = some d) (hd' : r'.second = some d') (D : SecondRel n d d')
    (h3 : d.third.isSome = true) : ∀ u ∈ Spec.Scaling.units3, Turned f f' u.1 := by
  obtain ⟨t, ht⟩ := Option.isSome_iff_exists.1 h3
  obtain ⟨t', ht', T⟩ := D.third t ht
  have S := var_scalars (scalars3_mir T) (hv.s3 d t hd ht) (hv'.s3 _ _ hd' ht')
  have P := var_profiles (n := n) (profiles3_mir D.nphi T) (fun p hp _ => hv.p3 d t hd ht p hp)
    (fun p hp _ => by
      have := hv'.p3 d' t' hd' ht'
      rw [D.inp] at this
      exact this p hp)
  intro u hu
  refine var_all (x := []) (m := (scalars3 t).map (·.1) ++ (profiles3 d.inp t).map (·.1)) rfl ?_ u hu (by simp)
  intro v hv hx
  rcases List.mem_append.1 hv with hv | hv
  · exact S v hv hx
  · exact P v hv hx

theorem labels_var (I : InputRel q q') :
    ∀ v ∈ Spec.Scaling.labels, v ≠ "helicity" → Spec.Scaling.Unchanged f f' v := by
  have i1 := hv.ints
  have i2 := hv'.ints
  have g1 := hv.flags
  have g2 := hv'.flags
  simp only [List.forall_mem_cons, List.not_mem_nil, false_imp_iff, implies_true, and_true, I.nfp, I.sG, I.spsi, I.N,
    I.M] at i1 i2 g1 g2
  obtain ⟨x1, x2, x3, x4, x5⟩ := i1
  obtain ⟨y1, y2, y3, y4, y5⟩ := i2
  obtain ⟨u1, u2, u3⟩ := g1
  obtain ⟨w1, w2, w3⟩ := g2
  have ho := hv'.option
  rw [I.order] at ho
  simp only [Spec.Scaling.labels, List.forall_mem_cons, List.not_mem_nil, false_imp_iff, implies_true, and_true]
  exact ⟨fun _ => .inl ⟨_, hv.nphi, hv'.nphi⟩, fun _ => .inl ⟨_, x1, y1⟩, fun _ => .inl ⟨_, x2, y2⟩,
    fun _ => .inl ⟨_, x3, y3⟩, fun _ => .inl ⟨_, x4, y4⟩, fun _ => .inl ⟨_, x5, y5⟩, fun h => absurd rfl h,
    fun _ => .inl ⟨_, u1, w1⟩, fun _ => .inl ⟨_, u2, w2⟩, fun _ => .inl ⟨_, u3, w3⟩,
    fun _ => .inr ⟨_, hv.option, ho⟩, fun _ => .inr ⟨_, hv.general, hv'.general⟩⟩

end

/-- **C103.** Two runs whose input files describe mirror images of each other: the output files do too.  The solver is
one that follows the signs of rows and columns; the normal vector crosses no quadrant boundary on a grid point. -/
theorem same_mirrored {L : Lib ℝ} (ho : L.ops = realOps) (hl : Literals L.lit) {m0 m0' : Mem ℝ}
    {path path' : List Char} {file file' : Sections.File ℝ} (hf : Spec.Sections.WellFormed file)
    (hf' : Spec.Sections.WellFormed file') {name name' : List Char} {r r' : Result ℝ} {f f' : File ℝ}
    (h : run L m0 path file = .ok (name, r, f)) (h' : run L m0' path' file' = .ok (name', r', f'))
    {q q' : QscIn ℝ} (hq : Input L.single file q) (hq' : Input L.single file' q') (hu : MirrorImage q q')
    {n : Nat} (hn : Points q n) (hg : Signs L.gesv)
    (hst : Steady n (fun j => (r.axis.loc j).normal.x) fun j => (r.axis.loc j).normal.z) :
    r'.newton = r.newton ∧ SameMirrored q.order_r_option n f f' := by
  have I := inputRel hu
  have hn' : Points q' n := by
    unfold Points at hn ⊢
    rwa [I.nphi]
  obtain ⟨ord, M, rfl, -, hc, ho1, hv, -, hr⟩ := ended_with ho hl hf h hq hn
  obtain ⟨ord', -, -, -, -, ho2, hv', -, hr'⟩ := ended_with ho hl hf' h' hq' hn'
  rw [I.order, ho1] at ho2
  injection ho2 with ho2
  subst ho2
  have R := first_rel ho hg I hc hr hst hr'
  have key : q.order_r_option ≠ "r1" → ord.atLeastR2 = true ∧ ∃ d d', r.second = some d ∧ r'.second = some d' ∧
      SecondRel (2 * M + 1) d d' ∧ d.third.isSome = ord.r2p1 := by
    intro h1
    have h2 : ord.atLeastR2 = true := by
      rcases (validate_ok ho1).2 with ⟨e, -⟩ | ⟨-, rfl⟩ | ⟨-, rfl⟩
      · exact absurd e h1
      · rfl
      · rfl
    exact ⟨h2, second_rel ho hg I hc hr hst hr' h2⟩
  have hel := hv'.hel
  rw [R.axis] at hel
  refine ⟨R.newton, ⟨_, hv.hel, hel⟩, labels_var hv hv' I, first_var hv hv' I R, gradient_var hv hv' R, ?_, ?_, ?_⟩
  · intro h1
    obtain ⟨h2, d, d', k1, k2, k3, -⟩ := key h1
    exact second_var hv hv' I h2 (by omega) k1 k2 k3
  · intro h1
    obtain ⟨-, d, d', k1, k2, k3, -⟩ := key h1
    exact gradient2_var hv hv' k1 k2 k3
  · intro h1
    obtain ⟨h2, d, d', k1, k2, k3, h3⟩ := key (by rw [h1]; decide)
    refine third_var hv hv' k1 k2 k3 ?_
    rw [h3]
    rcases (validate_ok ho1).2 with ⟨e, -⟩ | ⟨e, -⟩ | ⟨-, rfl⟩
    · rw [h1] at e; exact absurd e (by decide)
    · rw [h1] at e; exact absurd e (by decide)
    · rfl

/-- **C103.** If the run ends, so does the run of the mirror image, unless the eigenvalue routine fails. -/
theorem ends_mirrored {L : Lib ℝ} (ho : L.ops = realOps) (hl : Literals L.lit) {m0 : Mem ℝ} (m0' : Mem ℝ)
    {path : List Char} {file file' : Sections.File ℝ} (hf : Spec.Sections.WellFormed file)
    (hf' : Spec.Sections.WellFormed file') {name : List Char} {r : Result ℝ} {f : File ℝ}
    (h : run L m0 path file = .ok (name, r, f)) {path' dir ext : List Char} (hp : Outfile.IsInputPath path' dir ext)
    {q q' : QscIn ℝ} (hq : Input L.single file q) (hq' : Input L.single file' q') (hu : MirrorImage q q')
    {n : Nat} (hn : Points q n) (hg : Signs L.gesv)
    (hst : Steady n (fun j => (r.axis.loc j).normal.x) fun j => (r.axis.loc j).normal.z)
    (hs : q.order_r_option ≠ "r1" → ∀ m, L.geev m ≠ none) :
    ∃ r' f', run L m0' path' file' = .ok (dir ++ "qsc_out.".toList ++ ext ++ ".nc".toList, r', f') := by
  have I := inputRel hu
  obtain ⟨ord, M, rfl, hsd, hc, ho1, hv, -, hr⟩ := ended_with ho hl hf h hq hn
  have h2 := (input_iff hl L.single hf' q').2 hq'
  obtain ⟨l1, l2, l3⟩ := sized hf' h2
  have e1 := congrArg Axis.Coeffs.R0c I.coeffs
  change q'.R0c = q.R0c at e1
  have hpos : 0 < q'.R0c.length := by
    rw [e1]
    exact List.length_pos_of_ne_nil hsd.2.2.2
  have hs' : ord.atLeastR2 = true → ∀ m, L.geev m ≠ none := by
    intro h2
    rcases (validate_ok ho1).2 with ⟨-, rfl⟩ | ⟨e, -⟩ | ⟨e, -⟩
    · cases h2
    · exact hs (by rw [e]; decide)
    · exact hs (by rw [e]; decide)
  obtain ⟨r', hr'⟩ := calculate_rel ho hg I hc hr hst hs'
  have ho2 : Setup.validate q'.order_r_option = .ok ord := by rw [I.order]; exact ho1
  rw [run_eq L m0' (Outfile.outfile_ok path' dir ext hp) h2 ho2 (by rw [I.nphi]; exact hsd.2.1)
    (n := 2 * M + 1) (by rw [I.nphi]; exact (points_iff q _).2 hn) (by rw [I.nfp]; exact hsd.2.2.1)]
  obtain ⟨f', hw, -⟩ := file_written L.toF L.ops m0' q' ord (2 * M + 1) r'
    (calculate_done (validate_order ho2) hr') (validate_ok ho2).1 rfl l1 l2 l3 (by omega) hpos
  exact ⟨r', f', by simp only [hr', hw]⟩

/-! ## An example -/

theorem diag_signs : Signs diagLib.gesv := by
  intro n m y r c hr hc
  simp only [diagLib, Option.map_some, Option.some.injEq]
  funext j
  rcases hr j with e | e <;> rcases hc j with e' | e' <;> rw [e, e'] <;> simp [neg_div, div_neg]

/-- A rotating axis with a current and without stellarator symmetry, and its mirror image for `s = -1`. -/
noncomputable def exSided (s : ℝ) : Sections.File ℝ :=
  [("qsc", [("order_r_option", .str "r2.1"), ("nfp", .int 4), ("nphi", .int 20), ("R0c", .arr [.flt 1, .flt (1 / 20)]),
    ("Z0s", .arr [.flt (s * 0), .flt (s * (1 / 20))]), ("Z0c", .arr [.flt (s * (1 / 3)), .flt (s * 0)]),
    ("eta_bar", .flt (3 / 2)), ("sigma0", .flt (s * (1 / 10))), ("I2", .flt (s * (1 / 2))), ("B2s", .flt (s * (1 / 4)))])]

noncomputable def exSidedInput (s : ℝ) : QscIn ℝ :=
  { exInput "r2.1" 20 with
    Z0c := [s * (1 / 3), s * 0], Z0s := [s * 0, s * (1 / 20)], sigma0 := s * (1 / 10), I2 := s * (1 / 2)
    B2s := s * (1 / 4) }

theorem exSided_well (s : ℝ) : Spec.Sections.WellFormed (exSided s) := by
  refine ⟨by simp [exSided], ?_⟩
  simp [exSided]

theorem exSided_input (s : ℝ) : Input diagLib.single (exSided s) (exSidedInput s) := by
  change Input exLib.single (exSided s) (exSidedInput s)
  rw [← input_iff exLiterals _ (exSided_well s), defaults_eq exLiterals]
  rfl

theorem exSided_run (m0 : Mem ℝ) (s : ℝ) : ∃ r f, run diagLib m0 "dir/qsc_in.torus".toList (exSided s) =
    .ok ("dir/qsc_out.torus.nc".toList, r, f) := by
  rcases ends (L := diagLib) rfl exLiterals m0 ex_path (exSided_well s) (exSided_input s)
    ⟨by simp [exSidedInput, exInput], by simp [exSidedInput, exInput], by simp [exSidedInput, exInput],
      by simp [exSidedInput, exInput]⟩ with h | ⟨-, n, m, b, h⟩ | ⟨-, m, h⟩
  · exact h
  · cases h
  · cases h

theorem normal_neg (p : Axis.Pt ℝ) (h1 : 0 < p.R0) (h2 : p.R0p * p.R0pp + p.Z0p * p.Z0pp = 0) (h3 : p.R0pp - p.R0 < 0) :
    (Axis.localOf realOps p).normal.x < 0 := by
  have hdl : 0 < Real.sqrt (p.R0 * p.R0 + p.R0p * p.R0p + p.Z0p * p.Z0p) := by
    apply Real.sqrt_pos.2
    have := mul_pos h1 h1
    nlinarith [mul_self_nonneg p.R0p, mul_self_nonneg p.Z0p]
  have hx : (Axis.localOf realOps p).dTangent.x < 0 := by
    simp only [Axis.localOf, Axis.Pt.d1, Axis.Pt.d2, realOps]
    generalize Real.sqrt (p.R0 * p.R0 + p.R0p * p.R0p + p.Z0p * p.Z0p) = d at hdl ⊢
    refine div_neg_of_neg_of_pos ?_ (mul_pos hdl hdl)
    have e : -p.R0p * ((p.R0 * p.R0p + p.R0p * p.R0pp + p.Z0p * p.Z0pp) / d) / d = -(p.R0 * (p.R0p * p.R0p) / (d * d)) := by
      rw [add_assoc, h2, add_zero]
      field_simp
    rw [e]
    have : 0 ≤ p.R0 * (p.R0p * p.R0p) / (d * d) :=
      div_nonneg (mul_nonneg h1.le (mul_self_nonneg _)) (mul_self_nonneg _)
    linarith
  have hn : (Axis.localOf realOps p).normal.x = (Axis.localOf realOps p).dTangent.x / (Axis.localOf realOps p).curvature := rfl
  have hk : (Axis.localOf realOps p).curvature = Real.sqrt ((Axis.localOf realOps p).dTangent.x * (Axis.localOf realOps p).dTangent.x
      + (Axis.localOf realOps p).dTangent.y * (Axis.localOf realOps p).dTangent.y
      + (Axis.localOf realOps p).dTangent.z * (Axis.localOf realOps p).dTangent.z) := rfl
  rw [hn, hk]
  refine div_neg_of_neg_of_pos hx (Real.sqrt_pos.2 ?_)
  have := mul_pos_of_neg_of_neg hx hx
  nlinarith [mul_self_nonneg (Axis.localOf realOps p).dTangent.y, mul_self_nonneg (Axis.localOf realOps p).dTangent.z]

/-- The normal vector points inwards everywhere. -/
theorem exSided_normal {M : Nat} {sG spsi : Int} {B0 : ℝ} {x : Axis.Axis ℝ}
    (h : Axis.initAxis realOps (coeffs (exSidedInput 1)) (2 * M + 1) sG spsi B0 = .ok x) (j : Nat) :
    (x.loc j).normal.x < 0 := by
  have hc : (coeffs (exSidedInput 1)).WellSized := ⟨by simp [coeffs, exSidedInput, exInput], rfl, rfl, rfl⟩
  obtain ⟨k, e, -⟩ := Axis.initAxis_eq _ hc M sG spsi B0
  rw [h] at e
  injection e with e
  rw [e]
  have hm : ((List.range (coeffs (exSidedInput 1)).R0c.length).drop 1).map (Axis.modeAt (coeffs (exSidedInput 1)))
      = [⟨1, 1 / 20, 0, 0, 1 / 20⟩] := by
    simp [coeffs, exSidedInput, exInput, Axis.modeAt, List.range_succ]
  rw [hm]
  simp only [Axis.axisData]
  generalize (Axis.phiGrid _ j : ℝ) = φ
  have hn : ((coeffs (exSidedInput 1)).nfp : ℝ) = 4 := by simp [coeffs, exSidedInput, exInput]
  have hr : (coeffs (exSidedInput 1)).R0c.getD 0 0 = 1 := rfl
  rw [hr]
  have c1 := Real.neg_one_le_cos (4 * φ)
  apply normal_neg <;> simp only [Axis.point, List.foldl_cons, List.foldl_nil, Axis.addMode, hn, realOps, Nat.cast_one, one_mul]
  · linarith
  · ring
  · linarith

/-- The mirror image has the opposite rotational transform and the same elongation. -/
example (m0 m0' : Mem ℝ) : ∃ r f r' f',
    run diagLib m0 "dir/qsc_in.torus".toList (exSided 1) = .ok ("dir/qsc_out.torus.nc".toList, r, f) ∧
    run diagLib m0' "dir/qsc_in.torus".toList (exSided (-1)) = .ok ("dir/qsc_out.torus.nc".toList, r', f') ∧
    Spec.Reversal.Negated f f' "iota" ∧ Spec.Reversal.Same f f' "elongation" ∧ Spec.Reversal.Negated f f' "Y3c1" := by
  have hu : MirrorImage (exSidedInput 1) (exSidedInput (-1)) := by
    simp [MirrorImage, exSidedInput, exInput]
  obtain ⟨r, f, h⟩ := exSided_run m0 1
  obtain ⟨r', f', h'⟩ := exSided_run m0' (-1)
  have hp : Points (exSidedInput 1) 21 := by simp [Points, exSidedInput, exInput]
  obtain ⟨ord, M, e, -, -, -, -, hx, -⟩ := ended_with (L := diagLib) rfl exLiterals (exSided_well 1) h (exSided_input 1) hp
  rw [e] at hx
  have hs : Steady 21 (fun j => (r.axis.loc j).normal.x) fun j => (r.axis.loc j).normal.z := by
    intro j _ _
    have h1 := exSided_normal hx j
    have h2 := exSided_normal hx ((j + 1) % 21)
    constructor <;> intro h <;> linarith
  obtain ⟨-, H⟩ := same_mirrored (L := diagLib) rfl exLiterals (exSided_well 1) (exSided_well (-1)) h h' (exSided_input 1)
    (exSided_input (-1)) hu hp diag_signs hs
  have h1 := H.first ("iota", 0, 0) (by simp [Spec.Scaling.units1]) (by simp)
  have h2 := H.first ("elongation", 0, 0) (by simp [Spec.Scaling.units1]) (by simp)
  have h3 := H.third rfl ("Y3c1", -2, 0) (by simp [Spec.Scaling.units3])
  simp only [Turned, odd, List.mem_cons, List.not_mem_nil, String.reduceEq, or_false, or_true, true_or, if_true, if_false]
    at h1 h2 h3
  exact ⟨r, f, r', f', h, h', h1, h2, h3⟩

end Qsc.Mirror
