import Verif.Props.SingleFirst
import Verif.Props.GradGradB
import Verif.Props.Mercier
import Verif.Props.RSing
import Verif.Props.RSingJac
import Verif.Spec.SingleSecond

/-!
# A single run: the solution of second and third order in the output file (C84)
-/

namespace Qsc.Single
open Qsc.Netcdf Qsc.Spec.Netcdf Qsc.Spec.Output Qsc.Output Qsc.Toml Qsc.Spec.Single Qsc.Spec.NearAxis

/-- The tolerances of the search for singularities. -/
noncomputable def tol (L : Lib ℝ) : RSing.Tol ℝ := if L.single then RSing.tolSingle else RSing.tolDouble

theorem calculate_second {L : Lib ℝ} (ho : L.ops = realOps) {q : QscIn ℝ} {n : Nat} {ord : Setup.Order} {r : Result ℝ}
    (h : calculate L q n ord = .ok r) (h2 : ord.atLeastR2 = true) :
    ∃ d x, r.second = some d ∧ d.inp = R2.In.of r.axis r.cfg r.st r.r1 (mu0 realOps) q.p2 q.B2s q.B2c ∧
      L.gesv (2 * d.inp.cfg.nphi) (R2.matrix d.inp fun _ _ => 0) (R2.rhs d.inp) = some x ∧
      d.r2 = R2.finish realOps d.inp x ∧
      d.third = (if ord.r2p1 then some (R2.r2p1 realOps d.inp d.r2) else none) ∧
      d.merc = R2.mercier realOps d.inp d.r2.mean r.axis.dPhi r.axis.axisLength ∧
      RSing.calculate realOps (tol L) L.geev d.inp d.r2 = .ok d.sing := by
  rw [← ho]
  unfold calculate at h
  split at h
  · cases h
  · rename_i a ha
    dsimp only at h
    split at h
    · cases h
    · split at h
      · cases h
      · rename_i s st hs
        split at h
        · cases h
        · rename_i d hd
          injection h with h
          subst h
          unfold second at hd
          split at hd
          · cases hd
          · rename_i x hx
            dsimp only at hd
            split at hd
            · cases hd
            · rename_i s' hs'
              injection hd with hd
              subst hd
              exact ⟨_, x, rfl, rfl, hx, rfl, rfl, rfl, hs'⟩

/-- The tables of a result. -/
noncomputable def tables (r : Result ℝ) (d : Second ℝ) : Tables where
  sigma := r.st.sigma
  X20 := d.r2.X20
  X2s := (R2.pre d.inp).X2s
  X2c := (R2.pre d.inp).X2c
  Y20 := d.r2.Y20
  Y2s := d.r2.Y2s
  Y2c := d.r2.Y2c
  Z20 := (R2.pre d.inp).Z20
  Z2s := (R2.pre d.inp).Z2s
  Z2c := (R2.pre d.inp).Z2c
  B20 := d.r2.B20
  D := r.axis.dDvarphi
  iota := r.st.iota
  iotaN := r.r1.iotaN
  G2 := (R2.pre d.inp).G2
  beta1s := (R2.pre d.inp).beta1s

/-- What is known about a result of second order. -/
structure Facts (q : QscIn ℝ) (n : Nat) (r : Result ℝ) (d : Second ℝ) (x : Nat → ℝ) : Prop where
  hn : 0 < n
  inp : d.inp = R2.In.of r.axis r.cfg r.st r.r1 (mu0 realOps) q.p2 q.B2s q.B2c
  cfg : r.cfg = R1.Cfg.ofAxis r.axis n q.nfp.toNat q.sG q.spsi q.eta_bar q.sigma0 q.I2 q.B0
  fin : d.r2 = R2.finish realOps d.inp x
  ready : GradGradB.Ready d.inp
  dl : ∀ j, r.cfg.dl j = weight q n j
  dlpos : ∀ j < n, 0 < r.cfg.dl j
  dphi : r.axis.dPhi * r.cfg.nfp ≠ 0
  len : r.axis.axisLength = (∑ j ∈ Finset.range n, r.cfg.dl j) * r.axis.dPhi * r.cfg.nfp
  l : r.axis.G0overB0 = perAngle q n
  X1c : ∀ j < n, r.r1.X1c j = X1c q n j
  Y1s : ∀ j < n, r.r1.Y1s j = Y1s q n j
  Y1c : ∀ j < n, r.r1.Y1c j = Y1c q n (tables r d) j
  kap : ∀ j < n, r.cfg.curvature j = Spec.Axis.curvature (axis q) (grid q n j)
  tau : ∀ j < n, r.cfg.torsion j = Spec.Axis.torsion (axis q) (grid q n j)

section
variable {q : QscIn ℝ} {n : Nat} {r : Result ℝ} {d : Second ℝ} {x : Nat → ℝ} (F : Facts q n r d x)
include F

theorem Facts.nphi : d.inp.cfg.nphi = n := by rw [F.inp]; change r.cfg.nphi = n; rw [F.cfg]; rfl

theorem Facts.dDvarphi : d.inp.cfg.dDvarphi = r.axis.dDvarphi := by
  rw [F.inp]; change r.cfg.dDvarphi = _; rw [F.cfg]; rfl

theorem Facts.der : R2.der d.inp = apply n (tables r d).D := by
  funext g j
  unfold R2.der apply
  rw [F.nphi, F.dDvarphi]
  rfl

theorem Facts.coef {j : Nat} (hj : j < n) : R2.coef d.inp d.r2 j = coefs q n (tables r d) j := by
  have e : d.inp.r1 = r.r1 := by rw [F.inp]; rfl
  unfold R2.coef coefs
  rw [e, F.X1c j hj, F.Y1s j hj, F.Y1c j hj]
  rfl

theorem Facts.dcoef (j : Nat) : R2.dcoef d.inp d.r2 j = dcoefs q n (tables r d) j := by
  have e : d.inp.r1 = r.r1 := by rw [F.inp]; rfl
  unfold R2.dcoef dcoefs
  rw [e, F.der, apply_congr _ F.X1c, apply_congr _ F.Y1s, apply_congr _ F.Y1c]
  rfl

theorem Facts.pt {j : Nat} (hj : j < n) : R2.pt d.inp d.r2 j = point q n (tables r d) j := by
  have e1 : d.inp.cfg = r.cfg := by rw [F.inp]; rfl
  have e2 : d.inp.r1 = r.r1 := by rw [F.inp]; rfl
  have e3 : d.inp.st = r.st := by rw [F.inp]; rfl
  have e4 : d.inp.G0overB0 = perAngle q n := by rw [F.inp]; exact F.l
  have e5 : r.cfg.G0 = q.sG * q.B0 * perAngle q n := by
    have := F.ready.G0
    rw [e1, e4] at this
    rw [this, F.cfg]
    change (q.sG : ℝ) * _ * q.B0 = _
    ring
  have e6 : d.inp.B2s = q.B2s ∧ d.inp.B2c = q.B2c ∧ d.inp.p2 = q.p2 ∧ d.inp.mu0 = mu0 realOps := by
    rw [F.inp]; exact ⟨rfl, rfl, rfl, rfl⟩
  unfold R2.pt point
  rw [e1, e2, e3, e4, e5, e6.1, e6.2.1, e6.2.2.1, e6.2.2.2, F.kap j hj, F.tau j hj]
  have c1 : r.cfg.spsi = q.spsi ∧ r.cfg.B0 = q.B0 ∧ r.cfg.etaBar = q.eta_bar ∧ r.cfg.I2 = q.I2 := by
    rw [F.cfg]; exact ⟨rfl, rfl, rfl, rfl⟩
  rw [c1.1, c1.2.1, c1.2.2.1, c1.2.2.2]
  rfl

end

theorem same_lower {c e : Coef} (h : Same2 c e) : R2.lower c = R2.lower e := by
  unfold R2.lower
  rw [h.X1c, h.Y1s, h.Y1c, h.X20, h.X2s, h.X2c, h.Y20, h.Y2s, h.Y2c, h.Z20, h.Z2s, h.Z2c]

theorem lower_coefs (q : QscIn ℝ) (n : Nat) (t : Tables) (j : Nat) : R2.lower (coefs q n t j) = coefs q n t j := rfl
theorem lower_dcoefs (q : QscIn ℝ) (n : Nat) (t : Tables) (j : Nat) : R2.lower (dcoefs q n t j) = dcoefs q n t j := rfl

theorem largest {n : Nat} {m : ℝ} {fs : List (Nat → ℝ)} (h : R2.IsAbsMax n m fs) {l : List (String × (Nat → ℝ))}
    {g : (Nat → ℝ) → Nat → ℝ} (e : fs = l.map fun p => g p.2) : IsLargest n l g m := by
  subst e
  obtain ⟨h1, fn, h2, j, hj, h3⟩ := h
  obtain ⟨p, hp, rfl⟩ := List.mem_map.1 h2
  refine ⟨⟨p, hp, j, hj, h3⟩, ?_⟩
  rintro y ⟨p, hp, j, hj, rfl⟩
  exact h1 _ (List.mem_map.2 ⟨p, hp, rfl⟩) j hj

theorem facts {q : QscIn ℝ} {M : Nat} {r : Result ℝ} {d : Second ℝ} {x : Nat → ℝ} (hn : 0 < q.nfp)
    (hc : (coeffs q).WellSized)
    (h : Axis.initAxis realOps (coeffs q) (2 * M + 1) q.sG q.spsi q.B0 = .ok r.axis)
    (hcfg : r.cfg = R1.Cfg.ofAxis r.axis (2 * M + 1) q.nfp.toNat q.sG q.spsi q.eta_bar q.sigma0 q.I2 q.B0)
    (hr1 : r.r1 = R1.diagnostics realOps r.cfg r.st)
    (hinp : d.inp = R2.In.of r.axis r.cfg r.st r.r1 (mu0 realOps) q.p2 q.B2s q.B2c)
    (hfin : d.r2 = R2.finish realOps d.inp x)
    (hR : ∀ j < 2 * M + 1, axisR q (grid q (2 * M + 1) j) ≠ 0)
    (hk : ∀ j < 2 * M + 1, Spec.Axis.curvature (axis q) (grid q (2 * M + 1) j) ≠ 0)
    (he : q.eta_bar ≠ 0) (hB : q.B0 ≠ 0) (hG : q.sG = 1 ∨ q.sG = -1) (hpsi : q.spsi = 1 ∨ q.spsi = -1) :
    Facts q (2 * M + 1) r d x := by
  obtain ⟨k1, k2, k3, k4, k5, k6⟩ := cfg_axis hn hc h hcfg hR hk
  have hn' : 0 < (coeffs q).nfp := by change 0 < q.nfp.toNat; omega
  have hphi := phi_eq hc h hn
  have hR' : ∀ k < 2 * M + 1, Axis.Rf (coeffs q) (r.axis.phi k) ≠ 0 := by rw [hphi]; exact hR
  have hk' : ∀ k < 2 * M + 1, (r.axis.loc k).curvature ≠ 0 := by
    intro k hkn
    have := k1 k hkn
    rw [hcfg] at this
    change (r.axis.loc k).curvature = _ at this
    rw [this]
    exact hk k hkn
  obtain ⟨g1, g2, g3, g4, -⟩ := Axis.averages hc h hn' hR'
  obtain ⟨o1, o2, o3, o4, o5⟩ := R2.ok_after_init_axis (coeffs q) hc M q.sG q.spsi q.eta_bar q.sigma0 q.I2 q.B0 (mu0 realOps)
    q.p2 q.B2s q.B2c r.axis h hn' hR' hG hpsi hB he hk' r.st
  have o6 := GradGradB.ready_after_init_axis (coeffs q) hc M q.sG q.spsi q.eta_bar q.sigma0 q.I2 q.B0 (mu0 realOps)
    q.p2 q.B2s q.B2c r.axis h hn' hR' hG hpsi hB he hk' r.st
  have e : d.inp = R2.In.of r.axis (R1.Cfg.ofAxis r.axis (2 * M + 1) (coeffs q).nfp q.sG q.spsi q.eta_bar q.sigma0 q.I2 q.B0)
      r.st (R1.diagnostics realOps (R1.Cfg.ofAxis r.axis (2 * M + 1) (coeffs q).nfp q.sG q.spsi q.eta_bar q.sigma0 q.I2 q.B0)
      r.st) (mu0 realOps) q.p2 q.B2s q.B2c := by
    rw [hinp, hr1, hcfg]; rfl
  have n3 : r.cfg.etaBar = q.eta_bar := by rw [hcfg]; rfl
  have n4 : r.cfg.sG = q.sG := by rw [hcfg]; rfl
  have n5 : r.cfg.spsi = q.spsi := by rw [hcfg]; rfl
  have hX : ∀ j < 2 * M + 1, r.r1.X1c j = X1c q (2 * M + 1) j := by
    intro j hj
    rw [hr1]
    change r.cfg.etaBar / r.cfg.curvature j = _
    rw [k1 j hj, n3]
    rfl
  have hY : ∀ j < 2 * M + 1, r.r1.Y1s j = Y1s q (2 * M + 1) j := by
    intro j hj
    rw [hr1]
    change ((r.cfg.sG * r.cfg.spsi : Int) : ℝ) / r.cfg.etaBar * r.cfg.curvature j = _
    rw [k1 j hj, n3, n4, n5]
    unfold Spec.Single.Y1s
    push_cast
    ring
  refine ⟨by omega, hinp, hcfg, hfin, by rw [e]; exact o6, k3, ?_, ?_, ?_, ?_, hX, hY, ?_, k1, k2⟩
  · rw [hcfg]; exact o2
  · rw [hcfg]; exact o4
  · rw [hcfg]; exact o5
  · rw [length_is hc h hn] at g3
    exact g3
  · intro j hj
    have : r.r1.Y1c j = r.r1.Y1s j * r.st.sigma j := by rw [hr1]; rfl
    rw [this, hY j hj]
    rfl

section
variable {q : QscIn ℝ} {n : Nat} {r : Result ℝ} {d : Second ℝ} {x : Nat → ℝ} (F : Facts q n r d x) {ord : Setup.Order}
  {f : Netcdf.File ℝ} (hv : Vars realOps q ord n r f) (hd : r.second = some d)
include F

theorem Facts.der_profile {g : Nat → ℝ} : matVec d.inp.cfg.nphi d.inp.cfg.dDvarphi g = apply n (tables r d).D g := by
  funext j
  rw [F.nphi, F.dDvarphi]
  exact apply_eq _ _ _ _

include hv hd

theorem tables_in : (tables r d).In f n := by
  have P : ∀ k {a v w}, (profiles2 realOps d)[k]? = some (a, v) → v = w → Profile f a n w :=
    fun k _ _ _ hm e => e ▸ hv.p2 d hd _ (List.mem_of_getElem? hm)
  have e1 : ∀ g, matVec d.inp.cfg.nphi d.inp.cfg.dDvarphi g = apply n (tables r d).D g := fun g => F.der_profile
  have e2 : ∀ g, matVec d.inp.cfg.nphi d.inp.cfg.dDvarphi (matVec d.inp.cfg.nphi d.inp.cfg.dDvarphi g) =
    apply n (tables r d).D (apply n (tables r d).D g) := fun g => by rw [e1, e1]
  refine ⟨hv.p1 ("sigma", r.st.sigma) (by simp [profiles1]) (by simp), ?_, P 9 rfl rfl, hv.dvarphi,
    hv.s1 ("iota", r.st.iota) (by simp [scalars1]), hv.s1 ("iota_N", r.r1.iotaN) (by simp [scalars1]),
    hv.s2 d hd ("G2", _) (by simp [scalars2]; rfl), hv.s2 d hd ("beta_1s", _) (by simp [scalars2]; rfl)⟩
  intro p hp
  simp only [Tables.xy, Tables.z, List.cons_append, List.nil_append, List.mem_cons, List.not_mem_nil, or_false] at hp
  rcases hp with rfl | rfl | rfl | rfl | rfl | rfl | rfl | rfl | rfl
  · exact ⟨P 0 rfl rfl, P 11 rfl (e1 _), P 20 rfl (e2 _)⟩
  · exact ⟨P 1 rfl rfl, P 12 rfl (e1 _), P 21 rfl (e2 _)⟩
  · exact ⟨P 2 rfl rfl, P 13 rfl (e1 _), P 22 rfl (e2 _)⟩
  · exact ⟨P 3 rfl rfl, P 14 rfl (e1 _), P 23 rfl (e2 _)⟩
  · exact ⟨P 4 rfl rfl, P 15 rfl (e1 _), P 24 rfl (e2 _)⟩
  · exact ⟨P 5 rfl rfl, P 16 rfl (e1 _), P 25 rfl (e2 _)⟩
  · exact ⟨P 6 rfl rfl, P 17 rfl (e1 _), P 26 rfl (e2 _)⟩
  · exact ⟨P 7 rfl rfl, P 18 rfl (e1 _), P 27 rfl (e2 _)⟩
  · exact ⟨P 8 rfl rfl, P 19 rfl (e1 _), P 28 rfl (e2 _)⟩

theorem second_in_file : SecondVars f q n (tables r d) := by
  have ok := F.ready.toOk
  have hi1 : d.inp.r1 = r.r1 := by rw [F.inp]; rfl
  have hic : d.inp.cfg = r.cfg := by rw [F.inp]; rfl
  have hl : d.inp.G0overB0 = perAngle q n := by rw [F.inp]; exact F.l
  have hl0 : perAngle q n ≠ 0 := hl ▸ ok.l
  have hb : d.inp.B0overG0 = 1 / perAngle q n := by rw [ok.bl, hl]
  have S : ∀ k {a v w}, (scalars2 realOps d)[k]? = some (a, v) → v = w → Scalar f a w :=
    fun k _ _ _ hm e => e ▸ hv.s2 d hd _ (List.mem_of_getElem? hm)
  have hmax := R2.grid_maxima d.inp x (by rw [F.nphi]; exact F.hn)
  rw [← F.fin, F.nphi] at hmax
  have hxc : ∀ {g h : Nat → ℝ} (j : Nat), (∀ k < n, g k = h k) →
      matVec d.inp.cfg.nphi d.inp.cfg.dDvarphi g j = apply n (tables r d).D h j := by
    intro g h j e
    rw [F.der_profile]
    exact apply_congr _ e j
  have hvmax := vmax_spec n F.hn d.r2.B20
  have hvmin := vmin_spec n F.hn d.r2.B20
  have hvar : d.r2.variation = vmax realOps n d.r2.B20 - vmin realOps n d.r2.B20 := by
    rw [← F.nphi, F.fin]; rfl
  have hmean : d.r2.mean = mean q n d.r2.B20 := by
    have e : d.r2.mean = vsum n (fun j => d.r2.B20 j * r.cfg.dl j) * (1 / vsum n r.cfg.dl) := by
      rw [← F.nphi, ← hic, F.fin]; rfl
    rw [e, vsum_eq, vsum_eq, mul_one_div]
    simp only [F.dl]
    rfl
  have hanom : d.r2.anomaly = fun j => d.r2.B20 j - mean q n d.r2.B20 := by
    rw [← hmean, F.fin]; rfl
  refine ⟨tables_in F hv hd, ?_, ?_, ?_, ?_, ?_, ?_, S 2 rfl hmean, ?_, S 3 rfl ?_, ⟨_, S 4 rfl rfl, ?_⟩,
    ⟨_, S 12 rfl rfl, largest hmax.1 rfl⟩, ⟨_, S 13 rfl rfl, largest hmax.2.1 rfl⟩,
    ⟨_, S 14 rfl rfl, largest hmax.2.2.1 (by rw [F.der]; rfl)⟩,
    ⟨_, S 15 rfl rfl, largest hmax.2.2.2.2 (by rw [F.der]; rfl)⟩,
    ⟨_, S 16 rfl rfl, largest hmax.2.2.2.1 (by rw [F.der]; rfl)⟩⟩
  · intro j hj
    have e : (tables r d).Z20 j = matVec d.inp.cfg.nphi d.inp.cfg.dDvarphi (fun j => d.inp.r1.X1c j * d.inp.r1.X1c j +
      d.inp.r1.Y1c j * d.inp.r1.Y1c j + d.inp.r1.Y1s j * d.inp.r1.Y1s j) j * (-d.inp.B0overG0 / 8) := rfl
    rw [e, hxc j (h := fun k => X1c q n k ^ 2 + Y1c q n (tables r d) k ^ 2 + Y1s q n k ^ 2)
      fun k hk => by rw [hi1, F.X1c k hk, F.Y1c k hk, F.Y1s k hk]; ring, hb]
    field_simp
  · intro j hj
    have e : (tables r d).Z2s j = -d.inp.B0overG0 / 8 * (matVec d.inp.cfg.nphi d.inp.cfg.dDvarphi
      (fun j => 2 * d.inp.r1.Y1s j * d.inp.r1.Y1c j) j - 2 * d.inp.r1.iotaN * (d.inp.r1.X1c j * d.inp.r1.X1c j +
      d.inp.r1.Y1c j * d.inp.r1.Y1c j - d.inp.r1.Y1s j * d.inp.r1.Y1s j)) := rfl
    rw [e, hxc j (h := fun k => 2 * Y1s q n k * Y1c q n (tables r d) k)
      fun k hk => by rw [hi1, F.Y1c k hk, F.Y1s k hk], hb, hi1, F.X1c j hj, F.Y1c j hj, F.Y1s j hj]
    have : (tables r d).iotaN = r.r1.iotaN := rfl
    rw [this]
    field_simp
  · intro j hj
    have e : (tables r d).Z2c j = -d.inp.B0overG0 / 8 * (matVec d.inp.cfg.nphi d.inp.cfg.dDvarphi
      (fun j => d.inp.r1.X1c j * d.inp.r1.X1c j + d.inp.r1.Y1c j * d.inp.r1.Y1c j - d.inp.r1.Y1s j * d.inp.r1.Y1s j) j +
      2 * d.inp.r1.iotaN * (2 * d.inp.r1.Y1s j * d.inp.r1.Y1c j)) := rfl
    rw [e, hxc j (h := fun k => X1c q n k ^ 2 + Y1c q n (tables r d) k ^ 2 - Y1s q n k ^ 2)
      fun k hk => by rw [hi1, F.X1c k hk, F.Y1c k hk, F.Y1s k hk]; ring, hb, hi1, F.Y1c j hj, F.Y1s j hj]
    have : (tables r d).iotaN = r.r1.iotaN := rfl
    rw [this]
    field_simp
  · intro j hj
    have := R2.area_relations ok x (j := j) (by rw [F.nphi]; exact hj)
    rw [← F.fin, F.coef hj, F.pt hj] at this
    exact this
  · intro j hj c e hc he θ
    have := R2.field_strength ok x (j := j) (by rw [F.nphi]; exact hj) c e
      (by rw [← F.fin, F.coef hj]; exact same_lower hc) (by rw [← F.fin, F.dcoef]; exact same_lower he) θ
    rwa [← F.fin, F.pt hj] at this
  · intro hi j hj θ
    have := R2.force_balance ok x (j := j) (by rw [F.nphi]; exact hj) (by rw [hi1]; exact hi) θ
    rwa [← F.fin, F.pt hj] at this
  · exact profile_congr (hv.p2 d hd ("B20_anomaly", d.r2.anomaly) (List.mem_of_getElem? (i := 10) rfl))
      fun j _ => by rw [hanom]; rfl
  · have e : d.r2.residual = Real.sqrt (vsum n (fun j => d.r2.anomaly j * d.r2.anomaly j * r.cfg.dl j) *
        (1 / vsum n r.cfg.dl)) / r.cfg.B0 := by
      rw [← F.nphi, ← hic, F.fin]; rfl
    have hB : r.cfg.B0 = q.B0 := by rw [F.cfg]; rfl
    rw [e, vsum_eq, vsum_eq, mul_one_div, hanom, hB]
    simp only [F.dl, ← pow_two]
    rfl
  · rw [hvar]
    obtain ⟨j, hj, h1⟩ := hvmax.2
    obtain ⟨k, hk, h2⟩ := hvmin.2
    refine ⟨⟨j, hj, k, hk, by rw [h1, h2]; rfl⟩, ?_⟩
    rintro y ⟨j, hj, k, hk, rfl⟩
    exact sub_le_sub (hvmax.1 j hj) (hvmin.1 k hk)


theorem mercier_in_file (hm : d.merc = R2.mercier realOps d.inp d.r2.mean r.axis.dPhi r.axis.axisLength) :
    MercierVars f q n (tables r d) := by
  have ok := F.ready.toOk
  have hi1 : d.inp.r1 = r.r1 := by rw [F.inp]; rfl
  have hic : d.inp.cfg = r.cfg := by rw [F.inp]; rfl
  have hl : d.inp.G0overB0 = perAngle q n := by rw [F.inp]; exact F.l
  have hB : r.cfg.B0 = q.B0 := by rw [F.cfg]; rfl
  have hG : r.cfg.G0 = q.sG * q.B0 * perAngle q n := by
    have := congrArg Pt.G0 (F.pt F.hn)
    change d.inp.cfg.G0 = _ at this
    rw [hic] at this
    exact this
  have S : ∀ k {a v w}, (scalars2 realOps d)[k]? = some (a, v) → v = w → Scalar f a w :=
    fun k _ _ _ hm e => e ▸ hv.s2 d hd _ (List.mem_of_getElem? hm)
  have hw : ∀ j < d.inp.cfg.nphi, 0 < d.inp.cfg.dl j := by rw [F.nphi, hic]; exact F.dlpos
  have hn : 0 < d.inp.cfg.nphi := by rw [F.nphi]; exact F.hn
  have hdl : d.inp.cfg.dl = weight q n := by rw [hic]; exact funext F.dl
  have hp : d.inp.mu0 * d.inp.p2 = 4 / 10 ^ 7 * Real.pi * q.p2 := by rw [F.inp]; rfl
  have hpsi : ∀ (v : ℝ) (g : Nat → ℝ → ℝ → ℝ), Spec.Mercier.surf n (weight q n) (fun j θ => g j (R2.gradPsi2 d.inp v j θ) θ) =
      Spec.Mercier.surf n (weight q n) (fun j θ => g j (gradPsi2 q n (tables r d) v j θ) θ) := by
    intro v g
    unfold Spec.Mercier.surf
    congr 2
    refine Finset.sum_congr rfl fun j hj => ?_
    have hj := Finset.mem_range.1 hj
    unfold R2.gradPsi2 gradPsi2
    beta_reduce
    rw [hi1, hic, hB, F.X1c j hj, F.Y1s j hj, F.Y1c j hj]
  have hvol := R2.volume_second_derivative ok x r.axis.dPhi r.axis.axisLength hw hn
  dsimp only at hvol
  rw [← F.fin, ← hm, F.nphi, hdl] at hvol
  have hs : ∀ v, (Spec.Mercier.surf n (weight q n) fun j θ => |G (R2.pt d.inp d.r2 j) v + (R2.pt d.inp d.r2 j).iotaN *
      I (R2.pt d.inp d.r2 j) v| / B (R2.pt d.inp d.r2 j) v θ ^ 2) = Spec.Mercier.surf n (weight q n) fun j θ =>
      |G (point q n (tables r d) j) v + (tables r d).iotaN * I (point q n (tables r d) j) v| /
        B (point q n (tables r d) j) v θ ^ 2 := by
    intro v
    unfold Spec.Mercier.surf
    congr 2
    refine Finset.sum_congr rfl fun j hj => ?_
    beta_reduce
    rw [F.pt (Finset.mem_range.1 hj)]
    rfl
  simp only [hs] at hvol
  rw [hic, hB] at hvol
  refine ⟨_, S 5 rfl rfl, hvol.2, _, _, S 7 rfl rfl, S 6 rfl rfl, S 8 rfl (by rw [hm]; rfl), ?_, ?_⟩
  · intro v hv0
    have := R2.mercier_well ok d.r2.mean r.axis.dPhi r.axis.axisLength hw hn hv0
    rw [← hm, F.nphi, hdl] at this
    rw [this, hic, hG, hB]
    unfold Spec.Mercier.well
    rw [hpsi v fun j g θ => |(q.sG : ℝ) * q.B0 * perAngle q n| / q.B0 ^ 2 * q.B0 ^ 2 / g, mul_assoc 2, hp]
  · intro hi c0 v hv0
    have := R2.mercier_geod ok d.r2.mean r.axis.dPhi r.axis.axisLength hw hn (by rw [hic]; exact F.dphi)
      (by rw [F.nphi, hic]; exact F.len) (by rw [hi1]; exact hi) c0 hv0
    rw [← hm, F.nphi, hdl] at this
    rw [this, hic, hG, hB]
    unfold Spec.Mercier.geod
    rw [hpsi v fun j g θ => |(q.sG : ℝ) * q.B0 * perAngle q n| / q.B0 ^ 2 * R2.JB d.inp c0 v j θ / g,
      hpsi v fun j g θ => |(q.sG : ℝ) * q.B0 * perAngle q n| / q.B0 ^ 2 * q.B0 ^ 2 / g,
      hpsi v fun j g θ => |(q.sG : ℝ) * q.B0 * perAngle q n| / q.B0 ^ 2 * R2.JB d.inp c0 v j θ ^ 2 / (q.B0 ^ 2 * g)]
    have : R2.JB d.inp c0 v = fun _ θ => q.B0 ^ 2 * (c0 - v * (tables r d).beta1s * Real.cos θ) := by
      funext j θ
      unfold R2.JB
      rw [hic, hB]
      rfl
    rw [this]

theorem tensor_in_file : TensorVars f q n (tables r d) := by
  have hi1 : d.inp.r1 = r.r1 := by rw [F.inp]; rfl
  have hic : d.inp.cfg = r.cfg := by rw [F.inp]; rfl
  have hB : r.cfg.B0 = q.B0 := by rw [F.cfg]; rfl
  have hsG : r.cfg.sG = q.sG := by rw [F.cfg]; rfl
  have hn : 0 < d.inp.cfg.nphi := by rw [F.nphi]; exact F.hn
  have P : ∀ k {a v w}, (profiles2 realOps d)[k]? = some (a, v) → v = w → Profile f a n w :=
    fun k _ _ _ hm e => e ▸ hv.p2 d hd _ (List.mem_of_getElem? hm)
  have S : ∀ k {a v w}, (scalars2 realOps d)[k]? = some (a, v) → v = w → Scalar f a w :=
    fun k _ _ _ hm e => e ▸ hv.s2 d hd _ (List.mem_of_getElem? hm)
  refine ⟨_, _, _, hv.gradB, hv.gradgradB d hd, P 29 rfl rfl, P 30 rfl rfl, ?_, ?_, _, S 9 rfl rfl, ?_⟩
  · intro j hj hp c e hc he θ k hk
    have hp' : GradGradB.Product d.inp j := by
      have a1 : d.inp.r1.dX1c j = apply n (tables r d).D (X1c q n) j := by
        rw [GradGradB.dX1c_eq F.ready, F.der, hi1, apply_congr _ F.X1c]
      have a2 : d.inp.r1.dY1s j = apply n (tables r d).D (Y1s q n) j := by
        rw [GradGradB.dY1s_eq F.ready, F.der, hi1, apply_congr _ F.Y1s]
      unfold GradGradB.Product
      rw [a1, a2, hi1, F.X1c j hj, F.Y1s j hj]
      exact hp
    have := GradGradB.second_derivative F.ready x (j := j) (by rw [F.nphi]; exact hj) hp' (c := c) (d := e)
      (by rw [← F.fin, F.coef hj]; exact same_lower hc) (by rw [← F.fin, F.dcoef]; exact same_lower he) θ hk
    rw [← F.fin, F.pt hj, hic, hi1, hB, hsG] at this
    exact this
  · intro hB0 j hj
    have := GradGradB.length_scale F.ready x (j := j) (by rw [F.nphi]; exact hj) (by rw [hic, hB]; exact hB0)
    dsimp only at this
    rw [← F.fin, hic, hB] at this
    exact ⟨this.1, this.2.1⟩
  · have := GradGradB.length_scale_min d.inp x hn
    dsimp only at this
    rw [← F.fin, F.nphi] at this
    exact ⟨this.2, by rintro y ⟨k, hk, rfl⟩; exact this.1 k hk⟩

theorem singular_in_file {t : RSing.Tol ℝ} (ht : 0 ≤ t.sc) {geev : Quartic.Geev ℝ}
    (hs : RSing.calculate realOps t geev d.inp d.r2 = .ok d.sing) : SingularVars f q n (tables r d) t.res := by
  have hic : d.inp.cfg = r.cfg := by rw [F.inp]; rfl
  have hB : r.cfg.B0 = q.B0 := by rw [F.cfg]; rfl
  have hp : d.inp.mu0 * d.inp.p2 = 4 / 10 ^ 7 * Real.pi * q.p2 := by rw [F.inp]; rfl
  have S : ∀ k {a v w}, (scalars2 realOps d)[k]? = some (a, v) → v = w → Scalar f a w :=
    fun k _ _ _ hm e => e ▸ hv.s2 d hd _ (List.mem_of_getElem? hm)
  obtain ⟨h1, h2, h3⟩ := RSing.calculate_spec t geev d.inp d.r2 (by rw [F.nphi]; exact F.hn) hs
  rw [F.nphi] at h1 h2
  refine ⟨fun j => RSing.jac d.inp d.r2 j, d.sing.rhat, d.sing.r, ?_, ?_, ?_, S 10 rfl rfl, h2, S 11 rfl ?_⟩
  · intro j hj θ
    have := RSing.jacobian_expansion F.ready.toOk x (j := j) (by rw [F.nphi]; exact hj) θ
    rwa [← F.fin, F.coef hj, F.dcoef, F.pt hj] at this
  · exact hv.p2 d hd ("r_hat_singularity_robust", d.sing.rhat) (List.mem_of_getElem? (i := 31) rfl)
  · intro j hj
    have h := h1 j hj
    by_cases hk : (RSing.unscaled (RSing.jac d.inp d.r2 j)).K4c = 0
    · rw [RSing.gridPoint, if_pos hk] at h
      injection h with h
      rw [← h]
      exact ⟨le_refl _, fun h => absurd rfl h⟩
    · have hl : geev (Quartic.companion (RSing.coefficients (RSing.scaled (RSing.jac d.inp d.r2 j)))) ≠ none := by
        intro e
        rw [RSing.gridPoint, if_neg hk] at h
        simp only [Quartic.roots, e] at h
        cases h
      obtain ⟨y, y1, y2, y3⟩ := RSing.reported_sound ht _ geev hl
      rw [h] at y1
      injection y1 with y1
      rw [y1]
      exact ⟨y2, y3⟩
  · rw [h3, hic, hB, hp]


omit hv hd in
theorem leibniz {g h g' h' : Nat → ℝ} (hg : ∀ k < n, g k = g' k) (hh : ∀ k < n, h k = h' k) {j : Nat} (hj : j < n)
    (hp : Product n (tables r d).D g' h' j) : R2.Leibniz d.inp g h j := by
  unfold R2.Leibniz
  rw [F.der, apply_congr (g := fun k => g k * h k) (g' := fun k => g' k * h' k) _ (fun k hk => by rw [hg k hk, hh k hk]),
    apply_congr _ hg, apply_congr _ hh, hg j hj, hh j hj]
  exact hp

omit hv hd in
theorem smooth_sigma {j : Nat} (hj : j < n) (h : Exact q n (tables r d) j) :
    R2.Smooth d.inp j ∧ R2.SigmaHolds d.inp j := by
  have hi1 : d.inp.r1 = r.r1 := by rw [F.inp]; rfl
  have hi2 : d.inp.st = r.st := by rw [F.inp]; rfl
  have hic : d.inp.cfg = r.cfg := by rw [F.inp]; rfl
  have hG : r.cfg.G0 = q.sG * q.B0 * perAngle q n := by
    have := congrArg Pt.G0 (F.pt F.hn)
    change d.inp.cfg.G0 = _ at this
    rw [hic] at this
    exact this
  constructor
  · constructor <;> rw [hi1]
    · exact leibniz F F.X1c F.X1c hj h.xx
    · exact leibniz F F.Y1s F.Y1s hj h.ss
    · exact leibniz F F.Y1c F.Y1c hj h.cc
    · exact leibniz F F.Y1s F.Y1c hj h.sc
    · rw [hi2]; exact leibniz F F.Y1s (fun _ _ => rfl) hj h.product
  · have e := h.sigma
    unfold R2.SigmaHolds
    unfold Spec.R1.sigmaEq at e ⊢
    beta_reduce at e
    rw [F.nphi, F.dDvarphi, hi1, hi2, hic, F.kap j hj, F.tau j hj, hG]
    have c1 : r.cfg.spsi = q.spsi ∧ r.cfg.B0 = q.B0 ∧ r.cfg.etaBar = q.eta_bar ∧ r.cfg.I2 = q.I2 := by
      rw [F.cfg]; exact ⟨rfl, rfl, rfl, rfl⟩
    rw [c1.1, c1.2.1, c1.2.2.1, c1.2.2.2]
    exact e

omit hv hd in
theorem solved {gesv : Nat → (Nat → Nat → ℝ) → (Nat → ℝ) → Option (Nat → ℝ)}
    (hx : gesv (2 * d.inp.cfg.nphi) (R2.matrix d.inp fun _ _ => 0) (R2.rhs d.inp) = some x)
    (he : ∀ n m b x, gesv n m b = some x → ∀ a < n, ∑ c ∈ Finset.range n, m a c * x c = b a) :
    ∀ j < n, Solvable (point q n (tables r d) j) (coefs q n (tables r d) j) (dcoefs q n (tables r d) j) ∧
      (Exact q n (tables r d) j → Agree q n (tables r d) j) := by
  intro j hj
  have hs : R2.Solves d.inp (R2.matrix d.inp fun _ _ => 0) x := he _ _ _ _ hx
  have hj' : j < d.inp.cfg.nphi := by rw [F.nphi]; exact hj
  constructor
  · have := (R2.system_iff F.ready.toOk _ x).1 hs j hj'
    rwa [← F.fin, F.coef hj, F.dcoef, F.pt hj] at this
  · intro hex
    obtain ⟨sm, sg⟩ := smooth_sigma F hj hex
    obtain ⟨s1, c1, s3, c3, h⟩ := R2.field_agrees F.ready.toOk rfl hs hj' sg sm
    refine ⟨s1, c1, s3, c3, fun c e hc he a1 a2 a3 a4 θ => ?_⟩
    have := h c e (by rw [← F.fin, F.coef hj]; exact same_lower hc) (by rw [← F.fin, F.dcoef]; exact same_lower he)
      a1 a2 a3 a4 θ
    rwa [← F.fin, F.pt hj] at this

theorem third_in_file (h3 : d.third = some (R2.r2p1 realOps d.inp d.r2)) (hz : ord.r2p1 = true) :
    ThirdVars f q n (tables r d) := by
  have hi1 : d.inp.r1 = r.r1 := by rw [F.inp]; rfl
  have S : ∀ k {a v w}, (scalars3 (R2.r2p1 realOps d.inp d.r2))[k]? = some (a, v) → v = w → Scalar f a w :=
    fun k _ _ _ hm e => e ▸ hv.s3 d _ hd h3 _ (List.mem_of_getElem? hm)
  have P : ∀ (k : Nat) {a : String} {v w : Nat → ℝ}, (profiles3 d.inp (R2.r2p1 realOps d.inp d.r2))[k]? = some (a, v) → (∀ j < n, v j = w j) →
      Profile f a n w := fun k _ _ _ hm e => profile_congr (hv.p3 d _ hd h3 _ (List.mem_of_getElem? hm)) e
  have e1 : ∀ {g h : Nat → ℝ}, (∀ j < n, g j = h j) → ∀ j, matVec d.inp.cfg.nphi d.inp.cfg.dDvarphi g j =
    apply n (tables r d).D h j := fun e j => by rw [F.der_profile]; exact apply_congr _ e j
  have e2 : ∀ {g h : Nat → ℝ}, (∀ j < n, g j = h j) → ∀ j, matVec d.inp.cfg.nphi d.inp.cfg.dDvarphi
    (matVec d.inp.cfg.nphi d.inp.cfg.dDvarphi g) j = apply n (tables r d).D (apply n (tables r d).D h) j :=
    fun e j => e1 (fun k _ => e1 e k) j
  have x1 : ∀ j < n, (R2.r2p1 realOps d.inp d.r2).X3c1 j = X1c q n j * (R2.r2p1 realOps d.inp d.r2).lambda j := by
    intro j hj; rw [← F.X1c j hj, ← hi1]; rfl
  have x2 : ∀ j < n, (R2.r2p1 realOps d.inp d.r2).Y3s1 j = Y1s q n j * (R2.r2p1 realOps d.inp d.r2).lambda j := by
    intro j hj; rw [← F.Y1s j hj, ← hi1]; rfl
  have x3 : ∀ j < n, (R2.r2p1 realOps d.inp d.r2).Y3c1 j =
      Y1c q n (tables r d) j * (R2.r2p1 realOps d.inp d.r2).lambda j := by
    intro j hj; rw [← F.Y1c j hj, ← hi1]; rfl
  have hmax := R2.grid_maxima_third d.inp d.r2 (by rw [F.nphi]; exact F.hn)
  rw [F.nphi, F.der] at hmax
  have lg : ∀ {m : ℝ} {g : (Nat → ℝ) → Nat → ℝ}, (∀ {u v : Nat → ℝ}, (∀ j < n, u j = v j) → ∀ j < n, g u j = g v j) →
      R2.IsAbsMax n m ([(R2.r2p1 realOps d.inp d.r2).X3c1, (R2.r2p1 realOps d.inp d.r2).Y3c1,
        (R2.r2p1 realOps d.inp d.r2).Y3s1].map g) →
      IsLargest n [("X3c1", fun j => X1c q n j * (R2.r2p1 realOps d.inp d.r2).lambda j),
        ("Y3s1", fun j => Y1s q n j * (R2.r2p1 realOps d.inp d.r2).lambda j),
        ("Y3c1", fun j => Y1c q n (tables r d) j * (R2.r2p1 realOps d.inp d.r2).lambda j)] g m := by
    intro m g hg h
    obtain ⟨h1, fn, h2, j, hj, h3⟩ := h
    have k1 : ∀ j < n, _ := hg x1
    have k2 : ∀ j < n, _ := hg x2
    have k3 : ∀ j < n, _ := hg x3
    constructor
    · simp only [List.map_cons, List.map_nil, List.mem_cons, List.not_mem_nil, or_false] at h2
      rcases h2 with rfl | rfl | rfl
      · exact ⟨_, by simp; left; rfl, j, hj, by rw [h3, k1 j hj]⟩
      · exact ⟨_, by simp; right; right; rfl, j, hj, by rw [h3, k3 j hj]⟩
      · exact ⟨_, by simp; right; left; rfl, j, hj, by rw [h3, k2 j hj]⟩
    · rintro y ⟨p, hp, j, hj, rfl⟩
      simp only [List.mem_cons, List.not_mem_nil, or_false] at hp
      rcases hp with rfl | rfl | rfl
      · rw [← k1 j hj]; exact h1 _ (by simp) j hj
      · rw [← k2 j hj]; exact h1 _ (by simp) j hj
      · rw [← k3 j hj]; exact h1 _ (by simp) j hj
  have zero : ∀ j, apply n (tables r d).D (fun _ => (0 : ℝ)) j = 0 := fun j => by simp [apply]
  have zero2 : ∀ j, apply n (tables r d).D (apply n (tables r d).D fun _ => (0 : ℝ)) j = 0 := fun j => by simp [apply]
  have hz' := hv.zeros hz
  refine ⟨⟨(R2.r2p1 realOps d.inp d.r2).lambda, P 0 rfl fun _ _ => rfl, ?_, ?_, ?_, ?_, ?_⟩, ?_, ?_⟩
  · intro p hp
    simp only [List.mem_cons, List.not_mem_nil, or_false] at hp
    rcases hp with rfl | rfl | rfl
    · exact ⟨P 1 rfl x1, P 4 rfl fun j _ => e1 x1 j, P 7 rfl fun j _ => e2 x1 j⟩
    · exact ⟨P 3 rfl x2, P 6 rfl fun j _ => e1 x2 j, P 9 rfl fun j _ => e2 x2 j⟩
    · exact ⟨P 2 rfl x3, P 5 rfl fun j _ => e1 x3 j, P 8 rfl fun j _ => e2 x3 j⟩
  · intro j hj hex c e hc he a1 a2
    obtain ⟨sm, sg⟩ := smooth_sigma F hj hex
    have := R2.third_order F.ready.toOk x (j := j) (by rw [F.nphi]; exact hj) sg sm c e
      (by rw [← F.fin, F.coef hj]; exact same_lower hc) (by rw [← F.fin, F.dcoef]; exact same_lower he)
      (by rw [← F.fin, x1 j hj]; exact a1) (by rw [← F.fin, x2 j hj]; exact a2)
    rwa [← F.fin, F.pt hj] at this
  · exact ⟨_, S 0 rfl rfl, lg (fun h => h) (by simpa using hmax.1)⟩
  · exact ⟨_, S 1 rfl rfl, lg (fun h j _ => apply_congr _ h j) hmax.2.1⟩
  · exact ⟨_, S 2 rfl rfl, lg (fun h j _ => apply_congr _ (fun k _ => apply_congr _ h k) j) hmax.2.2⟩
  · intro a ha
    simp only [List.mem_cons, List.not_mem_nil, or_false] at ha
    rcases ha with rfl | rfl | rfl | rfl | rfl <;>
      exact ⟨hz' _ (by simp [untouchedNames]), profile_congr (hz' _ (by simp [untouchedNames])) fun j _ => (zero j).symm,
        profile_congr (hz' _ (by simp [untouchedNames])) fun j _ => (zero2 j).symm⟩
  · intro a ha
    simp only [List.mem_cons, List.not_mem_nil, or_false] at ha
    rcases ha with rfl | rfl | rfl | rfl <;> exact hz' _ (by simp [untouchedNames])

end

theorem tol_sc (L : Lib ℝ) : 0 ≤ (tol L).sc := by
  unfold tol
  split <;> norm_num [RSing.tolSingle, RSing.tolDouble]

theorem tol_res (L : Lib ℝ) : (tol L).res = if L.single then 3 / 10 ^ 3 else 1 / 10 ^ 5 := by
  unfold tol
  split <;> rfl

/-- **C84.** The second-order solution in the output file: with the axis and the settings of the input file, the
numbers of the output file describe a position near the axis for which the field strength, the pressure and the
tangential component are right up to the order calculated; the tensors are the derivatives of that field; averages,
extrema, Mercier's criterion and the radius of singularity are those of these numbers. -/
theorem output_second {L : Lib ℝ} (ho : L.ops = realOps) (hl : Literals L.lit) {m0 : Mem ℝ} {path : List Char}
    {file : Sections.File ℝ} (hf : Spec.Sections.WellFormed file) {name : List Char} {r : Result ℝ} {f : Netcdf.File ℝ}
    (h : run L m0 path file = .ok (name, r, f)) {q : QscIn ℝ} (hq : Input L.single file q) {n : Nat} (hn : Points q n)
    (h2 : q.order_r_option ≠ "r1")
    (hR : ∀ j < n, axisR q (grid q n j) ≠ 0) (hk : ∀ j < n, Spec.Axis.curvature (axis q) (grid q n j) ≠ 0)
    (he : q.eta_bar ≠ 0) (hB : q.B0 ≠ 0) (hG : q.sG = 1 ∨ q.sG = -1) (hpsi : q.spsi = 1 ∨ q.spsi = -1) :
    ∃ t, SecondVars f q n t ∧ MercierVars f q n t ∧ TensorVars f q n t ∧
      SingularVars f q n t (if L.single then 3 / 10 ^ 3 else 1 / 10 ^ 5) ∧
      (q.order_r_option = "r2.1" → ThirdVars f q n t) ∧
      ((∀ n m b x, L.gesv n m b = some x → ∀ a < n, ∑ c ∈ Finset.range n, m a c * x c = b a) →
        ∀ j < n, Solvable (point q n t j) (coefs q n t j) (dcoefs q n t j) ∧
          (Exact q n t j → Agree q n t j)) := by
  obtain ⟨ord, M, rfl, k2, k4, k5, k6, k7, k8⟩ := ended_with ho hl hf h hq hn
  have hord : ord.atLeastR2 = true := by
    rcases (validate_ok k5).2 with ⟨e, -⟩ | ⟨-, rfl⟩ | ⟨-, rfl⟩
    · exact absurd e h2
    · rfl
    · rfl
  obtain ⟨c1, c2, c3⟩ := calculate_first ho k8
  obtain ⟨d, x, d1, d2, d3, d4, d5, d6, d7⟩ := calculate_second ho k8 hord
  have F := facts k2.2.2.1 k4 k7 c1 c3 d2 d4 hR hk he hB hG hpsi
  refine ⟨tables r d, second_in_file F k6 d1, mercier_in_file F k6 d1 d6, tensor_in_file F k6 d1, ?_, ?_, solved F d3⟩
  · rw [← tol_res]
    exact singular_in_file F k6 d1 (tol_sc L) d7
  · intro h3
    have hord3 : ord.r2p1 = true := by
      rcases (validate_ok k5).2 with ⟨e, -⟩ | ⟨e, -⟩ | ⟨-, rfl⟩
      · exact absurd (e.symm.trans h3) (by decide)
      · exact absurd (e.symm.trans h3) (by decide)
      · rfl
    rw [if_pos hord3] at d5
    exact third_in_file F k6 d1 d5 hord3

/-- The numbers are determined by the file. -/
theorem tables_unique {L : Lib ℝ} (ho : L.ops = realOps) (hl : Literals L.lit) {m0 : Mem ℝ} {path : List Char}
    {file : Sections.File ℝ} (hf : Spec.Sections.WellFormed file) {name : List Char} {r : Result ℝ} {f : Netcdf.File ℝ}
    (h : run L m0 path file = .ok (name, r, f)) {a : String} {n : Nat} {v w : Nat → ℝ} (h1 : Profile f a n v)
    (h2 : Profile f a n w) : ∀ j < n, v j = w j := by
  obtain ⟨l, a1, -, a3⟩ := h1
  obtain ⟨l', b1, -, b3⟩ := h2
  have := (output_unique ho hl hf h a1 b1).2
  injection this with this
  subst this
  intro j hj
  exact Option.some.inj ((a3 j hj).symm.trans (b3 j hj))

/-- All hypotheses are met by a run of the example. -/
example (m0 : Mem ℝ) : ∃ r f, run exLib m0 "dir/qsc_in.torus".toList (exFile "r2.1" 20) =
    .ok ("dir/qsc_out.torus.nc".toList, r, f) ∧ ∃ t, SecondVars f (exInput "r2.1" 20) 21 t ∧
      MercierVars f (exInput "r2.1" 20) 21 t ∧ TensorVars f (exInput "r2.1" 20) 21 t ∧
      ThirdVars f (exInput "r2.1" 20) 21 t := by
  obtain ⟨r, f, h⟩ := ex_run m0
  obtain ⟨t, t1, t2, t3, -, t5, -⟩ := output_second rfl exLiterals (exWellFormed _ _) h (ex_input _ _)
    (Or.inr ⟨rfl, rfl⟩) (by simp [exInput])
    (fun j _ => ex_R_ne _ _ _) (fun j _ => ex_curved _ _ _) (by simp [exInput]) (by simp [exInput, defaults])
    (by simp [exInput, defaults]) (by simp [exInput, defaults])
  exact ⟨r, f, h, t, t1, t2, t3, t5 rfl⟩

open Classical in
/-- A library with an exact linear solver, which fails if there is no solution. -/
noncomputable def exactLib : Lib ℝ :=
  { exLib with
    gesv := fun n m b => if h : ∃ x : Nat → ℝ, ∀ a < n, ∑ c ∈ Finset.range n, m a c * x c = b a then some h.choose
      else none }

theorem exact_lib (n : Nat) (m : Nat → Nat → ℝ) (b x : Nat → ℝ) (h : exactLib.gesv n m b = some x) :
    ∀ a < n, ∑ c ∈ Finset.range n, m a c * x c = b a := by
  unfold exactLib at h
  dsimp only at h
  split at h
  · rename_i hx
    injection h with h
    subst h
    exact hx.choose_spec
  · cases h

/-- With the exact solver, the run of the example has a solution or ends with the exception of the solver. -/
example (m0 : Mem ℝ) : (∃ r f t, run exactLib m0 "dir/qsc_in.torus".toList (exFile "r2" 20) =
    .ok ("dir/qsc_out.torus.nc".toList, r, f) ∧ t.In f 21 ∧ ∀ j < 21, Solvable (point (exInput "r2" 20) 21 t j)
      (coefs (exInput "r2" 20) 21 t j) (dcoefs (exInput "r2" 20) 21 t j)) ∨
    run exactLib m0 "dir/qsc_in.torus".toList (exFile "r2" 20) = .error (.throw "LAPACK error in *gesv") := by
  have hl : Literals exactLib.lit := exLiterals
  have hi : Input exactLib.single (exFile "r2" 20) (exInput "r2" 20) := ex_input _ _
  rcases ends (L := exactLib) rfl hl m0 ex_path (exWellFormed _ _) hi (by simp [Sound, exInput]) with
    ⟨r, f, h⟩ | ⟨h, -⟩ | ⟨-, m, h⟩
  · obtain ⟨t, t1, -, -, -, -, t6⟩ := output_second rfl hl (exWellFormed _ _) h hi
      (Or.inr ⟨rfl, rfl⟩) (by simp [exInput])
      (fun j _ => ex_R_ne _ _ _) (fun j _ => ex_curved _ _ _) (by simp [exInput]) (by simp [exInput, defaults])
      (by simp [exInput, defaults]) (by simp [exInput, defaults])
    exact Or.inl ⟨r, f, t, h, t1.tables, fun j hj => (t6 exact_lib j hj).1⟩
  · exact Or.inr h
  · cases h

end Qsc.Single
