import Verif.Lemmas.ScalingGrad
import Verif.Spec.Scaling
import Verif.Props.SingleSecond

/-!
# Lemmas on changes of units: the results and the file of a run
-/

namespace Qsc.Scaling
open Qsc.Netcdf Qsc.Single Qsc.Toml Qsc.Spec.Single Qsc.Spec.Scaling

/-- The input in the other units, as the calculation uses it. -/
structure InputRel (a b : ℝ) (q q' : QscIn ℝ) : Prop where
  coeffs : coeffs q' = ⟨(coeffs q).nfp, (coeffs q).R0c.map (a * ·), (coeffs q).R0s.map (a * ·),
    (coeffs q).Z0c.map (a * ·), (coeffs q).Z0s.map (a * ·)⟩
  nfp : q'.nfp = q.nfp
  sG : q'.sG = q.sG
  spsi : q'.spsi = q.spsi
  B0 : q'.B0 = b * q.B0
  etaBar : q'.eta_bar = a⁻¹ * q.eta_bar
  sigma0 : q'.sigma0 = q.sigma0
  I2 : q'.I2 = b * a⁻¹ * q.I2
  p2 : q'.p2 = b * b * (a⁻¹ * a⁻¹) * q.p2
  B2s : q'.B2s = b * (a⁻¹ * a⁻¹) * q.B2s
  B2c : q'.B2c = b * (a⁻¹ * a⁻¹) * q.B2c
  tol : q'.newton_tolerance = q.newton_tolerance
  N : q'.max_newton_iterations = q.max_newton_iterations
  M : q'.max_linesearch_iterations = q.max_linesearch_iterations
  nphi : q'.nphi = q.nphi
  order : q'.order_r_option = q.order_r_option

theorem inputRel {a b : ℝ} {q q' : QscIn ℝ} (h : InUnits a b q q') : InputRel a b q q' := by
  have hp : (b / a) ^ 2 = b * b * (a⁻¹ * a⁻¹) := by rw [div_eq_mul_inv]; ring
  have hB : b / a ^ 2 = b * (a⁻¹ * a⁻¹) := by rw [div_eq_mul_inv, pow_two, mul_inv]
  unfold InUnits at h
  generalize q'.verbose = w at h
  subst h
  exact ⟨rfl, rfl, rfl, rfl, rfl, div_eq_inv_mul _ _, rfl, by rw [← div_eq_mul_inv], by rw [← hp], by rw [← hB],
    by rw [← hB], rfl, rfl, rfl, rfl, rfl⟩

/-- The results beyond first order in the other units. -/
structure SecondRel (a b : ℝ) (d d' : Second ℝ) : Prop where
  inp : d'.inp = scaleIn a b d.inp
  r2 : d'.r2 = scaleR2 a b d.r2
  third : d'.third = d.third.map (scaleR2p1 a)
  merc : d'.merc = scaleMerc a b d.merc
  sing : a = 1 → d'.sing = d.sing

/-- The results in the other units. -/
structure Rel (a b : ℝ) (r r' : Result ℝ) : Prop where
  axis : r'.axis = scaleAxis a b r.axis
  newton : r'.newton = r.newton
  cfg : r'.cfg = scaleCfg a b r.cfg
  st : r'.st = r.st
  r1 : r'.r1 = r.r1

theorem ofAxis_scale {a b : ℝ} (x : Axis.Axis ℝ) {q q' : QscIn ℝ} (h : InputRel a b q q') (n : Nat) :
    R1.Cfg.ofAxis (scaleAxis a b x) n q'.nfp.toNat q'.sG q'.spsi q'.eta_bar q'.sigma0 q'.I2 q'.B0
      = scaleCfg a b (R1.Cfg.ofAxis x n q.nfp.toNat q.sG q.spsi q.eta_bar q.sigma0 q.I2 q.B0) := by
  simp only [R1.Cfg.ofAxis, scaleCfg, scaleAxis, scaleLocal, h.nfp, h.sG, h.spsi, h.etaBar, h.sigma0, h.I2, h.B0]

theorem of_scale {a b : ℝ} (x : Axis.Axis ℝ) {q q' : QscIn ℝ} (h : InputRel a b q q') (p : R1.Cfg ℝ) (st : R1.Stored ℝ)
    (r : R1.R1 ℝ) :
    R2.In.of (scaleAxis a b x) (scaleCfg a b p) st r (mu0 realOps) q'.p2 q'.B2s q'.B2c
      = scaleIn a b (R2.In.of x p st r (mu0 realOps) q.p2 q.B2s q.B2c) := by
  simp only [R2.In.of, scaleIn, scaleAxis, h.p2, h.B2s, h.B2c]

theorem axis_rel {a b : ℝ} (ha : 0 < a) {q q' : QscIn ℝ} (h : InputRel a b q q') (hc : (coeffs q).WellSized) {M : Nat}
    {x : Axis.Axis ℝ} (hx : Axis.initAxis realOps (coeffs q) (2 * M + 1) q.sG q.spsi q.B0 = .ok x) :
    Axis.initAxis realOps (coeffs q') (2 * M + 1) q'.sG q'.spsi q'.B0 = .ok (scaleAxis a b x) := by
  rw [h.coeffs, h.sG, h.spsi, h.B0]
  exact initAxis_scale ha b hc M _ _ _ hx

theorem first_rel {a b : ℝ} (ha : 0 < a) (hb : 0 < b) {L : Lib ℝ} (ho : L.ops = realOps) {q q' : QscIn ℝ}
    (h : InputRel a b q q') (hc : (coeffs q).WellSized) {M : Nat} {ord : Setup.Order} {r r' : Result ℝ}
    (hr : calculate L q (2 * M + 1) ord = .ok r) (hr' : calculate L q' (2 * M + 1) ord = .ok r') : Rel a b r r' := by
  have e := axis_rel ha h hc (calculate_axis ho hr)
  rw [calculate_axis ho hr'] at e
  injection e with e
  obtain ⟨c1, c2, c3⟩ := calculate_first ho hr
  obtain ⟨c1', c2', c3'⟩ := calculate_first ho hr'
  rw [e, ofAxis_scale _ h, ← c1] at c1'
  rw [c1', solveSigma_scale ha hb, h.tol, h.N, h.M, c2] at c2'
  injection c2' with e1 e2
  injection e2 with e2
  rw [c1', diagnostics_scale ha, ← e2, ← c3] at c3'
  exact ⟨e, e1.symm, c1', e2.symm, c3'⟩

/-- What is asked of the linear solver of second order. -/
def SolverOk (a : ℝ) (L : Lib ℝ) : Prop := a = 1 ∨ Homogeneous L.gesv

theorem SolverOk.solve {a : ℝ} (ha : 0 < a) {L : Lib ℝ} (h : SolverOk a L) {n : Nat} {m : Nat → Nat → ℝ}
    {y x : Nat → ℝ} (hs : L.gesv n m y = some x) : L.gesv n m (fun j => a⁻¹ * y j) = some fun j => a⁻¹ * x j := by
  rcases h with rfl | h
  · simpa using hs
  · exact h _ (inv_pos.2 ha) _ _ _ _ hs

theorem second_rel {a b : ℝ} (ha : 0 < a) (hb : 0 < b) {L : Lib ℝ} (ho : L.ops = realOps) {q q' : QscIn ℝ}
    (h : InputRel a b q q') (hc : (coeffs q).WellSized) (hs : SolverOk a L) {M : Nat} {ord : Setup.Order} {r r' : Result ℝ}
    (hr : calculate L q (2 * M + 1) ord = .ok r) (hr' : calculate L q' (2 * M + 1) ord = .ok r')
    (h2 : ord.atLeastR2 = true) :
    ∃ d d', r.second = some d ∧ r'.second = some d' ∧ SecondRel a b d d' ∧ (d.third.isSome = ord.r2p1) := by
  have R := first_rel ha hb ho h hc hr hr'
  obtain ⟨d, x, k1, k2, k3, k4, k5, k6, k7⟩ := calculate_second ho hr h2
  obtain ⟨d', x', k1', k2', k3', k4', k5', k6', k7'⟩ := calculate_second ho hr' h2
  rw [R.axis, R.cfg, R.st, R.r1, of_scale _ h, ← k2] at k2'
  rw [k2', matrix_scale ha hb, rhs_scale ha hb] at k3'
  have e := (hs.solve ha k3).symm.trans k3'
  injection e with e
  rw [k2', ← e, finish_scale ha hb, ← k4] at k4'
  refine ⟨d, d', k1, k1', ⟨k2', k4', ?_, ?_, ?_⟩, ?_⟩
  · rw [k5', k2', k4', r2p1_scale ha hb, k5]
    cases ord.r2p1 <;> rfl
  · rw [k6', k2', k4', R.axis, k6]
    exact mercier_scale ha hb _ _ _ _
  · rintro rfl
    rw [k2', k4', sing_scale hb, k7] at k7'
    injection k7' with k7'
    exact k7'.symm
  · rw [k5]
    cases ord.r2p1 <;> rfl

/-- The calculation ends in the other units too. -/
theorem calculate_rel {a b : ℝ} (ha : 0 < a) (hb : 0 < b) {L : Lib ℝ} (ho : L.ops = realOps) {q q' : QscIn ℝ}
    (h : InputRel a b q q') (hc : (coeffs q).WellSized) {M : Nat} {ord : Setup.Order} {r : Result ℝ}
    (hr : calculate L q (2 * M + 1) ord = .ok r)
    (hs : ord.atLeastR2 = true → a = 1 ∨ Homogeneous L.gesv ∧ ∀ m, L.geev m ≠ none) :
    ∃ r', calculate L q' (2 * M + 1) ord = .ok r' := by
  have hx := calculate_axis ho hr
  obtain ⟨c1, c2, c3⟩ := calculate_first ho hr
  have ht : newtonThrows L r.cfg q.newton_tolerance q.max_newton_iterations q.max_linesearch_iterations = false := by
    have hr' := hr
    rw [calculate, ho, hx] at hr'
    dsimp only at hr'
    rw [← c1] at hr'
    cases hh : newtonThrows L r.cfg q.newton_tolerance q.max_newton_iterations q.max_linesearch_iterations with
    | false => rfl
    | true => rw [hh, if_pos rfl] at hr'; cases hr'
  rw [calculate, ho, axis_rel ha h hc hx]
  dsimp only
  rw [ofAxis_scale _ h, ← c1, newtonThrows_scale ha hb ho, h.tol, h.N, h.M, ht, if_neg (by simp), solveSigma_scale ha hb, c2]
  dsimp only
  cases h2 : ord.atLeastR2 with
  | false => exact ⟨_, rfl⟩
  | true =>
    rw [if_pos rfl, diagnostics_scale ha, ← c3, of_scale _ h]
    obtain ⟨d, x, k1, k2, k3, k4, k5, k6, k7⟩ := calculate_second ho hr h2
    have hso : SolverOk a L := (hs h2).imp_right fun h => h.1
    have hd : ∃ d', second L (scaleIn a b d.inp) (scaleAxis a b r.axis) ord.r2p1 = .ok d' := by
      unfold second
      rw [matrix_scale ha hb, rhs_scale ha hb]
      have hg : L.gesv (2 * (scaleIn a b d.inp).cfg.nphi) (R2.matrix d.inp fun _ _ => 0) (fun j => a⁻¹ * R2.rhs d.inp j)
        = some fun j => a⁻¹ * x j := hso.solve ha k3
      rw [hg]
      dsimp only
      rw [ho, finish_scale ha hb, ← k4]
      rcases hs h2 with rfl | ⟨-, hg⟩
      · rw [sing_scale hb]
        have k7' : RSing.calculate realOps (if L.single then RSing.tolSingle else RSing.tolDouble) L.geev d.inp d.r2
          = .ok d.sing := k7
        rw [k7']
        exact ⟨_, rfl⟩
      · cases hcal : RSing.calculate realOps (if L.single then RSing.tolSingle else RSing.tolDouble) L.geev
            (scaleIn a b d.inp) (scaleR2 a b d.r2) with
        | ok s => exact ⟨_, rfl⟩
        | error e =>
          obtain ⟨-, m, hm⟩ := RSing.calculate_error (tol_nonneg _) hcal
          exact absurd hm (hg m)
    obtain ⟨d', hd'⟩ := hd
    rw [← k2, hd']
    exact ⟨_, rfl⟩

/-! ## The file -/

section
variable {f f' : File ℝ}

theorem mult_scalar {v : String} {x c : ℝ} (h : Scalar f v x) (h' : Scalar f' v (c * x)) : Multiplied f f' c v :=
  ⟨[], [x], h, h'⟩

theorem mult_list {c : ℝ} {l l' : List ℝ} (hl : l.length = l'.length)
    (h : ∀ t < l.length, ∃ x, l[t]? = some x ∧ l'[t]? = some (c * x)) : l' = l.map (c * ·) := by
  apply List.ext_getElem?
  intro t
  by_cases ht : t < l.length
  · obtain ⟨x, h1, h2⟩ := h t ht
    rw [h2, List.getElem?_map, h1]; rfl
  · rw [List.getElem?_eq_none (by omega), List.getElem?_eq_none (by rw [List.length_map]; omega)]

theorem mult_profile {v : String} {n : Nat} {x : Nat → ℝ} {c : ℝ} (h : Profile f v n x)
    (h' : Profile f' v n fun j => c * x j) : Multiplied f f' c v := by
  obtain ⟨l, h1, h2, h3⟩ := h
  obtain ⟨l', h1', h2', h3'⟩ := h'
  have := mult_list (c := c) (h2.trans h2'.symm) fun t ht => ⟨x t, h3 t (by omega), h3' t (by omega)⟩
  subst this
  exact ⟨_, _, h1, h1'⟩

theorem mult_square {v : String} {n : Nat} {x : Nat → Nat → ℝ} {c : ℝ} (h : Square f v n x)
    (h' : Square f' v n fun j k => c * x j k) : Multiplied f f' c v := by
  obtain ⟨l, h1, h2, h3⟩ := h
  obtain ⟨l', h1', h2', h3'⟩ := h'
  have := mult_list (c := c) (h2.trans h2'.symm) fun t ht => by
    rw [h2] at ht
    have hn : 0 < n := Nat.pos_of_ne_zero fun e => by simp [e] at ht
    have a1 : t % n < n := Nat.mod_lt _ hn
    have a2 : t / n < n := Nat.div_lt_of_lt_mul ht
    have e := h3 _ _ a1 a2
    have e' := h3' _ _ a1 a2
    rw [Nat.mod_add_div] at e e'
    exact ⟨_, e, e'⟩
  subst this
  exact ⟨_, _, h1, h1'⟩

theorem mult_tensor {v : String} {n : Nat} {x : Nat → Nat → Nat → ℝ} {c : ℝ} (h : Tensor f v n x)
    (h' : Tensor f' v n fun j b d => c * x j b d) : Multiplied f f' c v := by
  obtain ⟨l, h1, h2, h3⟩ := h
  obtain ⟨l', h1', h2', h3'⟩ := h'
  have := mult_list (c := c) (h2.trans h2'.symm) fun t ht => by
    rw [h2] at ht
    have hn : 0 < n := Nat.pos_of_ne_zero fun e => by simp [e] at ht
    have a1 : t % n < n := Nat.mod_lt _ hn
    have a2 : t / n < 9 := Nat.div_lt_of_lt_mul ht
    have e := h3 (t % n) (t / n % 3) (t / n / 3) a1 (by omega) (by omega)
    have e' := h3' (t % n) (t / n % 3) (t / n / 3) a1 (by omega) (by omega)
    rw [Nat.mod_add_div, Nat.mod_add_div] at e e'
    exact ⟨_, e, e'⟩
  subst this
  exact ⟨_, _, h1, h1'⟩

theorem mult_tensor3 {v : String} {n : Nat} {x : Nat → Nat → Nat → Nat → ℝ} {c : ℝ} (h : Tensor3 f v n x)
    (h' : Tensor3 f' v n fun j b d e => c * x j b d e) : Multiplied f f' c v := by
  obtain ⟨l, h1, h2, h3⟩ := h
  obtain ⟨l', h1', h2', h3'⟩ := h'
  have := mult_list (c := c) (h2.trans h2'.symm) fun t ht => by
    rw [h2] at ht
    have hn : 0 < n := Nat.pos_of_ne_zero fun e => by simp [e] at ht
    have a1 : t % n < n := Nat.mod_lt _ hn
    have a2 : t / n < 27 := Nat.div_lt_of_lt_mul ht
    have e := h3 (t % n) (t / n % 3) (t / n / 3 % 3) (t / n / 3 / 3) a1 (by omega) (by omega) (by omega)
    have e' := h3' (t % n) (t / n % 3) (t / n / 3 % 3) (t / n / 3 / 3) a1 (by omega) (by omega) (by omega)
    rw [Nat.mod_add_div, Nat.mod_add_div, Nat.mod_add_div] at e e'
    exact ⟨_, e, e'⟩
  subst this
  exact ⟨_, _, h1, h1'⟩

theorem mult_coefs {v : String} {l : List ℝ} {c : ℝ} (h : Coefs f v l) (h' : Coefs f' v (l.map (c * ·))) :
    Multiplied f f' c v := ⟨_, l, h, by unfold Coefs at h'; rwa [List.length_map] at h'⟩

end

end Qsc.Scaling
