import Verif.Lemmas.GradGradB
import Verif.Lemmas.NearAxis
import Verif.Spec.GradGradB
import Mathlib.Analysis.SpecialFunctions.Trigonometric.Basic

/-!
# The field expanded in the distance from the axis, compared with its Taylor polynomial
-/

namespace Qsc.GradGradB

open Qsc.Spec.NearAxis Real

/-- The values at a grid point are those of an expansion. -/
structure Match (a : At ℝ) (eta : ℝ) (e : Pt) (c d : Coef) : Prop where
  kappa : e.kappa = a.kap
  tau : e.tau = a.tor
  l : e.l = a.lp
  iotaN : e.iotaN = a.iotaN
  B0 : e.B0 = a.B0
  eta : e.etaBar = eta
  B20 : e.B20 = a.B20
  B2s : e.B2s = a.B2s
  B2c : e.B2c = a.B2c
  G0 : e.G0 = a.G0
  G2 : e.G2 + e.iotaN * e.I2 = a.G2 + a.iota * a.I2
  X1c : c.X1c = a.X1c
  Y1s : c.Y1s = a.Y1s
  Y1c : c.Y1c = a.Y1c
  X20 : c.X20 = a.X20
  X2s : c.X2s = a.X2s
  X2c : c.X2c = a.X2c
  Y20 : c.Y20 = a.Y20
  Y2s : c.Y2s = a.Y2s
  Y2c : c.Y2c = a.Y2c
  Z2s : c.Z2s = a.Z2s
  Z2c : c.Z2c = a.Z2c
  dX1c : d.X1c = a.dX1c
  dY1s : d.Y1s = a.dY1s
  dY1c : d.Y1c = a.dY1c
  dX20 : d.X20 = a.dX20
  dX2s : d.X2s = a.dX2s
  dX2c : d.X2c = a.dX2c
  dY20 : d.Y20 = a.dY20
  dY2s : d.Y2s = a.dY2s
  dY2c : d.Y2c = a.dY2c
  dZ20 : d.Z20 = a.dZ20
  dZ2s : d.Z2s = a.dZ2s
  dZ2c : d.Z2c = a.dZ2c

section
variable (e : Pt) (c d : Coef) (θ : ℝ)

noncomputable def b1 : ℝ := e.B0 * e.etaBar * cos θ
noncomputable def b2 : ℝ := e.B20 + e.B2s * sin (2 * θ) + e.B2c * cos (2 * θ)

theorem B_j : HasJet (fun r => B e r θ) e.B0 (b1 e θ) (b2 e θ) :=
  HasJet.mk (q := fun _ => 0) continuous_const fun r _ => by unfold B b1 b2; ring

theorem Bsq_j : HasJet (fun r => B e r θ ^ 2) (e.B0 * e.B0) (2 * e.B0 * b1 e θ)
    (2 * e.B0 * b2 e θ + b1 e θ * b1 e θ) := by
  refine (((B_j e θ).mul (B_j e θ)).of_eq fun r _ => by ring).congr rfl (by ring) (by ring)

theorem GI_j : HasJet (fun r => G e r + e.iotaN * I e r) e.G0 0 (e.G2 + e.iotaN * e.I2) :=
  HasJet.mk (q := fun _ => 0) continuous_const fun r _ => by unfold G I; ring

theorem contra_n_j : HasJet (fun r => (contra e c d r θ).n) 0 (x1 d θ - e.l * e.tau * y1 c θ + e.iotaN * x1t c θ)
    (x2 d θ - e.l * e.tau * y2 c θ + e.l * e.kappa * z2 c θ + e.iotaN * x2t c θ) := by
  refine ((dphi_n c d θ e).add ((HasJet.const e.iotaN).mul (dtheta_n c θ))).congr ?_ ?_ ?_ <;> ring

theorem contra_b_j : HasJet (fun r => (contra e c d r θ).b) 0 (y1 d θ + e.l * e.tau * x1 c θ + e.iotaN * y1t c θ)
    (y2 d θ + e.l * e.tau * x2 c θ + e.iotaN * y2t c θ) := by
  refine ((dphi_b c d θ e).add ((HasJet.const e.iotaN).mul (dtheta_b c θ))).congr ?_ ?_ ?_ <;> ring

theorem contra_t_j : HasJet (fun r => (contra e c d r θ).t) e.l (-(e.l * e.kappa * x1 c θ))
    (z2 d θ - e.l * e.kappa * x2 c θ + e.iotaN * z2t c θ) := by
  refine ((dphi_t c d θ e).add ((HasJet.const e.iotaN).mul (dtheta_t c θ))).congr ?_ ?_ ?_ <;> ring

theorem X_j : HasJet (fun r => X c r θ) 0 (x1 c θ) (x2 c θ) :=
  HasJet.mk (q := fun _ => x3 c θ) continuous_const fun r _ => by rw [X_eq]; ring
theorem Y_j : HasJet (fun r => Y c r θ) 0 (y1 c θ) (y2 c θ) :=
  HasJet.mk (q := fun _ => y3 c θ) continuous_const fun r _ => by rw [Y_eq]; ring
theorem Z_j : HasJet (fun r => Z c r θ) 0 0 (z2 c θ) :=
  HasJet.mk (q := fun _ => z3 c θ) continuous_const fun r _ => by rw [Z_eq]; ring

/-- The Taylor polynomial along the expansion. -/
theorem taylor_j (b : Nat → ℝ) (M : Nat → Nat → ℝ) (T : Nat → Nat → Nat → ℝ) (k : Nat) :
    HasJet (fun r => taylor2 b M T (position c r θ) k) (b k) (M 0 k * x1 c θ + M 1 k * y1 c θ)
      (M 0 k * x2 c θ + M 1 k * y2 c θ + M 2 k * z2 c θ + 1 / 2 * (T 0 0 k * x1 c θ * x1 c θ +
        T 0 1 k * x1 c θ * y1 c θ + T 1 0 k * y1 c θ * x1 c θ + T 1 1 k * y1 c θ * y1 c θ)) := by
  have hx := X_j c θ
  have hy := Y_j c θ
  have hz := Z_j c θ
  have k' := fun v : ℝ => HasJet.const v
  have h1 := ((((k' (b k)).add ((k' (M 0 k)).mul hx)).add ((k' (M 1 k)).mul hy)).add ((k' (M 2 k)).mul hz))
  have h2 := ((((k' (T 0 0 k)).mul hx).mul hx).add (((k' (T 0 1 k)).mul hx).mul hy)).add
    (((k' (T 0 2 k)).mul hx).mul hz)
  have h3 := ((((k' (T 1 0 k)).mul hy).mul hx).add (((k' (T 1 1 k)).mul hy).mul hy)).add
    (((k' (T 1 2 k)).mul hy).mul hz)
  have h4 := ((((k' (T 2 0 k)).mul hz).mul hx).add (((k' (T 2 1 k)).mul hz).mul hy)).add
    (((k' (T 2 2 k)).mul hz).mul hz)
  refine ((h1.add ((k' (1 / 2)).mul ((h2.add h3).add h4))).of_eq fun r _ => ?_).congr ?_ ?_ ?_
  · simp only [taylor2, taylor1, Finset.sum_range_succ, Finset.sum_range_zero, comp, position]
    ring
  all_goals ring

/-- Dividing by a function that does not vanish at zero. -/
theorem order_div {f g : ℝ → ℝ} {g0 g1 g2 : ℝ} (n : Nat) (hg : HasJet g g0 g1 g2) (h0 : g0 ≠ 0)
    (hf : Order n fun r => g r * f r) : Order n f := by
  obtain ⟨q, hq, hg⟩ := hg
  have hc : Continuous fun r => g0 + g1 * r + g2 * r ^ 2 + r ^ 3 * q r := by fun_prop
  have ht : Filter.Tendsto (fun r => g0 + g1 * r + g2 * r ^ 2 + r ^ 3 * q r) (nhdsWithin (0 : ℝ) {0}ᶜ) (nhds g0) := by
    have := (hc.tendsto 0).mono_left (nhdsWithin_le_nhds (s := {0}ᶜ))
    simpa using this
  have ht' := ht.inv₀ h0
  have h1 := ht'.isBigO_one ℝ
  have h2 := h1.mul hf
  refine h2.congr' ?_ ?_
  · filter_upwards [self_mem_nhdsWithin, ht.eventually_ne h0] with r hr hr0
    change _ * (g r * f r) = f r
    rw [hg r hr, ← mul_assoc, inv_mul_cancel₀ hr0, one_mul]
  · exact Filter.Eventually.of_forall fun r => by simp

end

section
variable {a : At ℝ} {eta : ℝ} {e : Pt} {c d : Coef}

theorem homog (u v w θ : ℝ) : u + v * sin (2 * θ) + w * cos (2 * θ) =
    u * (cos θ ^ 2 + sin θ ^ 2) + v * (2 * sin θ * cos θ) + w * (cos θ ^ 2 - sin θ ^ 2) := by
  rw [sin_two_mul, cos_two_mul', cos_sq_add_sin_sq, mul_one]

theorem homog' (v w θ : ℝ) : 2 * (v * cos (2 * θ) - w * sin (2 * θ)) =
    2 * (v * (cos θ ^ 2 - sin θ ^ 2) - w * (2 * sin θ * cos θ)) := by
  rw [sin_two_mul, cos_two_mul']

/-- First order. -/
theorem first_n (h : First a eta) (m : Match a eta e c d) (s : Smooth1 a) (θ : ℝ) :
    e.B0 * e.B0 * (x1 d θ - e.l * e.tau * y1 c θ + e.iotaN * x1t c θ) =
      e.G0 * (gradM a 0 0 * x1 c θ + gradM a 1 0 * y1 c θ) := by
  simp only [x1, y1, x1t, gradM, m.B0, m.G0, m.l, m.tau, m.iotaN, m.X1c, m.Y1s, m.Y1c, m.dX1c, h.Y1s, h.G0,
    s.dY1s h]
  have := h.X1c
  have := h.lp
  have := h.B0
  rcases h.sG with g | g <;> rcases h.spsi with g' | g' <;> simp only [g, g'] <;> field_simp <;> ring

theorem first_b (h : First a eta) (m : Match a eta e c d) (s : Smooth1 a) (θ : ℝ) :
    e.B0 * e.B0 * (y1 d θ + e.l * e.tau * x1 c θ + e.iotaN * y1t c θ) =
      e.G0 * (gradM a 0 1 * x1 c θ + gradM a 1 1 * y1 c θ) := by
  simp only [x1, y1, y1t, gradM, m.B0, m.G0, m.l, m.tau, m.iotaN, m.X1c, m.Y1s, m.Y1c, m.dX1c, m.dY1s,
    m.dY1c, h.Y1s, h.G0, s.dY1s h]
  have := h.X1c
  have := h.lp
  have := h.B0
  rcases h.sG with g | g <;> rcases h.spsi with g' | g' <;> simp only [g, g'] <;> field_simp <;> ring

theorem first_t (h : First a eta) (m : Match a eta e c d) (θ : ℝ) :
    e.B0 * e.B0 * -(e.l * e.kappa * x1 c θ) + 2 * e.B0 * b1 e θ * e.l =
      e.G0 * (gradM a 0 2 * x1 c θ + gradM a 1 2 * y1 c θ) := by
  simp only [x1, y1, b1, gradM, m.B0, m.G0, m.l, m.kappa, m.eta, m.X1c, m.Y1s, m.Y1c, h.kap', h.G0]
  have := h.X1c
  have := h.lp
  have := h.B0
  rcases h.sG with g | g <;> simp only [g] <;> field_simp <;> ring

/-- Second order. -/
theorem second_n (h : First a eta) (m : Match a eta e c d) (s : Smooth1 a) (θ : ℝ) :
    e.B0 * e.B0 * (x2 d θ - e.l * e.tau * y2 c θ + e.l * e.kappa * z2 c θ + e.iotaN * x2t c θ) +
      2 * e.B0 * b1 e θ * (x1 d θ - e.l * e.tau * y1 c θ + e.iotaN * x1t c θ) =
    e.G0 * (gradM a 0 0 * x2 c θ + gradM a 1 0 * y2 c θ + gradM a 2 0 * z2 c θ + 1 / 2 *
      (alt000 a * x1 c θ * x1 c θ + alt010 a * x1 c θ * y1 c θ + alt100 a * y1 c θ * x1 c θ +
        alt110 a * y1 c θ * y1 c θ)) := by
  simp only [x1, y1, x1t, b1, x2, y2, z2, x2t, homog, homog']
  generalize cos θ = C
  generalize sin θ = S
  simp only [alt000, alt010, alt100, alt110, gradM, m.B0, m.G0, m.l, m.tau, m.kappa, m.eta, m.iotaN, m.X1c, m.Y1s,
    m.Y1c, m.X20, m.X2s, m.X2c, m.Y20, m.Y2s, m.Y2c, m.Z2s, m.Z2c, m.dX1c, m.dX20, m.dX2s, m.dX2c, h.Y1s, h.kap',
    h.G0, s.dY1s h]
  have := h.X1c
  have := h.lp
  have := h.B0
  rcases h.sG with g | g <;> rcases h.spsi with g' | g' <;> simp only [g, g'] <;> field_simp <;> ring

theorem second_b (h : First a eta) (m : Match a eta e c d) (s : Smooth1 a) (θ : ℝ) :
    e.B0 * e.B0 * (y2 d θ + e.l * e.tau * x2 c θ + e.iotaN * y2t c θ) +
      2 * e.B0 * b1 e θ * (y1 d θ + e.l * e.tau * x1 c θ + e.iotaN * y1t c θ) =
    e.G0 * (gradM a 0 1 * x2 c θ + gradM a 1 1 * y2 c θ + gradM a 2 1 * z2 c θ + 1 / 2 *
      (alt001 a * x1 c θ * x1 c θ + alt011 a * x1 c θ * y1 c θ + alt101 a * y1 c θ * x1 c θ +
        alt111 a * y1 c θ * y1 c θ)) := by
  simp only [x1, y1, y1t, b1, x2, y2, z2, y2t, homog, homog']
  generalize cos θ = C
  generalize sin θ = S
  simp only [alt001, alt011, alt101, alt111, gradM, m.B0, m.G0, m.l, m.tau, m.kappa, m.eta, m.iotaN, m.X1c, m.Y1s,
    m.Y1c, m.X20, m.X2s, m.X2c, m.Y20, m.Y2s, m.Y2c, m.Z2s, m.Z2c, m.dY1s, m.dY1c, m.dY20, m.dY2s, m.dY2c, h.Y1s,
    h.kap', h.G0, s.dY1s h]
  have := h.X1c
  have := h.lp
  have := h.B0
  rcases h.sG with g | g <;> rcases h.spsi with g' | g' <;> simp only [g, g'] <;> field_simp <;> ring

theorem second_t (h : First a eta) (m : Match a eta e c d) (θ : ℝ) :
    e.B0 * e.B0 * (z2 d θ - e.l * e.kappa * x2 c θ + e.iotaN * z2t c θ) +
      2 * e.B0 * b1 e θ * -(e.l * e.kappa * x1 c θ) + (2 * e.B0 * b2 e θ + b1 e θ * b1 e θ) * e.l =
    e.G0 * (gradM a 0 2 * x2 c θ + gradM a 1 2 * y2 c θ + gradM a 2 2 * z2 c θ + 1 / 2 *
      (alt002 a * x1 c θ * x1 c θ + alt012 a * x1 c θ * y1 c θ + alt102 a * y1 c θ * x1 c θ +
        alt112 a * y1 c θ * y1 c θ)) + (a.G2 + a.iota * a.I2) * (a.sG * a.B0) := by
  have h1 : (a.G2 + a.iota * a.I2) * (a.sG * a.B0) =
      (a.G2 + a.iota * a.I2) * (a.sG * a.B0) * (cos θ ^ 2 + sin θ ^ 2) := by rw [cos_sq_add_sin_sq, mul_one]
  rw [h1]
  clear h1
  simp only [x1, y1, b1, b2, x2, y2, z2, z2t, homog, homog']
  generalize cos θ = C
  generalize sin θ = S
  simp only [alt002, alt012, alt102, alt112, gradM, m.B0, m.G0, m.l, m.kappa, m.eta, m.iotaN, m.X1c, m.Y1s,
    m.Y1c, m.X20, m.X2s, m.X2c, m.Y20, m.Y2s, m.Y2c, m.Z2s, m.Z2c, m.dZ20, m.dZ2s, m.dZ2c, m.B20, m.B2s, m.B2c,
    h.Y1s, h.kap', h.G0]
  have := h.X1c
  have := h.lp
  have := h.B0
  rcases h.sG with g | g <;> rcases h.spsi with g' | g' <;> simp only [g, g'] <;> field_simp <;> ring

/-- The components multiplied by `G + iota_N I`. -/
theorem residual_k (h : First a eta) (m : Match a eta e c d) (s : Smooth1 a) (θ : ℝ) {k : Nat} (hk : k < 3) :
    HasJet (fun r => B e r θ ^ 2 * comp (contra e c d r θ) k -
      (G e r + e.iotaN * I e r) * taylor2 (onAxis (a.sG * a.B0)) (gradM a) (alt a) (position c r θ) k) 0 0 0 := by
  have hl : a.B0 * a.B0 * a.lp = a.G0 * (a.sG * a.B0) := by
    rw [h.G0]; rcases h.sG with g | g <;> rw [g] <;> ring
  match k, hk with
  | 0, _ =>
    have h1 := first_n h m s θ
    have h2 := second_n h m s θ
    refine (((Bsq_j e θ).mul (contra_n_j e c d θ)).sub ((GI_j e).mul (taylor_j c θ _ _ _ 0))).congr ?_ ?_ ?_
    · simp [onAxis]
    · simp only [onAxis]; linear_combination h1
    · simp [onAxis, alt]; linear_combination h2
  | 1, _ =>
    have h1 := first_b h m s θ
    have h2 := second_b h m s θ
    refine (((Bsq_j e θ).mul (contra_b_j e c d θ)).sub ((GI_j e).mul (taylor_j c θ _ _ _ 1))).congr ?_ ?_ ?_
    · simp [onAxis]
    · simp only [onAxis]; linear_combination h1
    · simp [onAxis, alt]; linear_combination h2
  | 2, _ =>
    have h1 := first_t h m θ
    have h2 := second_t h m θ
    refine (((Bsq_j e θ).mul (contra_t_j e c d θ)).sub ((GI_j e).mul (taylor_j c θ _ _ _ 2))).congr ?_ ?_ ?_
    · simp only [onAxis, m.B0, m.l, m.G0, if_true]; linear_combination hl
    · simp only [onAxis]; linear_combination h1
    · simp only [onAxis, alt, m.G2, if_true]; linear_combination h2

/-- The field and its Taylor polynomial of second order. -/
theorem taylor_order (h : First a eta) (m : Match a eta e c d) (s : Smooth1 a) (θ : ℝ) {k : Nat} (hk : k < 3) :
    Order 3 fun r => comp (fieldVec e c d r θ) k -
      taylor2 (onAxis (a.sG * a.B0)) (gradM a) (alt a) (position c r θ) k := by
  have hG : e.G0 ≠ 0 := by
    rw [m.G0, h.G0]
    refine mul_ne_zero (mul_ne_zero ?_ h.lp) h.B0
    rcases h.sG with g | g <;> rw [g] <;> norm_num
  have hj := (residual_k h m s θ hk).order_three
  refine order_div 3 (GI_j e) hG (hj.congr' ?_ (Filter.EventuallyEq.refl _ _))
  have hg : ∀ᶠ r in nhdsWithin (0 : ℝ) {0}ᶜ, G e r + e.iotaN * I e r ≠ 0 := by
    have hc : Continuous fun r => G e r + e.iotaN * I e r := by unfold G I; fun_prop
    have ht := (hc.tendsto 0).mono_left (nhdsWithin_le_nhds (s := {0}ᶜ))
    have h0 : G e 0 + e.iotaN * I e 0 = e.G0 := by unfold G I; ring
    rw [h0] at ht
    exact ht.eventually_ne hG
  filter_upwards [hg] with r hr
  have hd : comp (fieldVec e c d r θ) k =
      B e r θ ^ 2 / (G e r + e.iotaN * I e r) * comp (contra e c d r θ) k := by
    match k, hk with
    | 0, _ => rfl
    | 1, _ => rfl
    | 2, _ => rfl
  rw [hd, mul_sub, ← mul_assoc, mul_div_cancel₀ _ hr]

end

/-! ## Orders -/

theorem order_mono {m n : Nat} (h : m ≤ n) {f : ℝ → ℝ} (hf : Order n f) : Order m f := by
  refine hf.trans ?_
  obtain ⟨k, rfl⟩ := Nat.exists_eq_add_of_le h
  have hc : Filter.Tendsto (fun r : ℝ => r ^ k) (nhdsWithin (0 : ℝ) {0}ᶜ) (nhds (0 ^ k)) :=
    ((continuous_pow k).tendsto 0).mono_left nhdsWithin_le_nhds
  have := (Asymptotics.isBigO_refl (fun r : ℝ => r ^ m) (nhdsWithin (0 : ℝ) {0}ᶜ)).mul (hc.isBigO_one ℝ)
  simpa [pow_add] using this

theorem order_mul {m n : Nat} {f g : ℝ → ℝ} (hf : Order m f) (hg : Order n g) :
    Order (m + n) fun r => f r * g r := by
  have := Asymptotics.IsBigO.mul hf hg
  simpa [Order, pow_add] using this

theorem order_const {n : Nat} {f : ℝ → ℝ} (a : ℝ) (hf : Order n f) : Order n fun r => a * f r :=
  hf.const_mul_left a

theorem order_sum {n : Nat} (s : Finset Nat) {f : Nat → ℝ → ℝ} (hf : ∀ k ∈ s, Order n (f k)) :
    Order n fun r => ∑ k ∈ s, f k r :=
  (Asymptotics.IsBigO.sum hf).congr_left fun r => by rw [Finset.sum_apply]

theorem jet_order_one {f : ℝ → ℝ} {a b : ℝ} (h : HasJet f 0 a b) : Order 1 f := by
  obtain ⟨q, hq, hf⟩ := h
  have hc : Continuous fun r => a + b * r + r ^ 2 * q r := by fun_prop
  have ht := ((hc.tendsto 0).mono_left (nhdsWithin_le_nhds (s := {0}ᶜ))).isBigO_one ℝ
  have := (Asymptotics.isBigO_refl (fun r : ℝ => r ^ 1) (nhdsWithin (0 : ℝ) {0}ᶜ)).mul ht
  refine this.congr' ?_ ?_
  · filter_upwards [self_mem_nhdsWithin] with r hr
    rw [hf r hr]; ring
  · exact Filter.Eventually.of_forall fun r => by simp

theorem order_zero {n : Nat} {f : ℝ → ℝ} {a : ℝ} (hf : Order (n + 1) f)
    (ht : Filter.Tendsto f (nhdsWithin (0 : ℝ) {0}ᶜ) (nhds a)) : a = 0 := by
  have hp : Filter.Tendsto (fun r : ℝ => r ^ (n + 1)) (nhdsWithin (0 : ℝ) {0}ᶜ) (nhds 0) := by
    have := ((continuous_pow (n + 1)).tendsto (0 : ℝ)).mono_left (nhdsWithin_le_nhds (s := {0}ᶜ))
    simpa using this
  exact tendsto_nhds_unique ht (hf.trans_tendsto hp)

theorem order_cancel {n : Nat} {f : ℝ → ℝ} (hf : Order (n + 1) fun r => r * f r) : Order n f := by
  have h1 : Asymptotics.IsBigO (nhdsWithin (0 : ℝ) {0}ᶜ) (fun r : ℝ => r⁻¹) fun r => r⁻¹ :=
    Asymptotics.isBigO_refl _ _
  refine (h1.mul hf).congr' ?_ ?_
  · filter_upwards [self_mem_nhdsWithin] with r hr
    have : r ≠ 0 := hr
    field_simp
  · filter_upwards [self_mem_nhdsWithin] with r hr
    have : r ≠ 0 := hr
    rw [pow_succ]; field_simp

theorem poly_order {a0 a1 a2 : ℝ} (h : Order 3 fun r => a0 + a1 * r + a2 * r ^ 2) : a2 = 0 := by
  have t : ∀ f : ℝ → ℝ, Continuous f → Filter.Tendsto f (nhdsWithin (0 : ℝ) {0}ᶜ) (nhds (f 0)) :=
    fun f hf => (hf.tendsto 0).mono_left nhdsWithin_le_nhds
  have e0 : a0 = 0 := by
    have := order_zero h (t _ (by fun_prop))
    simpa using this
  have h1 : Order 2 fun r => a1 + a2 * r :=
    order_cancel (h.congr_left fun r => by rw [e0]; ring)
  have e1 : a1 = 0 := by
    have := order_zero h1 (t _ (by fun_prop))
    simpa using this
  have h2 : Order 1 fun _ => a2 := order_cancel (h1.congr_left fun r => by rw [e1]; ring)
  exact order_zero h2 tendsto_const_nhds

/-- A function that is small to third order has no coefficient of second order. -/
theorem jet_zero {f : ℝ → ℝ} {a0 a1 a2 : ℝ} (h : HasJet f a0 a1 a2) (ho : Order 3 f) : a2 = 0 := by
  obtain ⟨q, hq, hf⟩ := h
  have hp : Order 3 fun r => a0 + a1 * r + a2 * r ^ 2 := by
    have h3 : Order 3 fun r => r ^ 3 * q r := by
      have := (Asymptotics.isBigO_refl (fun r : ℝ => r ^ 3) (nhdsWithin (0 : ℝ) {0}ᶜ)).mul
        (((hq.tendsto 0).mono_left nhdsWithin_le_nhds).isBigO_one ℝ)
      simpa [Order] using this
    refine (ho.sub h3).congr' ?_ Filter.EventuallyEq.rfl
    filter_upwards [self_mem_nhdsWithin] with r hr
    rw [hf r hr]; ring
  exact poly_order hp

section
variable (c : Coef) (θ : ℝ)

theorem pos_one (m : Nat) : Order 1 fun r => comp (position c r θ) m := by
  match m with
  | 0 => exact jet_order_one (X_j c θ)
  | 1 => exact jet_order_one (Y_j c θ)
  | m + 2 => exact jet_order_one (Z_j c θ)

theorem pos_two (m : Nat) : Order 2 fun r => comp (position c r θ) (m + 2) := (Z_j c θ).order_two

theorem taylor2_sub (b : Nat → ℝ) (M : Nat → Nat → ℝ) (T : Nat → Nat → Nat → ℝ) (k : Nat) :
    Order 2 fun r => taylor2 b M T (position c r θ) k - taylor1 b M (position c r θ) k := by
  have h : Order 2 fun r => 1 / 2 * ∑ i ∈ Finset.range 3, ∑ j ∈ Finset.range 3,
      T i j k * comp (position c r θ) i * comp (position c r θ) j :=
    order_const _ (order_sum _ fun i _ => order_sum _ fun j _ =>
      order_mul (order_const _ (pos_one c θ i)) (pos_one c θ j))
  exact h.congr_left fun r => by unfold taylor2; ring

/-- Only the derivatives across the axis matter up to second order. -/
theorem taylor2_congr (b : Nat → ℝ) (M : Nat → Nat → ℝ) {T T' : Nat → Nat → Nat → ℝ} (k : Nat)
    (h : ∀ m n, m < 2 → n < 2 → T m n k = T' m n k) :
    Order 3 fun r => taylor2 b M T (position c r θ) k - taylor2 b M T' (position c r θ) k := by
  have h : Order 3 fun r => 1 / 2 * ∑ i ∈ Finset.range 3, ∑ j ∈ Finset.range 3,
      (T i j k - T' i j k) * comp (position c r θ) i * comp (position c r θ) j := by
    refine order_const _ (order_sum _ fun i hi => order_sum _ fun j hj => ?_)
    rw [Finset.mem_range] at hi hj
    by_cases hi2 : i = 2
    · subst hi2
      exact order_mul (m := 2) (n := 1) (order_const _ (pos_two c θ 0)) (pos_one c θ j)
    · by_cases hj2 : j = 2
      · subst hj2
        exact order_mul (m := 1) (n := 2) (order_const _ (pos_one c θ i)) (pos_two c θ 0)
      · have : T i j k - T' i j k = 0 := by rw [h i j (by omega) (by omega), sub_self]
        simp only [this, zero_mul]
        exact Asymptotics.isBigO_zero _ _
  refine h.congr_left fun r => ?_
  simp only [taylor2, sub_mul, Finset.sum_sub_distrib]
  ring

/-- A quadratic form on the ellipse is zero only if its coefficients are. -/
theorem quad_unique (hX : c.X1c ≠ 0) (hY : c.Y1s ≠ 0) {b : Nat → ℝ} {M : Nat → Nat → ℝ}
    (T T' : Nat → Nat → Nat → ℝ) (k : Nat) (hs : T 0 1 k = T 1 0 k) (hs' : T' 0 1 k = T' 1 0 k)
    (h : ∀ θ, Order 3 fun r => taylor2 b M T (position c r θ) k - taylor2 b M T' (position c r θ) k)
    {m n : Nat} (hm : m < 2) (hn : n < 2) : T m n k = T' m n k := by
  have key : ∀ θ, (T 0 0 k - T' 0 0 k) * x1 c θ ^ 2 + 2 * (T 0 1 k - T' 0 1 k) * (x1 c θ * y1 c θ) +
      (T 1 1 k - T' 1 1 k) * y1 c θ ^ 2 = 0 := by
    intro θ
    have hj := ((taylor_j c θ b M T k).sub (taylor_j c θ b M T' k))
    have := jet_zero hj (h θ)
    linear_combination 2 * this + (x1 c θ * y1 c θ) * hs - (x1 c θ * y1 c θ) * hs'
  have k1 := key (Real.pi / 2)
  have k2 := key 0
  have k3 := key (Real.pi / 4)
  simp only [x1, y1, Real.cos_pi_div_two, Real.sin_pi_div_two, mul_zero, mul_one, Real.cos_zero, Real.sin_zero,
    Real.cos_pi_div_four, Real.sin_pi_div_four, zero_mul, add_zero, zero_add] at k1 k2 k3
  have e11 : T 1 1 k - T' 1 1 k = 0 := by
    have : (T 1 1 k - T' 1 1 k) * c.Y1s ^ 2 = 0 := by linear_combination k1
    exact (mul_eq_zero.1 this).resolve_right (pow_ne_zero 2 hY)
  have h2 : (Real.sqrt 2 / 2) ^ 2 = 1 / 2 := by
    rw [div_pow, Real.sq_sqrt (by norm_num)]; norm_num
  rw [e11] at k2 k3
  have e01 : T 0 1 k - T' 0 1 k = 0 := by
    have : (T 0 1 k - T' 0 1 k) * (c.X1c * c.Y1s) = 0 := by
      generalize Real.sqrt 2 / 2 = s at *
      linear_combination k3 - (s ^ 2) * k2 - 2 * (T 0 1 k - T' 0 1 k) * c.X1c * c.Y1s * h2
    exact (mul_eq_zero.1 this).resolve_right (mul_ne_zero hX hY)
  rw [e01] at k2
  have e00 : T 0 0 k - T' 0 0 k = 0 := by
    have : (T 0 0 k - T' 0 0 k) * c.X1c ^ 2 = 0 := by linear_combination k2
    exact (mul_eq_zero.1 this).resolve_right (pow_ne_zero 2 hX)
  have e10 : T 1 0 k - T' 1 0 k = 0 := by linear_combination e01 - hs + hs'
  match m, n, hm, hn with
  | 0, 0, _, _ => exact sub_eq_zero.1 e00
  | 0, 1, _, _ => exact sub_eq_zero.1 e01
  | 1, 0, _, _ => exact sub_eq_zero.1 e10
  | 1, 1, _, _ => exact sub_eq_zero.1 e11

end

theorem main222_eq {a : At ℝ} {eta : ℝ} (h : First a eta) : main222 a = -(2 * (a.sG * a.B0 * a.kap ^ 2)) := by
  simp only [main222, h.G0, h.Y1s]
  have := h.lp
  have := h.B0
  have := h.X1c
  rcases h.sG with g | g <;> rcases h.spsi with g' | g' <;> simp only [g, g'] <;> field_simp <;> ring

theorem along_eq {a : At ℝ} {eta : ℝ} (h : First a eta) (s : Smooth a) {m k : Nat} (hm : m < 3) (hk : k < 3) :
    alt a 2 m k = along a.lp a.kap a.tor (gradM a) (dGradM a) m k := by
  unfold along
  have z12 : gradM a 1 2 = 0 := rfl
  have z21 : gradM a 2 1 = 0 := rfl
  have z22 : gradM a 2 2 = 0 := rfl
  simp only [Finset.sum_range_succ, Finset.sum_range_zero]
  match m, k, hm, hk with
  | 0, 0, _, _ => refine (along200 h s).trans ?_; simp only [turn]; ring
  | 0, 1, _, _ => refine (along201 h s).trans ?_; simp only [turn, z21]; ring
  | 0, 2, _, _ => refine (along202 h s).trans ?_; simp only [turn, z12, z22]; ring
  | 1, 0, _, _ => refine (along210 h s).trans ?_; simp only [turn, z12]; ring
  | 1, 1, _, _ => refine (along211 h s).trans ?_; simp only [turn]; ring
  | 1, 2, _, _ => refine (along212 h s).trans ?_; simp only [turn, z12, z22]; ring
  | 2, 0, _, _ => refine (along220 h s).trans ?_; simp only [turn, z21, z22]; ring
  | 2, 1, _, _ => refine (along221 h s).trans ?_; simp only [turn, z21, z22]; ring
  | 2, 2, _, _ => refine (along222 h s).trans ?_; simp only [turn, z21, z22, z12]; ring

end Qsc.GradGradB
