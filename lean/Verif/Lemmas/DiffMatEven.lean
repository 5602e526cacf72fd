import Verif.Lemmas.DiffMat
import Mathlib.Analysis.SpecialFunctions.Trigonometric.Complex

/-!
# Lemmas on the differentiation matrix with an even number of points
-/

namespace Qsc.DiffMat

open Qsc.VecMat

/-- `pi`, `sin`, `tan` of the reals, where `tan` answers `t` at its poles (in floating point `pi / 2` is not the
pole and the answer is a large number). -/
noncomputable def realPole (t : ℝ) : Trig ℝ :=
  ⟨Real.pi, Real.sin, fun x => if Real.cos x = 0 then t else Real.tan x⟩

/-- Half the reciprocal of the tangent as it is computed. -/
noncomputable def halfCot (t x : ℝ) : ℝ := (1 / 2) / (realPole t).tan x

/-- In the first half of the period only the middle is a pole. -/
theorem cos_ne (P l : Nat) (hP : 0 < P) (h : l < 2 * P) (hl : l ≠ P) :
    Real.cos (l * Real.pi / (2 * P)) ≠ 0 := by
  have hP0 : (P : ℝ) ≠ 0 := by positivity
  have hpi := Real.pi_ne_zero
  intro hc
  obtain ⟨n, hn⟩ := Real.cos_eq_zero_iff.1 hc
  have h1 : (l : ℝ) = (2 * n + 1) * P := by
    field_simp at hn
    linarith
  have h2 : (l : ℤ) = (2 * n + 1) * P := by exact_mod_cast h1
  rcases lt_trichotomy n 0 with hlt | rfl | hgt
  · have : (2 * n + 1) * (P : ℤ) ≤ -1 * P := by
      apply mul_le_mul_of_nonneg_right <;> omega
    omega
  · omega
  · have : 3 * (P : ℤ) ≤ (2 * n + 1) * P := by
      apply mul_le_mul_of_nonneg_right <;> omega
    omega

theorem halfCot_pole (t : ℝ) (P : Nat) (hP : 0 < P) : halfCot t (P * Real.pi / (2 * P)) = (1 / 2) / t := by
  have hP0 : (P : ℝ) ≠ 0 := by positivity
  unfold halfCot realPole
  have : (P : ℝ) * Real.pi / (2 * P) = Real.pi / 2 := by field_simp
  simp only [this, Real.cos_pi_div_two, if_true]

theorem halfCot_away (t : ℝ) {x : ℝ} (h : Real.cos x ≠ 0) :
    halfCot t x = (1 / 2) * (Real.cos x / Real.sin x) := by
  unfold halfCot realPole
  simp only [h, if_false]
  rw [Real.tan_eq_sin_div_cos]
  by_cases hs : Real.sin x = 0
  · simp [hs]
  · field_simp

/-- The first column: even resolution. -/
theorem col1_even (t : ℝ) (P : Nat) (hP : 0 < P) (c : ℝ) :
    ∃ a, col1 (realPole t) (2 * P) c = some a ∧ a.length = 2 * P ∧ a[0]? = some 0 ∧
      ∀ l, 0 < l → l < 2 * P → a[l]? = some (c * ((-1) ^ l * halfCot t (l * Real.pi / (2 * P)))) := by
  have hN : ((2 * P : Nat) : ℝ) = 2 * P := by push_cast; ring
  have hP0 : (P : ℝ) ≠ 0 := by positivity
  unfold col1
  dsimp only
  rw [show (2 * P - 1) / 2 = P - 1 by omega, show (2 * P) / 2 = P by omega]
  unfold store
  rw [if_pos (by simp; omega)]
  simp only [Option.bind_some]
  -- topc
  obtain ⟨top, t1, t2, t3, -⟩ := fillLoop_spec P (fun j => j) (fun j (_ : ℝ) => some
      (if (2 * P) % 2 = 0 then (1 / 2) / (realPole t).tan (((j + 1 : Nat) : ℝ) * (2 * (realPole t).pi /
        ((2 * P : Nat) : ℝ)) / 2)
      else (1 / 2) / (realPole t).sin (((j + 1 : Nat) : ℝ) * (2 * (realPole t).pi / ((2 * P : Nat) : ℝ)) / 2)))
    (fun j _ => halfCot t ((j + 1 : Nat) * Real.pi / (2 * P)))
    (List.replicate P 0) (fun _ _ _ _ h => h) (by simp) (fun j x hj => by
      rw [if_pos (by omega)]
      unfold halfCot
      congr 3
      change _ * (2 * Real.pi / _) / 2 = _
      rw [hN]; field_simp)
  have ht : topc (realPole t) (2 * P) P = some top := t1
  rw [ht]
  simp only [Option.bind_some]
  have htop : ∀ j < P, top[j]? = some (halfCot t ((j + 1 : Nat) * Real.pi / (2 * P))) := by
    intro j hj
    rw [t3 j hj]
    simp [hj]
  -- first half
  obtain ⟨a, a1, a2, a3, a4⟩ := fillLoop_spec P (fun j => j + 1) (fun j (_ : ℝ) => top[j]?)
    (fun j _ => halfCot t ((j + 1 : Nat) * Real.pi / (2 * P)))
    ((List.replicate (2 * P) (0 : ℝ)).set 0 0) (fun _ _ _ _ h => by simpa using h)
    (fun j hj => by simp; omega) (fun j x hj => htop j hj)
  rw [a1]
  simp only [Option.bind_some]
  -- second half
  obtain ⟨b, b1, b2, b3, b4⟩ := fillLoop_spec (P - 1) (fun j => P + 1 + j)
    (fun j (_ : ℝ) => (top[P - 1 - 1 - j]?).map fun v => if (2 * P) % 2 = 0 then -v else v)
    (fun j _ => -halfCot t ((P - 1 - 1 - j + 1 : Nat) * Real.pi / (2 * P)))
    a (fun _ _ _ _ h => by simpa using h) (fun j hj => by rw [a2]; simp; omega)
    (fun j x hj => by
      rw [htop _ (by omega)]
      simp)
  rw [b1]
  simp only [Option.bind_some]
  -- signs
  have hbl : b.length = 2 * P := by rw [b2, a2]; simp
  obtain ⟨d, d1, d2, d3, d4⟩ := fillLoop_spec P (fun i => 2 * i + 1) (fun _ (x : ℝ) => some (-x))
    (fun _ x => -x) b (fun _ _ _ _ h => by simpa using h) (fun j hj => by omega) (fun _ _ _ => rfl)
  rw [d1]
  refine ⟨_, rfl, by simp [d2, hbl], ?_, ?_⟩
  · rw [List.getElem?_map, d4 0 (fun j _ => by omega), b4 0 (fun j _ => by omega),
      a4 0 (fun j _ => by omega)]
    simp [hP]
  · intro l h0 hl
    have hb : b[l]? = some (halfCot t (l * Real.pi / (2 * P))) := by
      by_cases hlM : l ≤ P
      · rw [b4 l (fun j _ => by omega)]
        have := a3 (l - 1) (by omega)
        rw [show l - 1 + 1 = l by omega] at this
        rw [this]
        simp [hl]
      · have := b3 (l - (P + 1)) (by omega)
        rw [show P + 1 + (l - (P + 1)) = l by omega,
          show P - 1 - 1 - (l - (P + 1)) + 1 = 2 * P - l by omega] at this
        rw [this, List.getElem?_eq_getElem (by rw [a2]; simp; omega)]
        simp only [Option.map_some, Option.some.injEq]
        have e : ((2 * P - l : Nat) : ℝ) * Real.pi / (2 * P) = Real.pi - l * Real.pi / (2 * P) := by
          rw [Nat.cast_sub (by omega), hN]
          field_simp
        rw [halfCot_away t (cos_ne P (2 * P - l) hP (by omega) (by omega)),
          halfCot_away t (cos_ne P l hP (by omega) (by omega)), e, Real.cos_pi_sub, Real.sin_pi_sub]
        ring
    rw [List.getElem?_map]
    by_cases hp : l % 2 = 1
    · have := d3 (l / 2) (by omega)
      rw [show 2 * (l / 2) + 1 = l by omega] at this
      rw [this, hb]
      simp only [Option.map_some, Option.some.injEq]
      rw [Odd.neg_one_pow (Nat.odd_iff.2 hp)]
      ring
    · rw [d4 l (fun j _ => by omega), hb]
      simp only [Option.map_some, Option.some.injEq]
      rw [Even.neg_one_pow (Nat.even_iff.2 (by omega))]
      ring

/-- The entries with the exact cotangent; on the diagonal the sine and hence the entry is 0. -/
noncomputable def cotEntry (P : Nat) (c : ℝ) (j k : Nat) : ℝ :=
  c * ((-1) ^ (j + k) * ((1 / 2) * (Real.cos (((j : ℝ) - k) * Real.pi / (2 * P)) /
    Real.sin (((j : ℝ) - k) * Real.pi / (2 * P)))))

/-- What the answer `t` of the tangent at its pole adds. -/
noncomputable def poleEntry (t : ℝ) (P : Nat) (c : ℝ) (j k : Nat) : ℝ :=
  c * ((-1) ^ P * ((1 / 2) / t)) * (if j = k + P then 1 else if k = j + P then -1 else 0)

theorem neg_arg (P : Nat) (j k : Nat) : ((j : ℝ) - k) * Real.pi / (2 * P) = -(((k : ℝ) - j) * Real.pi / (2 * P)) := by
  ring

theorem cotEntry_antisymm (P : Nat) (c : ℝ) (j k : Nat) : cotEntry P c j k = -cotEntry P c k j := by
  unfold cotEntry
  rw [neg_arg, Real.cos_neg, Real.sin_neg, div_neg, add_comm k j]
  ring

theorem poleEntry_antisymm (t : ℝ) (P : Nat) (hP : 0 < P) (c : ℝ) (j k : Nat) :
    poleEntry t P c j k = -poleEntry t P c k j := by
  unfold poleEntry
  by_cases h1 : j = k + P
  · rw [if_pos h1, if_neg (by omega), if_pos h1]
    ring
  · by_cases h2 : k = j + P
    · rw [if_neg h1, if_pos h2, if_pos h2]
      ring
    · rw [if_neg h1, if_neg h2, if_neg h2, if_neg h1]
      ring

theorem column_value (t : ℝ) (P : Nat) (hP : 0 < P) (c : ℝ) (j k : Nat) (hj : j < 2 * P) (hjk : k < j) :
    c * ((-1) ^ (j - k) * halfCot t ((j - k : Nat) * Real.pi / (2 * P))) = cotEntry P c j k + poleEntry t P c j k := by
  have hP0 : (P : ℝ) ≠ 0 := by positivity
  have hp : ((-1 : ℝ)) ^ (j + k) = (-1) ^ (j - k) := by
    rw [show j + k = j - k + 2 * k by omega, pow_add, pow_mul]; simp
  unfold cotEntry poleEntry
  rw [hp, ← Nat.cast_sub hjk.le]
  by_cases h : j = k + P
  · have e : j - k = P := by omega
    have e2 : (P : ℝ) * Real.pi / (2 * P) = Real.pi / 2 := by field_simp
    rw [if_pos h, e, halfCot_pole t P hP, e2, Real.cos_pi_div_two]
    ring
  · rw [if_neg h, if_neg (by omega), halfCot_away t (cos_ne P (j - k) hP (by omega) (by omega))]
    ring

theorem entries_even (t : ℝ) (P : Nat) (hP : 0 < P) (xmin xmax : ℝ) :
    ∃ m, differentiationMatrix (realPole t) (2 * P) xmin xmax = some m ∧ m.Allocated ∧
      m.nrows = 2 * P ∧ m.ncols = 2 * P ∧
      ∀ j k, j < 2 * P → k < 2 * P →
        m.get j k = some (cotEntry P (2 * Real.pi / (xmax - xmin)) j k +
          poleEntry t P (2 * Real.pi / (xmax - xmin)) j k) := by
  obtain ⟨a, a1, a2, a3, a4⟩ := col1_even t P hP (2 * Real.pi / (xmax - xmin))
  obtain ⟨m, m1, m2, m3, m4, m5⟩ := toeplitz_spec (2 * P) a a2
  refine ⟨m, ?_, m2, m3, m4, fun j k hj hk => ?_⟩
  · unfold differentiationMatrix
    have : (realPole t).pi = Real.pi := rfl
    rw [this, a1]; exact m1
  · rw [m5 j k hj hk]
    split
    · rename_i hjk
      by_cases h : j = k
      · subst h
        have : P ≠ 0 := by omega
        simp [a3, cotEntry, poleEntry, this]
      · rw [a4 (k - j) (by omega) (by omega)]
        simp only [Option.map_some, Option.some.injEq]
        rw [column_value t P hP _ k j hk (by omega), cotEntry_antisymm, poleEntry_antisymm t P hP]
        ring
    · rename_i hjk
      rw [a4 (j - k) (by omega) (by omega), column_value t P hP _ j k hj (by omega)]

theorem sin_ne_even (P j k : Nat) (hj : j < 2 * P) (hk : k < 2 * P) (h : k ≠ j) :
    Real.sin (((j : ℝ) - k) * Real.pi / (2 * P)) ≠ 0 := by
  have hP : 0 < P := by omega
  have hP0 : (P : ℝ) ≠ 0 := by positivity
  intro hs
  obtain ⟨n, hn⟩ := Real.sin_eq_zero_iff.1 hs
  have hpi := Real.pi_ne_zero
  have : (n : ℝ) * (2 * P) = (j : ℝ) - k := by
    field_simp at hn
    linarith
  have h' : n * (2 * P) = (j : ℤ) - k := by exact_mod_cast this
  have hn0 : n = 0 := by
    by_contra hne
    rcases lt_or_gt_of_ne hne with hlt | hgt
    · have : n * (2 * P) ≤ -1 * (2 * (P : ℤ)) := by
        apply mul_le_mul_of_nonneg_right <;> omega
      omega
    · have : 1 * (2 * (P : ℤ)) ≤ n * (2 * P) := by
        apply mul_le_mul_of_nonneg_right <;> omega
      omega
  rw [hn0] at h'
  omega

open Complex in
/-- Sums over roots of unity. -/
theorem root_sum_even (P : Nat) (hP : 0 < P) (m : ℤ) :
    (|m| < P → ∑ k ∈ Finset.range (2 * P), (-exp (m * Real.pi / P * I)) ^ k = 0) ∧
      (m = P → ∑ k ∈ Finset.range (2 * P), (-exp (m * Real.pi / P * I)) ^ k = 2 * P) := by
  have hP0 : (P : ℂ) ≠ 0 := by exact_mod_cast hP.ne'
  have hpi : (Real.pi : ℂ) ≠ 0 := by exact_mod_cast Real.pi_ne_zero
  refine ⟨fun hm => ?_, ?_⟩
  · rw [abs_lt] at hm
    have hone : (-exp (m * Real.pi / P * I)) ^ (2 * P) = 1 := by
      rw [neg_pow, ← exp_nat_mul, Even.neg_one_pow ⟨P, by ring⟩]
      have : ((2 * P : Nat) : ℂ) * (m * Real.pi / P * I) = m * (2 * Real.pi * I) := by
        push_cast; field_simp
      rw [this, exp_int_mul_two_pi_mul_I, one_mul]
    have hne : -exp (m * Real.pi / P * I) ≠ 1 := by
      intro h
      have h3 : exp (m * Real.pi / P * I) = exp (Real.pi * I) := by
        rw [exp_pi_mul_I]; linear_combination -h
      obtain ⟨n, hn⟩ := exp_eq_exp_iff_exists_int.1 h3
      have h4 : (m : ℂ) = P * (1 + 2 * n) := by
        have hI : I ≠ 0 := I_ne_zero
        field_simp at hn
        linear_combination hn
      have h5 : m = (P : ℤ) * (1 + 2 * n) := by exact_mod_cast h4
      rcases lt_or_ge n 0 with hlt | hge
      · have : (P : ℤ) * (1 + 2 * n) ≤ P * (-1) := by
          apply mul_le_mul_of_nonneg_left <;> omega
        omega
      · have : (P : ℤ) * 1 ≤ P * (1 + 2 * n) := by
          apply mul_le_mul_of_nonneg_left <;> omega
        omega
    have := geom_sum_mul (-exp (m * Real.pi / P * I)) (2 * P)
    rw [hone, sub_self] at this
    exact (mul_eq_zero.1 this).resolve_right (sub_ne_zero.2 hne)
  · rintro rfl
    have : -exp (((P : ℤ) : ℂ) * Real.pi / P * I) = 1 := by
      rw [show ((P : ℤ) : ℂ) * Real.pi / P * I = Real.pi * I by push_cast; field_simp, exp_pi_mul_I]
      ring
    rw [this]
    simp

/-- The sum of `cotEntry` over `exp (i m x)`, relative to point `j`. -/
noncomputable def modeSum (P j : Nat) (m : ℤ) : ℂ :=
  ∑ k ∈ Finset.range (2 * P), (cotEntry P 1 j k : ℂ) *
    Complex.exp ((m : ℂ) * Real.pi * ((k : ℂ) - j) / P * Complex.I)

open Complex in
/-- From mode `m` to mode `m + 1`. -/
theorem mode_step_even (P : Nat) (j : Nat) (hj : j < 2 * P) (m : ℤ) :
    modeSum P j (m + 1) = modeSum P j m + I -
      I / 2 * (((-exp (m * Real.pi / P * I)) ^ j)⁻¹ * ∑ k ∈ Finset.range (2 * P), (-exp (m * Real.pi / P * I)) ^ k +
        ((-exp (((m + 1 : ℤ) : ℂ) * Real.pi / P * I)) ^ j)⁻¹ *
          ∑ k ∈ Finset.range (2 * P), (-exp (((m + 1 : ℤ) : ℂ) * Real.pi / P * I)) ^ k) := by
  have hP0 : (P : ℂ) ≠ 0 := by
    have : P ≠ 0 := by omega
    exact_mod_cast this
  have pw : ∀ (m : ℤ) (k : Nat), ((-exp ((m : ℂ) * Real.pi / P * I)) ^ j)⁻¹ * (-exp ((m : ℂ) * Real.pi / P * I)) ^ k =
      (-1) ^ (j + k) * exp ((m : ℂ) * Real.pi * ((k : ℂ) - j) / P * I) := by
    intro m k
    have hj1 : ((-1 : ℂ)) ^ j * (-1) ^ j = 1 := by rw [← mul_pow]; simp
    have hj2 : ((-1 : ℂ) ^ j)⁻¹ = (-1) ^ j := inv_eq_of_mul_eq_one_left hj1
    have hne : exp ((m : ℂ) * Real.pi / P * I) ^ j ≠ 0 := pow_ne_zero _ (exp_ne_zero _)
    have e1 : exp ((m : ℂ) * Real.pi * ((k : ℂ) - j) / P * I) * exp ((m : ℂ) * Real.pi / P * I) ^ j =
        exp ((m : ℂ) * Real.pi / P * I) ^ k := by
      rw [← exp_nat_mul, ← exp_nat_mul, ← exp_add]
      congr 1
      field_simp
      ring
    rw [neg_pow _ k, neg_pow _ j, ← e1, mul_inv, hj2, pow_add]
    field_simp
  have key : ∀ k ∈ Finset.range (2 * P), (cotEntry P 1 j k : ℂ) *
        exp (((m + 1 : ℤ) : ℂ) * Real.pi * ((k : ℂ) - j) / P * I) =
      (cotEntry P 1 j k : ℂ) * exp ((m : ℂ) * Real.pi * ((k : ℂ) - j) / P * I) +
        (-(I / 2) * (((-exp (m * Real.pi / P * I)) ^ j)⁻¹ * (-exp (m * Real.pi / P * I)) ^ k) +
        -(I / 2) * (((-exp (((m + 1 : ℤ) : ℂ) * Real.pi / P * I)) ^ j)⁻¹ *
          (-exp (((m + 1 : ℤ) : ℂ) * Real.pi / P * I)) ^ k)) + if k = j then I else 0 := by
    intro k hk
    rw [pw m k, pw (m + 1) k]
    by_cases hkj : k = j
    · subst hkj
      have h0 : cotEntry P 1 k k = 0 := by simp [cotEntry]
      have h1 : ((-1 : ℂ)) ^ (k + k) = 1 := by rw [← two_mul, pow_mul]; simp
      rw [h0, h1]
      simp
      ring
    · rw [if_neg hkj, add_zero]
      have hs := sin_ne_even P j k hj (Finset.mem_range.1 hk) hkj
      set θ : ℝ := ((j : ℝ) - k) * Real.pi / (2 * P) with hθ
      have hsc : Complex.sin (θ : ℂ) ≠ 0 := by
        rw [← ofReal_sin]; exact_mod_cast hs
      have he : (cotEntry P 1 j k : ℂ) = (-1) ^ (j + k) * ((1 / 2) * (Complex.cos θ / Complex.sin θ)) := by
        unfold cotEntry
        push_cast
        rw [hθ]; push_cast; ring
      have ha : (((m + 1 : ℤ) : ℂ) * Real.pi * ((k : ℂ) - j) / P * I) =
          (-(2 * m + 1) * θ) * I + (-θ) * I := by
        rw [hθ]; push_cast; field_simp; ring
      have hb : ((m : ℂ) * Real.pi * ((k : ℂ) - j) / P * I) = (-(2 * m + 1) * θ) * I + θ * I := by
        rw [hθ]; push_cast; field_simp; ring
      have hd : exp (-(θ * I)) - exp (θ * I) = -2 * I * Complex.sin θ := by
        simp only [Complex.sin, neg_mul]
        have : I * I = -1 := I_mul_I
        linear_combination (exp (-(θ * I)) - exp (θ * I)) * this
      have hc : exp (-(θ * I)) + exp (θ * I) = 2 * Complex.cos θ := by
        simp only [Complex.cos, neg_mul]
        ring
      rw [he, ha, hb, exp_add, exp_add]
      simp only [neg_mul] at *
      field_simp
      linear_combination Complex.cos θ * hd + I * Complex.sin θ * hc
  unfold modeSum
  rw [Finset.sum_congr rfl key, Finset.sum_add_distrib, Finset.sum_add_distrib, Finset.sum_add_distrib,
    ← Finset.mul_sum, ← Finset.mul_sum, ← Finset.mul_sum, ← Finset.mul_sum]
  simp only [Finset.sum_ite_eq', Finset.mem_range, hj, if_true]
  ring

theorem cotEntry_shift (P : Nat) (c : ℝ) (j k : Nat) : cotEntry P c (j + 1) (k + 1) = cotEntry P c j k := by
  unfold cotEntry
  rw [show j + 1 + (k + 1) = j + k + 2 by omega, pow_add]
  push_cast
  rw [show ((j : ℝ) + 1 - (k + 1)) = (j : ℝ) - k by ring]
  ring

theorem cotEntry_wrap (P : Nat) (hP : 0 < P) (c : ℝ) (j : Nat) :
    cotEntry P c (j + 1) 0 = cotEntry P c j (2 * P - 1) := by
  unfold cotEntry
  have hP0 : (P : ℝ) ≠ 0 := by positivity
  have e : (((j + 1 : Nat) : ℝ) - (0 : Nat)) * Real.pi / (2 * P) =
      ((j : ℝ) - (2 * P - 1 : Nat)) * Real.pi / (2 * P) + Real.pi := by
    rw [Nat.cast_sub (by omega)]
    push_cast; field_simp; ring
  rw [e, Real.cos_add_pi, Real.sin_add_pi, neg_div_neg_eq,
    show j + 1 + 0 = j + 1 by omega]
  have : ((-1 : ℝ)) ^ (j + (2 * P - 1)) = (-1) ^ (j + 1) := by
    rw [show j + (2 * P - 1) = j + 1 + 2 * (P - 1) by omega, pow_add _ (j + 1), pow_mul]
    simp
  rw [this]

theorem cotEntry_row (P : Nat) (hP : 0 < P) (c : ℝ) (j : Nat) :
    ∑ k ∈ Finset.range (2 * P), cotEntry P c j k = ∑ k ∈ Finset.range (2 * P), cotEntry P c 0 k := by
  induction j with
  | zero => rfl
  | succ j ih =>
    rw [← ih, show 2 * P = 2 * P - 1 + 1 by omega, Finset.sum_range_succ', Finset.sum_range_succ,
      cotEntry_wrap P hP]
    simp only [cotEntry_shift]

theorem cotEntry_row_zero (P : Nat) (hP : 0 < P) (c : ℝ) (j : Nat) :
    ∑ k ∈ Finset.range (2 * P), cotEntry P c j k = 0 := by
  have h1 : ∑ j ∈ Finset.range (2 * P), ∑ k ∈ Finset.range (2 * P), cotEntry P c j k =
      ∑ j ∈ Finset.range (2 * P), ∑ k ∈ Finset.range (2 * P), cotEntry P c k j :=
    Finset.sum_comm
  have h2 : ∑ j ∈ Finset.range (2 * P), ∑ k ∈ Finset.range (2 * P), cotEntry P c k j =
      - ∑ j ∈ Finset.range (2 * P), ∑ k ∈ Finset.range (2 * P), cotEntry P c j k := by
    rw [← Finset.sum_neg_distrib]
    refine Finset.sum_congr rfl fun j _ => ?_
    rw [← Finset.sum_neg_distrib]
    exact Finset.sum_congr rfl fun k _ => cotEntry_antisymm P c k j
  have h3 : ∑ j ∈ Finset.range (2 * P), ∑ k ∈ Finset.range (2 * P), cotEntry P c j k = 0 := by
    linarith [h1, h2]
  simp only [cotEntry_row P hP c] at h3
  rw [Finset.sum_const, Finset.card_range, nsmul_eq_mul] at h3
  rw [cotEntry_row P hP]
  rcases mul_eq_zero.1 h3 with h | h
  · have : ((2 * P : Nat) : ℝ) ≠ 0 := by positivity
    exact absurd h this
  · exact h

open Complex in
/-- The matrix on the exponential with wave number `m`. -/
theorem mode_even (P : Nat) (j : Nat) (hj : j < 2 * P) (m : ℤ) (hm : |m| < P) : modeSum P j m = m * I := by
  have hP : 0 < P := by omega
  have base : modeSum P j 0 = (0 : ℤ) * I := by
    have := cotEntry_row_zero P hP 1 j
    unfold modeSum
    simp only [Int.cast_zero, zero_mul, zero_div, exp_zero, mul_one]
    exact_mod_cast this
  have step : ∀ m : ℤ, |m| < P → |m + 1| < P → modeSum P j (m + 1) = modeSum P j m + I := by
    intro m h1 h2
    rw [mode_step_even P j hj m, (root_sum_even P hP m).1 h1, (root_sum_even P hP (m + 1)).1 h2]
    ring
  rw [abs_lt] at hm
  induction m with
  | zero => exact base
  | succ n ih =>
    rw [step n (by rw [abs_lt]; omega) (by rw [abs_lt]; omega), ih (by omega)]
    push_cast; ring
  | pred n ih =>
    have h := step (-n - 1) (by rw [abs_lt]; omega) (by rw [abs_lt]; omega)
    rw [show -(n : ℤ) - 1 + 1 = -n by ring, ih (by omega)] at h
    have h' := eq_sub_of_add_eq h.symm
    rw [h']; push_cast; ring

open Complex in
/-- The sawtooth has derivative zero. -/
theorem mode_sawtooth (P : Nat) (j : Nat) (hj : j < 2 * P) : modeSum P j P = 0 := by
  have hP : 0 < P := by omega
  have h := mode_step_even P j hj (P - 1)
  rw [show (P : ℤ) - 1 + 1 = P by ring, mode_even P j hj (P - 1) (by rw [abs_lt]; omega),
    (root_sum_even P hP (P - 1)).1 (by rw [abs_lt]; omega), (root_sum_even P hP P).2 rfl] at h
  have hP0 : (P : ℂ) ≠ 0 := by exact_mod_cast hP.ne'
  have e : -exp (((P : ℤ) : ℂ) * Real.pi / P * I) = 1 := by
    rw [show ((P : ℤ) : ℂ) * Real.pi / P * I = Real.pi * I by push_cast; field_simp, exp_pi_mul_I]
    ring
  rw [h, e]
  push_cast
  simp
  ring

theorem modeSum_parts (P j : Nat) (m : Nat) :
    modeSum P j m = ((∑ k ∈ Finset.range (2 * P), cotEntry P 1 j k *
        Real.cos (2 * Real.pi * m * ((k : ℝ) - j) / (2 * P : Nat)) : ℝ) : ℂ) +
      ((∑ k ∈ Finset.range (2 * P), cotEntry P 1 j k *
        Real.sin (2 * Real.pi * m * ((k : ℝ) - j) / (2 * P : Nat)) : ℝ) : ℂ) * Complex.I := by
  unfold modeSum
  rw [Complex.ofReal_sum, Complex.ofReal_sum, Finset.sum_mul, ← Finset.sum_add_distrib]
  refine Finset.sum_congr rfl fun k _ => ?_
  have e : ((m : ℤ) : ℂ) * Real.pi * ((k : ℂ) - j) / P =
      ((2 * Real.pi * m * ((k : ℝ) - j) / (2 * P : Nat) : ℝ) : ℂ) := by
    push_cast
    rw [show (2 : ℂ) * Real.pi * m * (k - j) = 2 * (m * Real.pi * (k - j)) by ring, mul_div_mul_left _ _ two_ne_zero]
  rw [e, Complex.exp_mul_I, ← Complex.ofReal_cos, ← Complex.ofReal_sin]
  push_cast
  ring

theorem mode_real_even (P : Nat) (j : Nat) (hj : j < 2 * P) (m : Nat) (hm : m ≤ P) :
    (∑ k ∈ Finset.range (2 * P), cotEntry P 1 j k *
        Real.cos (2 * Real.pi * m * ((k : ℝ) - j) / (2 * P : Nat)) = 0) ∧
      ∑ k ∈ Finset.range (2 * P), cotEntry P 1 j k *
        Real.sin (2 * Real.pi * m * ((k : ℝ) - j) / (2 * P : Nat)) = if m < P then (m : ℝ) else 0 := by
  have h : modeSum P j m = ((if m < P then (m : ℝ) else 0 : ℝ) : ℂ) * Complex.I := by
    split
    · rw [mode_even P j hj m (by rw [abs_lt]; omega)]
      push_cast
      rfl
    · obtain rfl : m = P := by omega
      rw [mode_sawtooth m j hj]
      simp
  rw [modeSum_parts] at h
  have hre := congrArg Complex.re h
  have him := congrArg Complex.im h
  simp only [Complex.add_re, Complex.add_im, Complex.mul_re, Complex.mul_im, Complex.ofReal_re,
    Complex.ofReal_im, Complex.I_re, Complex.I_im] at hre him
  exact ⟨by linarith, by linarith⟩

theorem cotEntry_scale (P : Nat) (c : ℝ) (j k : Nat) : cotEntry P c j k = c * cotEntry P 1 j k := by
  unfold cotEntry; ring

end Qsc.DiffMat
