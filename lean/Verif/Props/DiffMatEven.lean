import Verif.Lemmas.DiffMatEven
import Verif.Props.DiffMat

/-!
# C85: the spectral differentiation matrix with an even number of points

The code divides by `tan(pi / 2)`.  The answer of the tangent there is an arbitrary number `t` (a large one in
floating point).
-/

namespace Qsc.DiffMat

open Qsc.VecMat Qsc.Spec.DiffMat

theorem pole_sum (t : ℝ) (P : Nat) (hP : 0 < P) (c : ℝ) (g : Nat → ℝ) (j : Nat) (hj : j < 2 * P) :
    ∑ k ∈ Finset.range (2 * P), poleEntry t P c j k * g k =
      c * ((-1) ^ P * ((1 / 2) / t)) * (if P ≤ j then g (j - P) else -g (j + P)) := by
  split
  · rename_i h
    rw [Finset.sum_eq_single (j - P)]
    · unfold poleEntry
      rw [if_pos (by omega)]
      ring
    · intro k _ hk
      unfold poleEntry
      rw [if_neg (by omega), if_neg]
      · ring
      · have := Finset.mem_range.1 ‹k ∈ _›
        omega
    · intro h'
      exact absurd (Finset.mem_range.2 (by omega)) h'
  · rename_i h
    rw [Finset.sum_eq_single (j + P)]
    · unfold poleEntry
      rw [if_neg (by omega), if_pos rfl]
      ring
    · intro k _ hk
      unfold poleEntry
      rw [if_neg (by omega), if_neg hk]
      ring
    · intro h'
      exact absurd (Finset.mem_range.2 (by omega)) h'

/-- **C85.** For every even number of points the matrix is built without leaving any array, is antisymmetric, and
equal along diagonals; every row sums to the error made at the pole of the tangent. -/
theorem even_antisymmetric (N : Nat) (h0 : 0 < N) (hN : N % 2 = 0) (t xmin xmax : ℝ) :
    ∃ m, differentiationMatrix (realPole t) N xmin xmax = some m ∧ m.nrows = N ∧ m.ncols = N ∧
      ∃ D : Nat → Nat → ℝ, (∀ j k, j < N → k < N → m.get j k = some (D j k)) ∧
        (∀ j k, j < N → k < N → D j k = -D k j) ∧
        (∀ j k, j + 1 < N → k + 1 < N → D (j + 1) (k + 1) = D j k) ∧
        ∀ j < N, ∑ k ∈ Finset.range N, D j k =
          2 * Real.pi / (xmax - xmin) * ((-1) ^ (N / 2) * ((1 / 2) / t)) * (if N / 2 ≤ j then 1 else -1) := by
  obtain ⟨P, rfl⟩ : ∃ P, N = 2 * P := ⟨N / 2, by omega⟩
  have hP : 0 < P := by omega
  obtain ⟨m, m1, -, m3, m4, m5⟩ := entries_even t P hP xmin xmax
  refine ⟨m, m1, m3, m4, _, m5, ?_, ?_, ?_⟩
  · intro j k _ _
    rw [cotEntry_antisymm, poleEntry_antisymm t P hP]
    ring
  · intro j k _ _
    rw [cotEntry_shift]
    unfold poleEntry
    congr 2
    by_cases h1 : j = k + P
    · rw [if_pos (by omega), if_pos h1]
    · by_cases h2 : k = j + P
      · rw [if_neg (by omega), if_pos (by omega), if_neg h1, if_pos h2]
      · rw [if_neg (by omega), if_neg (by omega), if_neg h1, if_neg h2]
  · intro j hj
    have := pole_sum t P hP (2 * Real.pi / (xmax - xmin)) (fun _ => 1) j hj
    simp only [mul_one] at this
    rw [Finset.sum_add_distrib, cotEntry_row_zero P hP, this, zero_add, show 2 * P / 2 = P by omega]

/-- **C85.** For every even `N = 2 P` and every interval, the matrix applied to the samples of a trigonometric
polynomial of degree below `P`, with or without the alternating cosine, gives the exact derivative at every grid
point, up to the error made at the pole of the tangent. -/
theorem even_exact (P : Nat) (hP : 0 < P) (t xmin xmax : ℝ) (hx : xmin ≠ xmax) (a b : Nat → ℝ) (s : ℝ) :
    ∃ m, differentiationMatrix (realPole t) (2 * P) xmin xmax = some m ∧
      ∃ D : Nat → Nat → ℝ, (∀ j k, j < 2 * P → k < 2 * P → m.get j k = some (D j k)) ∧
        let f := evenPoly P xmin (xmax - xmin) a b s
        let x := gridPoint (2 * P) xmin xmax
        ∀ j < 2 * P, ∃ e : ℝ, HasDerivAt f (∑ k ∈ Finset.range (2 * P), D j k * f (x k) - e) (x j) ∧
          e = 2 * Real.pi / (xmax - xmin) * ((-1) ^ P * ((1 / 2) / t)) *
            (if P ≤ j then f (x (j - P)) else -f (x (j + P))) := by
  obtain ⟨m, m1, -, -, -, m5⟩ := entries_even t P hP xmin xmax
  refine ⟨m, m1, _, m5, ?_⟩
  intro f x j hj
  refine ⟨_, ?_, rfl⟩
  have hL : xmax - xmin ≠ 0 := sub_ne_zero.2 hx.symm
  have hP0 : (P : ℝ) ≠ 0 := by positivity
  have hsplit : ∑ k ∈ Finset.range (2 * P), (cotEntry P (2 * Real.pi / (xmax - xmin)) j k +
      poleEntry t P (2 * Real.pi / (xmax - xmin)) j k) * f (x k) -
      2 * Real.pi / (xmax - xmin) * ((-1) ^ P * ((1 / 2) / t)) * (if P ≤ j then f (x (j - P)) else -f (x (j + P))) =
      ∑ k ∈ Finset.range (2 * P), cotEntry P (2 * Real.pi / (xmax - xmin)) j k * f (x k) := by
    rw [← pole_sum t P hP _ (fun k => f (x k)) j hj, ← Finset.sum_sub_distrib]
    exact Finset.sum_congr rfl fun k _ => by ring
  rw [hsplit]
  set L := xmax - xmin with hLdef
  -- the derivative of the alternating cosine
  have hcos : HasDerivAt (fun y : ℝ => s * Real.cos (2 * Real.pi * P * (y - xmin) / L)) 0 (x j) := by
    have hi : HasDerivAt (fun y : ℝ => 2 * Real.pi * P * (y - xmin) / L) (2 * Real.pi * P / L) (x j) := by
      have := (((hasDerivAt_id (x j)).sub_const xmin).const_mul (2 * Real.pi * P)).div_const L
      simpa using this
    refine (hi.cos.const_mul s).congr_deriv ?_
    have : 2 * Real.pi * P * (x j - xmin) / L = j * Real.pi := by
      change 2 * Real.pi * P * (gridPoint (2 * P) xmin xmax j - xmin) / L = _
      unfold gridPoint
      rw [← hLdef]
      push_cast
      field_simp
      ring
    rw [this, Real.sin_nat_mul_pi]
    ring
  have hf : HasDerivAt f _ (x j) := (trigPoly_hasDerivAt (P - 1) L a b (x j)).add hcos
  refine hf.congr_deriv ?_
  rw [add_zero]
  -- the sum over the grid, mode by mode
  have hadd : ∀ (n k : Nat), 2 * Real.pi * n * x k / L =
      2 * Real.pi * n * x j / L + 2 * Real.pi * n * ((k : ℝ) - j) / (2 * P : Nat) := by
    intro n k
    change 2 * Real.pi * n * gridPoint (2 * P) xmin xmax k / L =
      2 * Real.pi * n * gridPoint (2 * P) xmin xmax j / L + _
    unfold gridPoint
    rw [← hLdef]
    push_cast
    field_simp
    ring
  have hsaw : ∑ k ∈ Finset.range (2 * P), cotEntry P (2 * Real.pi / L) j k *
      (s * Real.cos (2 * Real.pi * P * (x k - xmin) / L)) = 0 := by
    obtain ⟨hc, hs⟩ := mode_real_even P j hj P le_rfl
    rw [if_neg (lt_irrefl P)] at hs
    have : ∀ k ∈ Finset.range (2 * P), cotEntry P (2 * Real.pi / L) j k *
        (s * Real.cos (2 * Real.pi * P * (x k - xmin) / L)) =
        2 * Real.pi / L * s * Real.cos (2 * Real.pi * P * (x j - xmin) / L) *
          (cotEntry P 1 j k * Real.cos (2 * Real.pi * P * ((k : ℝ) - j) / (2 * P : Nat))) +
        2 * Real.pi / L * s * -Real.sin (2 * Real.pi * P * (x j - xmin) / L) *
          (cotEntry P 1 j k * Real.sin (2 * Real.pi * P * ((k : ℝ) - j) / (2 * P : Nat))) := by
      intro k _
      have e : 2 * Real.pi * P * (x k - xmin) / L = 2 * Real.pi * P * (x j - xmin) / L +
          2 * Real.pi * P * ((k : ℝ) - j) / (2 * P : Nat) := by
        have := hadd P k
        rw [mul_sub, sub_div, this]
        ring
      rw [e, Real.cos_add, cotEntry_scale]
      ring
    rw [Finset.sum_congr rfl this, Finset.sum_add_distrib, ← Finset.mul_sum, ← Finset.mul_sum, hc, hs]
    ring
  have hparts : ∑ k ∈ Finset.range (2 * P), cotEntry P (2 * Real.pi / L) j k * f (x k) =
      ∑ k ∈ Finset.range (2 * P), cotEntry P (2 * Real.pi / L) j k * trigPoly (P - 1) L a b (x k) := by
    rw [← add_zero (∑ k ∈ Finset.range (2 * P), cotEntry P (2 * Real.pi / L) j k * trigPoly (P - 1) L a b (x k)),
      ← hsaw, ← Finset.sum_add_distrib]
    refine Finset.sum_congr rfl fun k _ => ?_
    rw [← mul_add]
    rfl
  rw [hparts]
  simp only [trigPoly, Finset.mul_sum]
  rw [Finset.sum_comm]
  apply Finset.sum_congr rfl
  intro n hn
  have hn' : n < P := by have := Finset.mem_range.1 hn; omega
  obtain ⟨hc, hs⟩ := mode_real_even P j hj n hn'.le
  rw [if_pos hn'] at hs
  have hterm : ∀ k ∈ Finset.range (2 * P), cotEntry P (2 * Real.pi / L) j k *
      (a n * Real.cos (2 * Real.pi * n * x k / L) + b n * Real.sin (2 * Real.pi * n * x k / L)) =
      (2 * Real.pi / L) * (a n * Real.cos (2 * Real.pi * n * x j / L) +
        b n * Real.sin (2 * Real.pi * n * x j / L)) *
          (cotEntry P 1 j k * Real.cos (2 * Real.pi * n * ((k : ℝ) - j) / (2 * P : Nat))) +
      (2 * Real.pi / L) * (b n * Real.cos (2 * Real.pi * n * x j / L) -
        a n * Real.sin (2 * Real.pi * n * x j / L)) *
          (cotEntry P 1 j k * Real.sin (2 * Real.pi * n * ((k : ℝ) - j) / (2 * P : Nat))) := by
    intro k _
    rw [hadd n k, Real.cos_add, Real.sin_add, cotEntry_scale]
    ring
  rw [Finset.sum_congr rfl hterm, Finset.sum_add_distrib, ← Finset.mul_sum, ← Finset.mul_sum, hc, hs]
  ring

/-- With `|tan(pi / 2)|` at least `T`, the error is at most `pi B / (T |xmax - xmin|)`, where `B` bounds the samples. -/
theorem even_error (P : Nat) (hP : 0 < P) (t xmin xmax : ℝ) (hx : xmin ≠ xmax) (a b : Nat → ℝ) (s T B : ℝ)
    (hT : 0 < T) (ht : T ≤ |t|) (hB : ∀ k < 2 * P, |evenPoly P xmin (xmax - xmin) a b s (gridPoint (2 * P) xmin xmax k)| ≤ B) :
    ∃ m, differentiationMatrix (realPole t) (2 * P) xmin xmax = some m ∧
      ∃ D : Nat → Nat → ℝ, (∀ j k, j < 2 * P → k < 2 * P → m.get j k = some (D j k)) ∧
        let f := evenPoly P xmin (xmax - xmin) a b s
        let x := gridPoint (2 * P) xmin xmax
        ∀ j < 2 * P, |∑ k ∈ Finset.range (2 * P), D j k * f (x k) - deriv f (x j)| ≤
          Real.pi * B / (T * |xmax - xmin|) := by
  obtain ⟨m, m1, D, m2, m3⟩ := even_exact P hP t xmin xmax hx a b s
  refine ⟨m, m1, D, m2, ?_⟩
  intro f x j hj
  obtain ⟨e, e1, e2⟩ := m3 j hj
  rw [show deriv f (x j) = _ from e1.deriv, sub_sub_cancel, e2]
  have hL : 0 < |xmax - xmin| := abs_pos.2 (sub_ne_zero.2 hx.symm)
  have hpi := Real.pi_pos
  have hv : |if P ≤ j then f (x (j - P)) else -f (x (j + P))| ≤ B := by
    split
    · exact hB _ (by omega)
    · rw [abs_neg]
      exact hB _ (by omega)
  have ht0 : 0 < |t| := lt_of_lt_of_le hT ht
  rw [abs_mul, abs_mul, abs_mul, abs_pow, abs_neg, abs_one, one_pow, one_mul, abs_div, abs_div, abs_mul,
    abs_of_pos hpi, abs_two, abs_div, abs_one, abs_two]
  have h1 : 2 * Real.pi / |xmax - xmin| * (1 / 2 / |t|) ≤ 2 * Real.pi / |xmax - xmin| * (1 / 2 / T) := by
    apply mul_le_mul_of_nonneg_left
    · exact div_le_div_of_nonneg_left (by norm_num) hT ht
    · positivity
  calc _ ≤ 2 * Real.pi / |xmax - xmin| * (1 / 2 / T) * B := by
        apply mul_le_mul h1 hv (abs_nonneg _)
        positivity
    _ = _ := by
      field_simp

/-- Example: six points on `[0, 2 pi)` differentiate `sin 2 x + cos 3 x`, at the point `x = 0` to within `10^-16`
if `tan(pi / 2)` is `1.6 10^16`. -/
example : ∃ m, differentiationMatrix (realPole (1.6e16)) (2 * 3) 0 (2 * Real.pi) = some m ∧
    ∃ D : Nat → Nat → ℝ, (∀ j k, j < 6 → k < 6 → m.get j k = some (D j k)) ∧
      |∑ k ∈ Finset.range 6, D 0 k * (Real.sin (2 * gridPoint 6 0 (2 * Real.pi) k) +
        Real.cos (3 * gridPoint 6 0 (2 * Real.pi) k)) - 2| ≤ 1e-16 := by
  have hpi := Real.pi_pos
  have hf : evenPoly 3 0 (2 * Real.pi - 0) (fun _ => 0) (fun n => if n = 2 then 1 else 0) 1 =
      fun x : ℝ => Real.sin (2 * x) + Real.cos (3 * x) := by
    funext x
    have e1 : 2 * Real.pi * 2 * x / (2 * Real.pi) = 2 * x := by field_simp
    have e2 : 2 * Real.pi * 3 * x / (2 * Real.pi) = 3 * x := by field_simp
    simp [evenPoly, trigPoly, Finset.sum_range_succ, e1, e2]
  obtain ⟨m, m1, D, m2, m3⟩ := even_error 3 (by norm_num) 1.6e16 0 (2 * Real.pi) (by positivity) (fun _ => 0)
    (fun n => if n = 2 then 1 else 0) 1 1.6e16 2 (by norm_num) (by rw [abs_of_pos]; norm_num) (fun k _ => by
      rw [hf]
      have h1 := Real.abs_sin_le_one (2 * gridPoint (2 * 3) 0 (2 * Real.pi) k)
      have h2 := Real.abs_cos_le_one (3 * gridPoint (2 * 3) 0 (2 * Real.pi) k)
      exact (abs_add_le (Real.sin (2 * gridPoint (2 * 3) 0 (2 * Real.pi) k)) _).trans (by linarith))
  refine ⟨m, m1, D, m2, ?_⟩
  have h := m3 0 (by norm_num)
  rw [hf] at h
  have hd : deriv (fun x : ℝ => Real.sin (2 * x) + Real.cos (3 * x)) (gridPoint 6 0 (2 * Real.pi) 0) = 2 := by
    have h1 : HasDerivAt (fun x : ℝ => 2 * x) 2 (gridPoint 6 0 (2 * Real.pi) 0) := by
      simpa using (hasDerivAt_id (gridPoint 6 0 (2 * Real.pi) 0)).const_mul (2 : ℝ)
    have h2 : HasDerivAt (fun x : ℝ => 3 * x) 3 (gridPoint 6 0 (2 * Real.pi) 0) := by
      simpa using (hasDerivAt_id (gridPoint 6 0 (2 * Real.pi) 0)).const_mul (3 : ℝ)
    have := (h1.sin.add h2.cos).deriv
    refine Eq.trans this ?_
    simp [gridPoint]
  dsimp only at h
  rw [show 2 * 3 = 6 from rfl, hd] at h
  refine h.trans ?_
  rw [sub_zero, abs_of_pos (by positivity)]
  rw [div_le_iff₀ (by positivity)]
  nlinarith

end Qsc.DiffMat
