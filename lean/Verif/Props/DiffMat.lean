import Verif.Lemmas.DiffMat
import Verif.Spec.DiffMat
import Mathlib.Analysis.SpecialFunctions.Trigonometric.Deriv
import Mathlib.Analysis.Calculus.Deriv.Add
import Mathlib.Analysis.Calculus.Deriv.Mul

/-!
# C37, C38: the spectral differentiation matrix
-/

namespace Qsc.DiffMat

open Qsc.VecMat Qsc.Spec.DiffMat

/-- C37.  For every odd number of points the matrix is built without leaving any array, is `N` by
`N`, antisymmetric and circulant, and every row and every column sums to zero. -/
theorem antisymmetric_circulant (N : Nat) (hN : N % 2 = 1) (xmin xmax : ℝ) :
    ∃ m, differentiationMatrix real N xmin xmax = some m ∧ m.nrows = N ∧ m.ncols = N ∧
      ∃ D : Nat → Nat → ℝ, (∀ j k, j < N → k < N → m.get j k = some (D j k)) ∧
        (∀ j k, j < N → k < N → D j k = - D k j) ∧
        (∀ j k, j < N → k < N → D ((j + 1) % N) ((k + 1) % N) = D j k) ∧
        (∀ j, j < N → ∑ k ∈ Finset.range N, D j k = 0) ∧
        (∀ k, k < N → ∑ j ∈ Finset.range N, D j k = 0) := by
  obtain ⟨M, rfl⟩ : ∃ M, N = 2 * M + 1 := ⟨N / 2, by omega⟩
  obtain ⟨m, m1, -, m3, m4, m5⟩ := entries_odd M xmin xmax
  refine ⟨m, m1, m3, m4, entry M (2 * Real.pi / (xmax - xmin)), m5,
    fun j k _ _ => entry_antisymm M _ j k, ?_, fun j _ => entry_row_zero M _ j, ?_⟩
  · intro j k hj hk
    have hmod : ∀ a, a < 2 * M + 1 → (a + 1) % (2 * M + 1) = if a = 2 * M then 0 else a + 1 := by
      intro a ha
      by_cases h : a = 2 * M
      · rw [if_pos h, h, Nat.mod_self]
      · rw [if_neg h, Nat.mod_eq_of_lt (by omega)]
    rw [hmod j hj, hmod k hk]
    by_cases h1 : j = 2 * M <;> by_cases h2 : k = 2 * M
    · rw [if_pos h1, if_pos h2, h1, h2]
      simp [entry]
    · rw [if_pos h1, if_neg h2, h1, entry_antisymm, entry_wrap, ← entry_antisymm]
    · rw [if_neg h1, if_pos h2, h2, entry_wrap]
    · rw [if_neg h1, if_neg h2, entry_shift]
  · intro k _
    have : ∀ j ∈ Finset.range (2 * M + 1), entry M (2 * Real.pi / (xmax - xmin)) j k =
        - entry M (2 * Real.pi / (xmax - xmin)) k j := fun j _ => entry_antisymm M _ j k
    rw [Finset.sum_congr rfl this, Finset.sum_neg_distrib, entry_row_zero, neg_zero]

/-- The matrix is not the zero matrix: the neighbours of the diagonal. -/
theorem off_diagonal (M : Nat) (hM : 0 < M) (xmin xmax : ℝ) (h : xmin < xmax) :
    ∃ m, differentiationMatrix real (2 * M + 1) xmin xmax = some m ∧
      ∃ v, m.get 0 1 = some v ∧ 0 < v := by
  obtain ⟨m, m1, -, m3, m4, m5⟩ := entries_odd M xmin xmax
  refine ⟨m, m1, _, m5 0 1 (by omega) (by omega), ?_⟩
  unfold entry
  have hs : 0 < Real.sin (Real.pi / (2 * M + 1)) := by
    apply Real.sin_pos_of_pos_of_lt_pi
    · have := Real.pi_pos; positivity
    · apply div_lt_self Real.pi_pos
      have : (0 : ℝ) < M := by exact_mod_cast hM
      linarith
  have : Real.sin (((0 : Nat) - ((1 : Nat) : ℝ)) * Real.pi / (2 * M + 1)) =
      - Real.sin (Real.pi / (2 * M + 1)) := by
    rw [← Real.sin_neg]; congr 1; push_cast; ring
  rw [this]
  have h1 : 0 < xmax - xmin := by linarith
  have h2 := Real.pi_pos
  have : 2 * Real.pi / (xmax - xmin) * ((-1) ^ (0 + 1) * (1 / 2 / -Real.sin (Real.pi / (2 * M + 1))))
      = 2 * Real.pi / (xmax - xmin) * (1 / 2 / Real.sin (Real.pi / (2 * M + 1))) := by
    rw [div_neg]; ring
  rw [this]
  positivity

theorem trigPoly_hasDerivAt (M : Nat) (L : ℝ) (a b : Nat → ℝ) (x : ℝ) :
    HasDerivAt (trigPoly M L a b)
      (∑ n ∈ Finset.range (M + 1), (2 * Real.pi * n / L) *
        (b n * Real.cos (2 * Real.pi * n * x / L) - a n * Real.sin (2 * Real.pi * n * x / L))) x := by
  unfold trigPoly
  apply HasDerivAt.fun_sum
  intro n _
  have hi : HasDerivAt (fun x : ℝ => 2 * Real.pi * n * x / L) (2 * Real.pi * n / L) x := by
    have := ((hasDerivAt_id x).const_mul (2 * Real.pi * n)).div_const L
    simpa using this
  have := (hi.cos.const_mul (a n)).add (hi.sin.const_mul (b n))
  refine this.congr_deriv ?_
  ring

/-- C38.  For every odd `N = 2 M + 1` and every interval, the matrix applied to the samples of a
trigonometric polynomial of degree at most `M` gives its exact derivative at every grid point. -/
theorem exact_on_trigPoly (M : Nat) (xmin xmax : ℝ) (hx : xmin ≠ xmax) (a b : Nat → ℝ) :
    ∃ m, differentiationMatrix real (2 * M + 1) xmin xmax = some m ∧
      ∃ D : Nat → Nat → ℝ, (∀ j k, j < 2 * M + 1 → k < 2 * M + 1 → m.get j k = some (D j k)) ∧
        ∀ j < 2 * M + 1,
          HasDerivAt (trigPoly M (xmax - xmin) a b)
            (∑ k ∈ Finset.range (2 * M + 1),
              D j k * trigPoly M (xmax - xmin) a b (gridPoint (2 * M + 1) xmin xmax k))
            (gridPoint (2 * M + 1) xmin xmax j) := by
  obtain ⟨m, m1, -, -, -, m5⟩ := entries_odd M xmin xmax
  refine ⟨m, m1, entry M (2 * Real.pi / (xmax - xmin)), m5, ?_⟩
  intro j hj
  have hL : xmax - xmin ≠ 0 := sub_ne_zero.2 hx.symm
  set L := xmax - xmin with hLdef
  refine (trigPoly_hasDerivAt M L a b (gridPoint (2 * M + 1) xmin xmax j)).congr_deriv ?_
  simp only [trigPoly, Finset.mul_sum]
  rw [Finset.sum_comm]
  apply Finset.sum_congr rfl
  intro n hn
  have hn' : n ≤ M := by have := Finset.mem_range.1 hn; omega
  obtain ⟨hc, hs⟩ := mode_real M j hj n hn'
  have hN0 : (2 * (M : ℝ) + 1) ≠ 0 := by positivity
  set x := gridPoint (2 * M + 1) xmin xmax j with hxj
  have hadd : ∀ k : Nat, 2 * Real.pi * n * gridPoint (2 * M + 1) xmin xmax k / L =
      2 * Real.pi * n * x / L + 2 * Real.pi * n * ((k : ℝ) - j) / (2 * M + 1) := by
    intro k
    rw [hxj]
    unfold gridPoint
    rw [← hLdef]
    push_cast
    field_simp
    ring
  have hterm : ∀ k ∈ Finset.range (2 * M + 1), entry M (2 * Real.pi / L) j k *
      (a n * Real.cos (2 * Real.pi * n * gridPoint (2 * M + 1) xmin xmax k / L) +
        b n * Real.sin (2 * Real.pi * n * gridPoint (2 * M + 1) xmin xmax k / L)) =
      (2 * Real.pi / L) * (a n * Real.cos (2 * Real.pi * n * x / L) +
        b n * Real.sin (2 * Real.pi * n * x / L)) *
          (entry M 1 j k * Real.cos (2 * Real.pi * n * ((k : ℝ) - j) / (2 * M + 1))) +
      (2 * Real.pi / L) * (b n * Real.cos (2 * Real.pi * n * x / L) -
        a n * Real.sin (2 * Real.pi * n * x / L)) *
          (entry M 1 j k * Real.sin (2 * Real.pi * n * ((k : ℝ) - j) / (2 * M + 1))) := by
    intro k _
    rw [hadd k, Real.cos_add, Real.sin_add, entry_scale]
    ring
  rw [Finset.sum_congr rfl hterm, Finset.sum_add_distrib, ← Finset.mul_sum, ← Finset.mul_sum, hc, hs]
  ring

/-- Example: five points on `[0, 2 pi / 3)` (as for `nfp = 3`) differentiate
`1 + sin 3 x + cos 6 x` exactly. -/
example : ∃ m, differentiationMatrix real (2 * 2 + 1) 0 (2 * Real.pi / 3) = some m ∧
    ∃ D : Nat → Nat → ℝ, (∀ j k, j < 2 * 2 + 1 → k < 2 * 2 + 1 → m.get j k = some (D j k)) ∧
      ∀ j < 2 * 2 + 1, HasDerivAt (fun x : ℝ => 1 + Real.sin (3 * x) + Real.cos (6 * x))
        (∑ k ∈ Finset.range (2 * 2 + 1), D j k *
          (1 + Real.sin (3 * gridPoint (2 * 2 + 1) 0 (2 * Real.pi / 3) k) +
            Real.cos (6 * gridPoint (2 * 2 + 1) 0 (2 * Real.pi / 3) k)))
        (gridPoint (2 * 2 + 1) 0 (2 * Real.pi / 3) j) := by
  have hpi := Real.pi_pos
  obtain ⟨m, h1, D, h2, h3⟩ := exact_on_trigPoly 2 0 (2 * Real.pi / 3) (by positivity)
    (fun n => if n = 1 then 0 else 1) (fun n => if n = 1 then 1 else 0)
  have hf : trigPoly 2 (2 * Real.pi / 3 - 0) (fun n => if n = 1 then 0 else 1)
      (fun n => if n = 1 then 1 else 0) = fun x : ℝ => 1 + Real.sin (3 * x) + Real.cos (6 * x) := by
    funext x
    have e1 : 2 * Real.pi * x / (2 * Real.pi / 3) = 3 * x := by field_simp
    have e2 : 2 * Real.pi * 2 * x / (2 * Real.pi / 3) = 6 * x := by field_simp; ring
    simp [trigPoly, Finset.sum_range_succ, e1, e2]
  rw [hf] at h3
  exact ⟨m, h1, D, h2, h3⟩

/-- The bound on the wave number is needed: with three points the mode `n = 3` is invisible on the
grid but its derivative is not zero. -/
theorem unresolved_mode : ∃ m, differentiationMatrix real (2 * 1 + 1) 0 (2 * Real.pi) = some m ∧
    ∃ D : Nat → Nat → ℝ, (∀ j k, j < 3 → k < 3 → m.get j k = some (D j k)) ∧
      ∑ k ∈ Finset.range 3, D 0 k * Real.sin (3 * gridPoint 3 0 (2 * Real.pi) k) = 0 ∧
      HasDerivAt (fun x : ℝ => Real.sin (3 * x)) 3 (gridPoint 3 0 (2 * Real.pi) 0) := by
  obtain ⟨m, m1, -, -, -, m5⟩ := entries_odd 1 0 (2 * Real.pi)
  refine ⟨m, m1, _, m5, ?_, ?_⟩
  · apply Finset.sum_eq_zero
    intro k _
    have : 3 * gridPoint 3 0 (2 * Real.pi) k = ((2 * k : Nat) : ℝ) * Real.pi := by
      unfold gridPoint; push_cast; ring
    rw [this, Real.sin_nat_mul_pi, mul_zero]
  · have h : HasDerivAt (fun x : ℝ => 3 * x) 3 (gridPoint 3 0 (2 * Real.pi) 0) := by
      simpa using (hasDerivAt_id (gridPoint 3 0 (2 * Real.pi) 0)).const_mul (3 : ℝ)
    refine h.sin.congr_deriv ?_
    simp [gridPoint]

end Qsc.DiffMat
