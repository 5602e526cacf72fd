import Verif.Model.Field
import Mathlib.Algebra.BigOperators.Group.Finset.Basic
import Mathlib.Algebra.BigOperators.Ring.Finset
import Mathlib.Algebra.Order.BigOperators.Group.Finset
import Mathlib.Analysis.SpecialFunctions.Trigonometric.Basic
import Mathlib.Tactic.Linarith
import Mathlib.Tactic.Ring
import Mathlib.Tactic.Positivity

/-!
# Sums and extrema of profiles, and the operations on the reals
-/

namespace Qsc

/-- The real numbers. -/
noncomputable def realOps : Ops ℝ where
  pi := Real.pi
  sin := Real.sin
  cos := Real.cos
  tan := Real.tan
  sqrt := Real.sqrt
  abs := fun x => |x|
  lt := fun a b => decide (a < b)
  ge0 := fun a => decide (0 ≤ a)

theorem vsum_eq {K : Type} [AddCommMonoid K] (n : Nat) (f : Nat → K) :
    vsum n f = ∑ j ∈ Finset.range n, f j := by
  unfold vsum
  induction n with
  | zero => rfl
  | succ n ih => rw [forLoop_succ, ih, Finset.sum_range_succ]

/-- The minimum is a lower bound and is attained. -/
theorem vmin_spec (n : Nat) (hn : 0 < n) (f : Nat → ℝ) :
    (∀ j < n, vmin realOps n f ≤ f j) ∧ ∃ j < n, vmin realOps n f = f j := by
  obtain ⟨m, rfl⟩ : ∃ m, n = m + 1 := ⟨n - 1, by omega⟩
  unfold vmin
  rw [Nat.add_sub_cancel]
  clear hn
  induction m with
  | zero =>
    refine ⟨fun j hj => ?_, 0, by omega, rfl⟩
    obtain rfl : j = 0 := by omega
    exact le_refl _
  | succ m ih =>
    obtain ⟨h1, k, hk, h2⟩ := ih
    rw [forLoop_succ]
    generalize forLoop m _ _ = x at h1 h2 ⊢
    have hlt : realOps.lt (f (m + 1)) x = decide (f (m + 1) < x) := rfl
    by_cases h : f (m + 1) < x
    · rw [if_pos (by rw [hlt]; exact decide_eq_true h)]
      refine ⟨fun j hj => ?_, m + 1, by omega, rfl⟩
      rcases Nat.lt_succ_iff_lt_or_eq.1 hj with h' | rfl
      · exact le_of_lt (lt_of_lt_of_le h (h1 j h'))
      · exact le_refl _
    · rw [if_neg (by rw [hlt]; simpa using h)]
      refine ⟨fun j hj => ?_, k, by omega, h2⟩
      rcases Nat.lt_succ_iff_lt_or_eq.1 hj with h' | rfl
      · exact h1 j h'
      · exact not_lt.1 h

/-- The maximum is an upper bound and is attained. -/
theorem vmax_spec (n : Nat) (hn : 0 < n) (f : Nat → ℝ) :
    (∀ j < n, f j ≤ vmax realOps n f) ∧ ∃ j < n, vmax realOps n f = f j := by
  obtain ⟨m, rfl⟩ : ∃ m, n = m + 1 := ⟨n - 1, by omega⟩
  unfold vmax
  rw [Nat.add_sub_cancel]
  clear hn
  induction m with
  | zero =>
    refine ⟨fun j hj => ?_, 0, by omega, rfl⟩
    obtain rfl : j = 0 := by omega
    exact le_refl _
  | succ m ih =>
    obtain ⟨h1, k, hk, h2⟩ := ih
    rw [forLoop_succ]
    generalize forLoop m _ _ = x at h1 h2 ⊢
    have hlt : realOps.lt x (f (m + 1)) = decide (x < f (m + 1)) := rfl
    by_cases h : x < f (m + 1)
    · rw [if_pos (by rw [hlt]; exact decide_eq_true h)]
      refine ⟨fun j hj => ?_, m + 1, by omega, rfl⟩
      rcases Nat.lt_succ_iff_lt_or_eq.1 hj with h' | rfl
      · exact le_of_lt (lt_of_le_of_lt (h1 j h') h)
      · exact le_refl _
    · rw [if_neg (by rw [hlt]; simpa using h)]
      refine ⟨fun j hj => ?_, k, by omega, h2⟩
      rcases Nat.lt_succ_iff_lt_or_eq.1 hj with h' | rfl
      · exact h1 j h'
      · exact not_lt.1 h

/-- A weighted mean lies between bounds of the values. -/
theorem mean_between {n : Nat} {f w : Nat → ℝ} {a b : ℝ} (hw : ∀ j < n, 0 < w j) (hn : 0 < n)
    (ha : ∀ j < n, a ≤ f j) (hb : ∀ j < n, f j ≤ b) :
    a ≤ (∑ j ∈ Finset.range n, f j * w j) / ∑ j ∈ Finset.range n, w j ∧
      (∑ j ∈ Finset.range n, f j * w j) / ∑ j ∈ Finset.range n, w j ≤ b := by
  have hpos : 0 < ∑ j ∈ Finset.range n, w j :=
    Finset.sum_pos (fun j hj => hw j (Finset.mem_range.1 hj)) ⟨0, Finset.mem_range.2 hn⟩
  constructor
  · rw [le_div_iff₀ hpos, Finset.mul_sum]
    exact Finset.sum_le_sum fun j hj =>
      mul_le_mul_of_nonneg_right (ha j (Finset.mem_range.1 hj)) (le_of_lt (hw j (Finset.mem_range.1 hj)))
  · rw [div_le_iff₀ hpos, Finset.mul_sum]
    exact Finset.sum_le_sum fun j hj =>
      mul_le_mul_of_nonneg_right (hb j (Finset.mem_range.1 hj)) (le_of_lt (hw j (Finset.mem_range.1 hj)))

/-- A weighted sum of squares is zero only if every value is. -/
theorem wsum_sq_eq_zero {n : Nat} {f w : Nat → ℝ} (hw : ∀ j < n, 0 < w j) :
    ∑ j ∈ Finset.range n, f j * f j * w j = 0 ↔ ∀ j < n, f j = 0 := by
  rw [Finset.sum_eq_zero_iff_of_nonneg]
  · refine ⟨fun h j hj => ?_, fun h j hj => ?_⟩
    · have := h j (Finset.mem_range.2 hj)
      rcases mul_eq_zero.1 this with h' | h'
      · exact mul_self_eq_zero.1 h'
      · exact absurd h' (ne_of_gt (hw j hj))
    · rw [h j (Finset.mem_range.1 hj)]; ring
  · intro j hj
    exact mul_nonneg (mul_self_nonneg _) (le_of_lt (hw j (Finset.mem_range.1 hj)))

end Qsc
