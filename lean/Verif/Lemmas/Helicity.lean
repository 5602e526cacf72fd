import Verif.Model.Helicity
import Mathlib.Algebra.BigOperators.Intervals
import Mathlib.Algebra.BigOperators.Fin
import Mathlib.Algebra.BigOperators.Ring.Finset
import Mathlib.Analysis.SpecialFunctions.Trigonometric.Basic
import Mathlib.Tactic.Ring
import Mathlib.Tactic.Linarith
import Mathlib.Tactic.Push
import Mathlib.Data.ZMod.Basic

/-! Helper lemmas about the quadrant walk. -/

namespace Qsc.Helicity
open Finset

theorem forLoop_add_eq_sum (n : Nat) (f : Nat → Int) :
    forLoop n (fun j c => c + f j) 0 = ∑ j ∈ range n, f j := by
  induction n with
  | zero => simp
  | succ n ih => rw [forLoop_succ, ih, sum_range_succ]

theorem quadrantOf_cases (p q : Bool) :
    quadrantOf p q = 1 ∨ quadrantOf p q = 2 ∨ quadrantOf p q = 3 ∨ quadrantOf p q = 4 := by
  cases p <;> cases q <;> simp [quadrantOf]

/-- crossing number of a pair of quadrants -/
def cross (a b : Int) : Int :=
  if a = 4 ∧ b = 1 then 1 else if a = 1 ∧ b = 4 then -1 else 0

theorem stepOf_eq (a b : Int) : stepOf a b = (b - a) + 4 * cross a b := by
  unfold stepOf cross
  split
  · rename_i h; obtain ⟨rfl, rfl⟩ := h; norm_num
  · split
    · rename_i h; obtain ⟨rfl, rfl⟩ := h; norm_num
    · ring

theorem counter_eq (n : Nat) (q : Nat → Int) :
    counter n q = (q n - q 0) + 4 * ∑ j ∈ range n, cross (q j) (q (j + 1)) := by
  unfold counter
  rw [forLoop_add_eq_sum]
  simp only [stepOf_eq, sum_add_distrib, sum_range_sub, mul_sum]

theorem finish_four (c spsi sG : Int) : finish (4 * c) spsi sG = .ok (c * (spsi * sG)) := by
  unfold finish
  have h : 4 * c * (spsi * sG) = c * (spsi * sG) * 4 := by ring
  simp [h]

theorem quadrant_closed {F : Type} (ge0 : F → Bool) (n : Nat) (n1 n3 : Nat → F) :
    quadrant ge0 n n1 n3 n = quadrant ge0 n n1 n3 0 := by
  unfold quadrant
  by_cases h : n = 0
  · simp [h]
  · simp [h, Nat.pos_of_ne_zero h]

theorem calculateHelicity_eq {F : Type} (ge0 : F → Bool) (n : Nat) (n1 n3 : Nat → F)
    (spsi sG : Int) :
    calculateHelicity ge0 n n1 n3 spsi sG =
      .ok ((∑ j ∈ range n, cross (quadrant ge0 n n1 n3 j) (quadrant ge0 n n1 n3 (j + 1)))
        * (spsi * sG)) := by
  unfold calculateHelicity
  rw [counter_eq, quadrant_closed, sub_self, zero_add, finish_four]

theorem quadrant_succ {F : Type} (ge0 : F → Bool) (n : Nat) (n1 n3 : Nat → F) (j : Nat)
    (hj : j < n) :
    quadrant ge0 n n1 n3 (j + 1)
      = quadrantOf (ge0 (n1 ((j + 1) % n))) (ge0 (n3 ((j + 1) % n))) := by
  unfold quadrant
  by_cases h : j + 1 < n
  · simp [h, Nat.mod_eq_of_lt h]
  · have h2 : j + 1 = n := by omega
    have hn : n ≠ 0 := by omega
    subst h2
    simp

theorem quadrant_lt {F : Type} (ge0 : F → Bool) (n : Nat) (n1 n3 : Nat → F) (j : Nat)
    (hj : j < n) :
    quadrant ge0 n n1 n3 j = quadrantOf (ge0 (n1 j)) (ge0 (n3 j)) := by
  simp [quadrant, hj]

/-- The crossing sum written with the cyclic successor. -/
theorem crossSum_eq {F : Type} (ge0 : F → Bool) (n : Nat) (n1 n3 : Nat → F) :
    (∑ j ∈ range n, cross (quadrant ge0 n n1 n3 j) (quadrant ge0 n n1 n3 (j + 1)))
      = ∑ j ∈ range n, cross (quadrantOf (ge0 (n1 j)) (ge0 (n3 j)))
          (quadrantOf (ge0 (n1 ((j + 1) % n))) (ge0 (n3 ((j + 1) % n)))) := by
  apply sum_congr rfl
  intro j hj
  rw [mem_range] at hj
  rw [quadrant_lt _ _ _ _ _ hj, quadrant_succ _ _ _ _ _ hj]

theorem cross_swap (a b : Int) : cross b a = - cross a b := by
  unfold cross
  split <;> rename_i h
  · obtain ⟨rfl, rfl⟩ := h; norm_num
  · split <;> rename_i h'
    · obtain ⟨rfl, rfl⟩ := h'; norm_num
    · rw [if_neg (fun hc => h' ⟨hc.2, hc.1⟩), if_neg (fun hc => h ⟨hc.2, hc.1⟩)]; rfl

/-- cyclic sums are invariant under a shift of the index -/
theorem sum_shift (n : Nat) (k : Nat) (f : Nat → Int) :
    ∑ j ∈ range n, f ((j + k) % n) = ∑ j ∈ range n, f j := by
  rcases Nat.eq_zero_or_pos n with rfl | hn
  · simp
  have : NeZero n := ⟨by omega⟩
  have key : ∀ g : Nat → Int, ∑ j ∈ range n, g j = ∑ j : Fin n, g j.val := by
    intro g; rw [Finset.sum_range]
  rw [key, key]
  rw [← Equiv.sum_comp (Equiv.addRight (Fin.ofNat n k)) (fun j : Fin n => f j.val)]
  apply sum_congr rfl
  intro j _
  simp [Fin.val_add, Fin.ofNat]

/-- The lifted quadrant of a real angle (proof device). -/
noncomputable def lift (a : ℝ) : ℤ × ℝ :=
  (⌊a / (2 * Real.pi)⌋, a - 2 * Real.pi * ⌊a / (2 * Real.pi)⌋)

theorem lift_bounds (a : ℝ) : 0 ≤ (lift a).2 ∧ (lift a).2 < 2 * Real.pi := by
  have hp : 0 < 2 * Real.pi := by positivity
  have h1 := Int.floor_le (a / (2 * Real.pi))
  have h2 := Int.lt_floor_add_one (a / (2 * Real.pi))
  rw [le_div_iff₀ hp] at h1
  rw [div_lt_iff₀ hp] at h2
  constructor <;> simp only [lift] <;> nlinarith

/-- quadrant of an angle in `[0, 2π)` -/
noncomputable def quadR (b : ℝ) : ℤ :=
  if b ≤ Real.pi / 2 then 1 else if b ≤ Real.pi then 2
  else if b < 3 * Real.pi / 2 then 3 else 4

open Classical in
theorem quadrantOf_trig (r a : ℝ) (hr : 0 < r) :
    quadrantOf (decide (0 ≤ r * Real.cos a)) (decide (0 ≤ r * Real.sin a))
      = quadR (lift a).2 := by
  obtain ⟨h0, h1⟩ := lift_bounds a
  have hc : Real.cos a = Real.cos (lift a).2 := by
    have : a = (lift a).2 + (lift a).1 * (2 * Real.pi) := by simp only [lift]; ring
    conv_lhs => rw [this]
    rw [Real.cos_add_int_mul_two_pi]
  have hs : Real.sin a = Real.sin (lift a).2 := by
    have : a = (lift a).2 + (lift a).1 * (2 * Real.pi) := by simp only [lift]; ring
    conv_lhs => rw [this]
    rw [Real.sin_add_int_mul_two_pi]
  rw [hc, hs]
  set b := (lift a).2
  have ec : (0 ≤ r * Real.cos b) ↔ 0 ≤ Real.cos b := by
    constructor
    · intro h; exact nonneg_of_mul_nonneg_right h hr
    · intro h; positivity
  have es : (0 ≤ r * Real.sin b) ↔ 0 ≤ Real.sin b := by
    constructor
    · intro h; exact nonneg_of_mul_nonneg_right h hr
    · intro h; positivity
  simp only [ec, es]
  have hpi := Real.pi_pos
  unfold quadR
  by_cases c1 : b ≤ Real.pi / 2
  · have : 0 ≤ Real.cos b := Real.cos_nonneg_of_mem_Icc ⟨by linarith, by linarith⟩
    have h' : 0 ≤ Real.sin b := Real.sin_nonneg_of_nonneg_of_le_pi h0 (by linarith)
    simp [c1, this, h', quadrantOf]
  · by_cases c2 : b ≤ Real.pi
    · have : ¬ 0 ≤ Real.cos b := not_le.mpr
        (Real.cos_neg_of_pi_div_two_lt_of_lt (by linarith) (by linarith))
      have h' : 0 ≤ Real.sin b := Real.sin_nonneg_of_nonneg_of_le_pi h0 (by linarith)
      simp [c1, c2, this, h', quadrantOf]
    · have h' : ¬ 0 ≤ Real.sin b := by
        have : Real.sin (b - Real.pi) > 0 :=
          Real.sin_pos_of_pos_of_lt_pi (by linarith) (by linarith)
        rw [Real.sin_sub_pi] at this
        linarith
      by_cases c3 : b < 3 * Real.pi / 2
      · have : ¬ 0 ≤ Real.cos b := not_le.mpr
          (Real.cos_neg_of_pi_div_two_lt_of_lt (by linarith) (by linarith))
        simp [c1, c2, c3, this, h', quadrantOf]
      · have : 0 ≤ Real.cos b := by
          have : 0 ≤ Real.cos (b - 2 * Real.pi) :=
            Real.cos_nonneg_of_mem_Icc ⟨by linarith, by linarith⟩
          rwa [Real.cos_sub_two_pi] at this
        simp [c1, c2, c3, this, h', quadrantOf]

/-- For turns below a quarter turn the step is the difference of lifted quadrants. -/
theorem stepOf_lift (a b : ℝ) (h : |b - a| < Real.pi / 2) :
    stepOf (quadR (lift a).2) (quadR (lift b).2)
      = (4 * (lift b).1 + quadR (lift b).2) - (4 * (lift a).1 + quadR (lift a).2) := by
  have hpi := Real.pi_pos
  obtain ⟨a0, a1⟩ := lift_bounds a
  obtain ⟨b0, b1⟩ := lift_bounds b
  have ea : a = (lift a).2 + 2 * Real.pi * (lift a).1 := by simp only [lift]; ring
  have eb : b = (lift b).2 + 2 * Real.pi * (lift b).1 := by simp only [lift]; ring
  rw [ea, eb, abs_lt] at h
  generalize (lift a).2 = s at *
  generalize (lift b).2 = t at *
  generalize (lift a).1 = m at *
  generalize (lift b).1 = k at *
  obtain ⟨h1, h2⟩ := h
  have hk : k = m ∨ k = m + 1 ∨ k = m - 1 := by
    have u : (k : ℝ) - m < 2 := by
      by_contra hc
      push Not at hc
      nlinarith
    have l : (-2 : ℝ) < (k : ℝ) - m := by
      by_contra hc
      push Not at hc
      nlinarith
    have u' : k - m < 2 := by exact_mod_cast u
    have l' : -2 < k - m := by exact_mod_cast l
    omega
  rcases hk with rfl | rfl | rfl
  · have h1' : -(Real.pi / 2) < t - s := by linarith
    have h2' : t - s < Real.pi / 2 := by linarith
    unfold quadR
    split_ifs <;> first
      | (exfalso; linarith)
      | (simp [stepOf])
  · push_cast at h1 h2
    have hs : 3 * Real.pi / 2 < s := by linarith
    have ht : t < Real.pi / 2 := by linarith
    have e1 : quadR s = 4 := by
      unfold quadR
      rw [if_neg (by linarith), if_neg (by linarith), if_neg (by linarith)]
    have e2 : quadR t = 1 := by
      unfold quadR
      rw [if_pos (by linarith)]
    rw [e1, e2]; simp [stepOf]; ring
  · push_cast at h1 h2
    have hs : s < Real.pi / 2 := by linarith
    have ht : 3 * Real.pi / 2 < t := by linarith
    have e1 : quadR t = 4 := by
      unfold quadR
      rw [if_neg (by linarith), if_neg (by linarith), if_neg (by linarith)]
    have e2 : quadR s = 1 := by
      unfold quadR
      rw [if_pos (by linarith)]
    rw [e1, e2]; simp [stepOf]; ring

theorem lift_add (a : ℝ) (w : ℤ) :
    (lift (a + 2 * Real.pi * w)).1 = (lift a).1 + w ∧ (lift (a + 2 * Real.pi * w)).2 = (lift a).2 := by
  have hp : (2 * Real.pi) ≠ 0 := by positivity
  have : (a + 2 * Real.pi * w) / (2 * Real.pi) = a / (2 * Real.pi) + w := by
    field_simp
  constructor
  · simp only [lift, this, Int.floor_add_intCast]
  · simp only [lift, this, Int.floor_add_intCast]; push_cast; ring

end Qsc.Helicity
