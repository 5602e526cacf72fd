import Verif.Lemmas.Helicity
import Verif.Spec.Helicity

/-!
# Properties C01, C02: axis helicity
-/

namespace Qsc.Helicity
open Finset Qsc.Spec.Helicity

/-- **C01.** For every grid size, every sample arrays (any float type, any behaviour of the
test `>= 0`, so NaN included) and every `spsi`, `sG`, `calculate_helicity` does not throw;
the helicity is the signed number of crossings of the positive R half axis (cyclically)
times `spsi * sG`. -/
theorem helicity_never_throws {F : Type} (ge0 : F → Bool) (nphi : Nat) (n1 n3 : Nat → F)
    (spsi sG : Int) :
    calculateHelicity ge0 nphi n1 n3 spsi sG =
      .ok (((upCrossings nphi (fun j => (ge0 (n1 j), ge0 (n3 j))) : Int)
            - downCrossings nphi (fun j => (ge0 (n1 j), ge0 (n3 j)))) * (spsi * sG)) := by
  rw [calculateHelicity_eq, crossSum_eq]
  congr 2
  unfold upCrossings downCrossings
  rw [card_filter, card_filter]
  push_cast
  rw [← sum_sub_distrib]
  apply sum_congr rfl
  intro j _
  generalize ge0 (n1 j) = a
  generalize ge0 (n3 j) = b
  generalize ge0 (n1 ((j + 1) % nphi)) = c
  generalize ge0 (n3 ((j + 1) % nphi)) = d
  revert a b c d
  decide

/-- Non-vacuity: a walk once around (quadrants 1,2,3,4) with `spsi = 1`, `sG = -1` has
helicity -1. -/
example : calculateHelicity (fun x : Int => decide (0 ≤ x)) 4
    (fun j => [1, -1, -1, 1].getD j 0) (fun j => [1, 1, -1, -1].getD j 0) 1 (-1) = .ok (-1) := by
  decide

/-- **C02 (winding number).** Let the normal's (R,Z) projection have positive lengths `ρ j`
and angles `α j`, `j = 0..nphi`, turning by less than a quarter turn between neighbours and
closing up after `w` turns.  Then the helicity is `w * (spsi * sG)`. -/
theorem helicity_eq_winding (nphi : Nat) (ρ α : Nat → ℝ) (w spsi sG : Int)
    (hρ : ∀ j, 0 < ρ j)
    (hturn : ∀ j < nphi, |α (j + 1) - α j| < Real.pi / 2)
    (hclose : α nphi = α 0 + 2 * Real.pi * w) :
    calculateHelicity (F := ℝ) (fun x => open Classical in decide (0 ≤ x)) nphi
      (fun j => ρ j * Real.cos (α j)) (fun j => ρ j * Real.sin (α j)) spsi sG
      = .ok (w * (spsi * sG)) := by
  classical
  unfold calculateHelicity
  rw [← finish_four]
  congr 1
  unfold counter
  rw [forLoop_add_eq_sum]
  have hq : ∀ j ≤ nphi, quadrant (F := ℝ) (fun x => decide (0 ≤ x)) nphi
      (fun j => ρ j * Real.cos (α j)) (fun j => ρ j * Real.sin (α j)) j
      = if nphi = 0 then 0 else quadR (lift (α j)).2 := by
    intro j hj
    by_cases h0 : nphi = 0
    · subst h0; simp [quadrant]
    · rw [if_neg h0]
      by_cases hlt : j < nphi
      · rw [quadrant_lt _ _ _ _ _ hlt, quadrantOf_trig _ _ (hρ j)]
      · have : j = nphi := by omega
        subst this
        rw [quadrant_closed, quadrant_lt _ _ _ _ _ (Nat.pos_of_ne_zero h0),
          quadrantOf_trig _ _ (hρ 0), hclose, (lift_add _ _).2]
  by_cases h0 : nphi = 0
  · subst h0
    have : w = 0 := by
      have hpi := Real.pi_pos
      have : 2 * Real.pi * w = 0 := by linarith
      rcases mul_eq_zero.mp this with h | h
      · nlinarith
      · exact_mod_cast h
    simp [this]
  have hs : ∀ j ∈ range nphi,
      stepOf (quadrant (F := ℝ) (fun x => decide (0 ≤ x)) nphi
        (fun j => ρ j * Real.cos (α j)) (fun j => ρ j * Real.sin (α j)) j)
        (quadrant (F := ℝ) (fun x => decide (0 ≤ x)) nphi
        (fun j => ρ j * Real.cos (α j)) (fun j => ρ j * Real.sin (α j)) (j + 1))
      = (4 * (lift (α (j + 1))).1 + quadR (lift (α (j + 1))).2)
        - (4 * (lift (α j)).1 + quadR (lift (α j)).2) := by
    intro j hj
    rw [mem_range] at hj
    rw [hq j (by omega), hq (j + 1) (by omega), if_neg h0, if_neg h0]
    exact stepOf_lift _ _ (hturn j hj)
  rw [sum_congr rfl hs, sum_range_sub (fun j => 4 * (lift (α j)).1 + quadR (lift (α j)).2),
    hclose, (lift_add _ _).1, (lift_add _ _).2]
  ring

/-- Non-vacuity: nine equally spaced points turning twice clockwise, `w = -2` (nine is the
least number of points for two turns with steps below a quarter turn). -/
example : ∃ α : Nat → ℝ, (∀ j < 9, |α (j + 1) - α j| < Real.pi / 2) ∧
    α 9 = α 0 + 2 * Real.pi * ((-2 : ℤ) : ℝ) := by
  refine ⟨fun j => -(4 * Real.pi / 9) * j, ?_, ?_⟩
  · intro j _
    have hpi := Real.pi_pos
    rw [show -(4 * Real.pi / 9) * ((j + 1 : ℕ) : ℝ) - -(4 * Real.pi / 9) * (j : ℝ)
      = -(4 * Real.pi / 9) by push_cast; ring, abs_neg, abs_of_pos (by positivity)]
    linarith
  · push_cast; ring

/-- **C02 (starting point).** Renumbering the grid points cyclically does not change the
result. -/
theorem helicity_shift {F : Type} (ge0 : F → Bool) (nphi k : Nat) (n1 n3 : Nat → F)
    (spsi sG : Int) :
    calculateHelicity ge0 nphi (fun j => n1 ((j + k) % nphi)) (fun j => n3 ((j + k) % nphi))
      spsi sG = calculateHelicity ge0 nphi n1 n3 spsi sG := by
  rw [calculateHelicity_eq, calculateHelicity_eq, crossSum_eq, crossSum_eq]
  congr 2
  rw [← sum_shift nphi k (fun j => cross (quadrantOf (ge0 (n1 j)) (ge0 (n3 j)))
          (quadrantOf (ge0 (n1 ((j + 1) % nphi))) (ge0 (n3 ((j + 1) % nphi)))))]
  apply sum_congr rfl
  intro j _
  have : ((j + 1) % nphi + k) % nphi = ((j + k) % nphi + 1) % nphi := by
    simp only [Nat.mod_add_mod]; congr 1; omega
  simp only [this]

/-- **C02 (orientation).** Traversing the axis backwards negates the helicity. -/
theorem helicity_reverse {F : Type} (ge0 : F → Bool) (nphi : Nat) (n1 n3 : Nat → F)
    (spsi sG h : Int) (hres : calculateHelicity ge0 nphi n1 n3 spsi sG = .ok h) :
    calculateHelicity ge0 nphi (fun j => n1 (nphi - 1 - j)) (fun j => n3 (nphi - 1 - j))
      spsi sG = .ok (-h) := by
  rw [calculateHelicity_eq, crossSum_eq] at hres ⊢
  simp only [Result.ok.injEq] at hres ⊢
  rw [← hres, ← neg_mul]
  congr 1
  rcases Nat.eq_zero_or_pos nphi with rfl | hn
  · simp
  rw [← sum_range_reflect, ← sum_neg_distrib, ← sum_shift nphi (nphi - 1)
    (fun j => -cross (quadrantOf (ge0 (n1 j)) (ge0 (n3 j)))
          (quadrantOf (ge0 (n1 ((j + 1) % nphi))) (ge0 (n3 ((j + 1) % nphi)))))]
  apply sum_congr rfl
  intro j hj
  rw [mem_range] at hj
  rw [← cross_swap]
  have e1 : nphi - 1 - (nphi - 1 - j) = j := by omega
  have e2 : nphi - 1 - ((nphi - 1 - j + 1) % nphi) = (j + (nphi - 1)) % nphi := by
    rcases Nat.eq_zero_or_pos j with rfl | hj0
    · rw [show nphi - 1 - 0 + 1 = nphi by omega, Nat.mod_self, zero_add,
        Nat.mod_eq_of_lt (by omega)]
      omega
    · rw [Nat.mod_eq_of_lt (show nphi - 1 - j + 1 < nphi by omega),
        show j + (nphi - 1) = (j - 1) + nphi by omega, Nat.add_mod_right,
        Nat.mod_eq_of_lt (by omega)]
      omega
  have e3 : ((j + (nphi - 1)) % nphi + 1) % nphi = j := by
    rw [Nat.mod_add_mod, show j + (nphi - 1) + 1 = j + nphi by omega, Nat.add_mod_right,
      Nat.mod_eq_of_lt hj]
  simp only [e1, e2, e3]

/-- Non-vacuity for the two symmetry theorems: a non-trivial walk, its shift and reversal. -/
example : calculateHelicity (fun x : Int => decide (0 ≤ x)) 4
    (fun j => [1, -1, -1, 1].getD (4 - 1 - j) 0) (fun j => [1, 1, -1, -1].getD (4 - 1 - j) 0) 1 1
      = .ok (-1) ∧ calculateHelicity (fun x : Int => decide (0 ≤ x)) 4
    (fun j => [1, -1, -1, 1].getD ((j + 3) % 4) 0) (fun j => [1, 1, -1, -1].getD ((j + 3) % 4) 0)
      1 1 = .ok 1 := by
  decide

end Qsc.Helicity
