import Mathlib.LinearAlgebra.Matrix.NonsingularInverse
import Mathlib.Data.Real.Basic
import Mathlib.LinearAlgebra.Matrix.ToLin
import Mathlib.Tactic.Ring
import Verif.Spec.HalfTurn
import Verif.Spec.Mirror
import Verif.Spec.Symmetry

/-!
# A linear solver in exact arithmetic

The theorems on symmetry, changes of units, half turns and mirror images ask the linear solver to be exact, or to
follow multiplications and signs of rows and columns.  A solver that finds the solution of every nonsingular system and reports a failure for
every singular one does.
-/

namespace Qsc.ExactSolve
open Matrix

/-- The matrix of the first `n` rows and columns. -/
def mat (n : Nat) (m : Nat → Nat → ℝ) : Matrix (Fin n) (Fin n) ℝ := fun a b => m a b

/-- The first `n` components. -/
def vec (n : Nat) (y : Nat → ℝ) : Fin n → ℝ := fun a => y a

open Classical in
/-- The solution of the system, if there is exactly one; components beyond the size are zero. -/
noncomputable def solve (n : Nat) (m : Nat → Nat → ℝ) (y : Nat → ℝ) : Option (Nat → ℝ) :=
  if (mat n m).det = 0 then none
  else some fun b => if h : b < n then ((mat n m)⁻¹ *ᵥ vec n y) ⟨b, h⟩ else 0

theorem solve_eq {n : Nat} {m : Nat → Nat → ℝ} {y x : Nat → ℝ} (hd : (mat n m).det ≠ 0)
    (h : mat n m *ᵥ vec n x = vec n y) (h0 : ∀ b, n ≤ b → x b = 0) : solve n m y = some x := by
  unfold solve
  rw [if_neg hd]
  congr 1
  funext b
  split
  · rename_i hb
    rw [← h, mulVec_mulVec, nonsing_inv_mul _ (isUnit_iff_ne_zero.2 hd), one_mulVec]
    rfl
  · exact (h0 b (by omega)).symm

theorem solve_some {n : Nat} {m : Nat → Nat → ℝ} {y x : Nat → ℝ} (h : solve n m y = some x) :
    (mat n m).det ≠ 0 ∧ mat n m *ᵥ vec n x = vec n y ∧ ∀ b, n ≤ b → x b = 0 := by
  unfold solve at h
  split at h
  · cases h
  · rename_i hd
    injection h with h
    subst h
    refine ⟨hd, ?_, fun b hb => dif_neg (by omega)⟩
    have e : vec n (fun b => if h : b < n then ((mat n m)⁻¹ *ᵥ vec n y) ⟨b, h⟩ else 0) = (mat n m)⁻¹ *ᵥ vec n y := by
      funext a
      exact dif_pos a.2
    rw [e, mulVec_mulVec, mul_nonsing_inv _ (isUnit_iff_ne_zero.2 hd), one_mulVec]

/-- The answer solves the system, row by row. -/
theorem solves {n : Nat} {m : Nat → Nat → ℝ} {y x : Nat → ℝ} (h : solve n m y = some x) (a : Nat) (ha : a < n) :
    ∑ b : Fin n, m a b * x b = y a := congrFun (solve_some h).2.1 ⟨a, ha⟩

theorem solve_none {n : Nat} {m : Nat → Nat → ℝ} {y : Nat → ℝ} : solve n m y = none ↔ (mat n m).det = 0 := by
  unfold solve
  split <;> simp [*]

theorem solve_rows {n : Nat} {m : Nat → Nat → ℝ} {y : Nat → ℝ} {r c : Nat → ℝ} (hr : ∀ j, r j = 1 ∨ r j = -1)
    (hc : ∀ j, c j = 1 ∨ c j = -1) :
    solve n (fun a b => r a * m a b * c b) (fun a => r a * y a) = (solve n m y).map fun x b => c b * x b := by
  have e : mat n (fun a b => r a * m a b * c b) = diagonal (vec n r) * mat n m * diagonal (vec n c) := by
    ext a b
    rw [mul_diagonal, diagonal_mul]
    rfl
  have hr0 : ∀ j, r j ≠ 0 := fun j => by rcases hr j with e | e <;> rw [e] <;> norm_num
  have hc0 : ∀ j, c j ≠ 0 := fun j => by rcases hc j with e | e <;> rw [e] <;> norm_num
  have hc2 : ∀ j, c j * c j = 1 := fun j => by rcases hc j with e | e <;> rw [e] <;> norm_num
  have hd : (mat n fun a b => r a * m a b * c b).det = 0 ↔ (mat n m).det = 0 := by
    rw [e, det_mul, det_mul, det_diagonal, det_diagonal]
    have h1 : ∏ i, vec n r i ≠ 0 := Finset.prod_ne_zero_iff.2 fun i _ => hr0 i
    have h2 : ∏ i, vec n c i ≠ 0 := Finset.prod_ne_zero_iff.2 fun i _ => hc0 i
    simp [h1, h2]
  cases hs : solve n m y with
  | none => exact solve_none.2 (hd.2 (solve_none.1 hs))
  | some x =>
    obtain ⟨h1, h2, h3⟩ := solve_some hs
    refine solve_eq (fun h => h1 (hd.1 h)) ?_ fun b hb => by simp [h3 b hb]
    funext a
    have h2' := congrFun h2 a
    simp only [mulVec, dotProduct, mat, vec] at h2' ⊢
    rw [← h2', Finset.mul_sum]
    refine Finset.sum_congr rfl fun b _ => ?_
    linear_combination (r a * m a b * x b) * hc2 b

theorem signs : Spec.Mirror.Signs solve := fun _ _ _ _ _ hr hc => solve_rows hr hc

theorem signFree : Spec.HalfTurn.SignFree solve := by
  intro n m y
  have h := solve_rows (n := n) (m := m) (y := y) (r := fun _ => -1) (c := fun _ => 1) (fun _ => .inr rfl) fun _ => .inl rfl
  simpa using h

theorem homogeneous : Spec.Scaling.Homogeneous solve := by
  intro c _ n m y x h
  obtain ⟨h1, h2, h3⟩ := solve_some h
  refine solve_eq h1 ?_ fun b hb => by simp [h3 b hb]
  have e : ∀ z : Nat → ℝ, vec n (fun j => c * z j) = c • vec n z := fun z => rfl
  rw [e, e, mulVec_smul, h2]

theorem exact : Spec.Symmetry.Exact solve := by
  intro n m b x h
  obtain ⟨h1, h2, -⟩ := solve_some h
  have hs : ∀ (z : Nat → ℝ) (i : Nat), ∑ j ∈ Finset.range n, m i j * z j = ∑ j : Fin n, m i j * z j :=
    fun z i => Finset.sum_range fun j => m i j * z j
  refine ⟨fun i hi => by rw [hs]; exact solves h i hi, fun y hy j hj => ?_⟩
  have e : mat n m *ᵥ vec n y = vec n b := by
    funext a
    exact (hs y a).symm.trans (hy a a.2)
  have e' := congrArg ((mat n m)⁻¹ *ᵥ ·) (e.trans h2.symm)
  simp only [mulVec_mulVec, nonsing_inv_mul _ (isUnit_iff_ne_zero.2 h1), one_mulVec] at e'
  exact congrFun e' ⟨j, hj⟩

/-- The assumptions of C97, C98, C100, C102 and C103 on the linear solver are met by exact arithmetic. -/
theorem assumptions_met : Spec.Symmetry.Exact solve ∧ Spec.Scaling.Homogeneous solve ∧ Spec.HalfTurn.SignFree solve ∧
    Spec.Mirror.Signs solve := ⟨exact, homogeneous, signFree, signs⟩

end Qsc.ExactSolve
