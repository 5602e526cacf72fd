import Verif.Spec.RSing
import Mathlib.LinearAlgebra.Matrix.ToLinearEquiv
import Mathlib.LinearAlgebra.Matrix.Determinant.Basic
import Mathlib.LinearAlgebra.Matrix.Notation
import Mathlib.Data.Complex.Basic
import Mathlib.Tactic.FieldSimp
import Mathlib.Tactic.LinearCombination

/-!
# The companion matrix
-/

namespace Qsc.Quartic

open Qsc.Spec.RSing

theorem det4 {R : Type} [CommRing R] (M : Matrix (Fin 4) (Fin 4) R) : M.det =
    M 0 0 * (M 1 1 * (M 2 2 * M 3 3 - M 2 3 * M 3 2) - M 1 2 * (M 2 1 * M 3 3 - M 2 3 * M 3 1) +
        M 1 3 * (M 2 1 * M 3 2 - M 2 2 * M 3 1)) -
    M 0 1 * (M 1 0 * (M 2 2 * M 3 3 - M 2 3 * M 3 2) - M 1 2 * (M 2 0 * M 3 3 - M 2 3 * M 3 0) +
        M 1 3 * (M 2 0 * M 3 2 - M 2 2 * M 3 0)) +
    M 0 2 * (M 1 0 * (M 2 1 * M 3 3 - M 2 3 * M 3 1) - M 1 1 * (M 2 0 * M 3 3 - M 2 3 * M 3 0) +
        M 1 3 * (M 2 0 * M 3 1 - M 2 1 * M 3 0)) -
    M 0 3 * (M 1 0 * (M 2 1 * M 3 2 - M 2 2 * M 3 1) - M 1 1 * (M 2 0 * M 3 2 - M 2 2 * M 3 0) +
        M 1 2 * (M 2 0 * M 3 1 - M 2 1 * M 3 0)) := by
  simp [Matrix.det_succ_row_zero, Fin.sum_univ_succ, Fin.succAbove]
  ring

end Qsc.Quartic
