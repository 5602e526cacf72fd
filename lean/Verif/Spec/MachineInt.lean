import Verif.Model.MachineInt
import Mathlib.Algebra.BigOperators.Group.List.Basic
import Mathlib.Algebra.Ring.Int.Defs

/-!
# What the sizes and indices should be

Stated with unbounded integers, without the operations of the model.
-/

namespace Qsc.Spec.MachineInt

/-- The largest value of an `int`. -/
def largest : Nat := 2147483647

/-- The machine has the memory for every array that an `int` can count. -/
def Enough (mem : Nat → Bool) : Prop := ∀ s, s ≤ largest → mem s = true

/-- Column-major place of element (`m`, `n`) of a matrix with `rows` rows. -/
def place2 (rows m n : Nat) : Nat := n * rows + m

/-- Place of element (`j1`, `j2`, `j3`): the first index runs fastest. -/
def place3 (d1 d2 j1 j2 j3 : Nat) : Nat := (j3 * d2 + j2) * d1 + j1

/-- Place of element (`j1`, `j2`, `j3`, `j4`): the first index runs fastest. -/
def place4 (d1 d2 d3 j1 j2 j3 j4 : Nat) : Nat := ((j4 * d3 + j3) * d2 + j2) * d1 + j1

/-- What process 0 of a scan with `points` points and `values` values per point stores: for every
point its `values` numbers at places of their own, and its four integers likewise. -/
def stored (values points : Nat) : List (Int × List Nat × List Nat) :=
  (List.range points).map fun (s : Nat) =>
    ((s : Int), (List.range values).map (fun j => place2 values j s),
      (List.range 4).map (fun j => place2 4 j s))

end Qsc.Spec.MachineInt
