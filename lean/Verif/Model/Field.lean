import Verif.Model.Loop
import Mathlib.Algebra.Field.Defs

/-!
# Exact arithmetic for the physics modules

The physics modules compute with profiles on the toroidal grid.  A profile is a function on grid
indices `0 .. nphi - 1` (`std::valarray` arithmetic is elementwise, and every array has `nphi`
entries, see C35); a matrix is a function of row and column (memory layout: C06).  The numbers are an
arbitrary field together with the functions that are not field operations, so the definitions run
on exact rationals and are reasoned about on the reals.  Rounding is not modelled.
-/

namespace Qsc

/-- The functions used besides field operations.  `lt` is `<`, `ge0` is `x >= 0`. -/
structure Ops (K : Type) where
  pi : K
  sin : K → K
  cos : K → K
  tan : K → K
  sqrt : K → K
  abs : K → K
  lt : K → K → Bool
  ge0 : K → Bool

/-- `x.sum()` (`std::valarray`; used e.g. in init_axis.cpp line 52). -/
def vsum {K : Type} [Zero K] [Add K] (n : Nat) (f : Nat → K) : K :=
  forLoop n (fun j s => s + f j) 0

/-- `x.min()` of a non-empty `valarray` (`std::min_element`) (used e.g. in init_axis.cpp line 57).
-/
def vmin {K : Type} (o : Ops K) (n : Nat) (f : Nat → K) : K :=
  forLoop (n - 1) (fun j m => if o.lt (f (j + 1)) m then f (j + 1) else m) (f 0)

/-- `x.max()` of a non-empty `valarray` (`std::max_element`) (used e.g. in init_axis.cpp line 105).
-/
def vmax {K : Type} (o : Ops K) (n : Nat) (f : Nat → K) : K :=
  forLoop (n - 1) (fun j m => if o.lt m (f (j + 1)) then f (j + 1) else m) (f 0)

/-- `matrix_vector_product` (vector_matrix.cpp 134-155, C07). -/
def matVec {K : Type} [Zero K] [Add K] [Mul K] (n : Nat) (D : Nat → Nat → K) (v : Nat → K)
    (i : Nat) : K := vsum n fun k => D i k * v k

/-- Three components of a vector in the local basis (init_axis.cpp lines 59-74). -/
structure V3 (K : Type) where
  x : K
  y : K
  z : K

end Qsc
