import Mathlib.Algebra.Field.Defs

/-!
# `quartic_roots.cpp`

The eigenvalue routine of LAPACK is an environment: it gets the sixteen numbers of the array, and
either reports an error or returns four real and four imaginary parts.
-/

namespace Qsc.Quartic

variable {K : Type}

/-- The array `matrix[16]` (quartic_roots.cpp 41-59). -/
def companion [Field K] (c : Nat → K) : Nat → K
  | 0 => -c 1 / c 0
  | 1 => 1
  | 2 => 0
  | 3 => 0
  | 4 => -c 2 / c 0
  | 5 => 0
  | 6 => 1
  | 7 => 0
  | 8 => -c 3 / c 0
  | 9 => 0
  | 10 => 0
  | 11 => 1
  | 12 => -c 4 / c 0
  | 13 => 0
  | 14 => 0
  | _ => 0

/-- `dgeev` with `JOBVL = JOBVR = 'N'` on a 4 x 4 array: `none` when `INFO` is not zero. -/
abbrev Geev (K : Type) := (Nat → K) → Option ((Nat → K) × (Nat → K))

/-- `quartic_roots` (32-71). -/
def roots [Field K] (geev : Geev K) (c : Nat → K) : Except String ((Nat → K) × (Nat → K)) :=
  match geev (companion c) with
  | some r => .ok r
  | none => .error "LAPACK error in *geev"

end Qsc.Quartic
