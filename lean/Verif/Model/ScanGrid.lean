import Mathlib.Analysis.SpecialFunctions.Log.Basic

/-!
# `multiopt_scan.cpp`: the tensor product grid (init 62-86) and index decoding (270-275)

Exact arithmetic; overflow of `n_scan_all` is not modelled.
-/

namespace Qsc.ScanGrid

/-- The decoding loop (multiopt_scan.cpp 271-275) on the sizes in reverse order: `k` runs from
the last dimension to the first; the results come out in the same (reversed) order. -/
def decodeRev : List Nat → Nat → List Nat
  | [], _ => []
  | n :: ns, jmod =>
    let d := jmod % n
    d :: decodeRev ns ((jmod - d) / n)

/-- `indices` for scan index `j` (multiopt_scan.cpp lines 262-267). -/
def decode (ns : List Nat) (j : Nat) : List Nat := (decodeRev ns.reverse j).reverse

/-- One grid (multiopt_scan.cpp 77-82). -/
noncomputable def grid (log : Bool) (min max : ℝ) (n k : Nat) : ℝ :=
  if log then Real.exp (Real.log min + (Real.log max - Real.log min) * k / ((n : ℝ) - 1))
  else min + (max - min) * k / ((n : ℝ) - 1)

/-- One dimension of the scan (multiopt_scan.hpp lines 61-65). -/
structure Dim where
  log : Bool
  min : ℝ
  max : ℝ
  n : Int

/-- `init` (multiopt_scan.cpp 70-86): all sizes must be at least 2; result is `n_scan_all` and
`params_vals`. -/
noncomputable def init : List Dim → Except String (Nat × List (List ℝ))
  | [] => .ok (1, [])
  | d :: ds =>
    if d.n < 2 then .error "params_n values must all be >= 2"
    else match init ds with
      | .error e => .error e
      | .ok (m, vs) =>
        .ok (d.n.toNat * m, (List.range d.n.toNat).map (grid d.log d.min d.max d.n.toNat) :: vs)

end Qsc.ScanGrid
