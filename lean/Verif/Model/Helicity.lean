import Verif.Model.Loop

/-!
# Axis helicity: `/repo/src/helicity.cpp` lines 6-48

The float arrays `normal_cylindrical1/3` are functions on indices over an arbitrary type
`F` of floats; the only thing the code does with them is the test `x >= 0`, an
uninterpreted `Bool` function `ge0` here.  (IEEE: `ge0 NaN = false`.)
C++ `int` overflow of the counter (needs about 10^9 grid points) is not modelled.
-/

namespace Qsc.Helicity

/-- Lines 9-21: quadrant of one sample from the two tests `n1 >= 0`, `n3 >= 0`. -/
def quadrantOf (p1 p3 : Bool) : Int :=
  if p1 then (if p3 then 1 else 4) else (if p3 then 2 else 3)

/-- Lines 8-23: the array `quadrant[0..nphi]`; line 23 sets `quadrant[nphi] = quadrant[0]`.
When `nphi = 0` line 23 copies the freshly allocated zero onto itself (allocate.cpp line 69
sizes the array `nphi + 1`, filled with zeros). -/
def quadrant {F : Type} (ge0 : F → Bool) (nphi : Nat) (n1 n3 : Nat → F) (j : Nat) : Int :=
  if j < nphi then quadrantOf (ge0 (n1 j)) (ge0 (n3 j))
  else if nphi = 0 then 0 else quadrantOf (ge0 (n1 0)) (ge0 (n3 0))

/-- Lines 27-33: the increment for one grid interval. -/
def stepOf (a b : Int) : Int :=
  if a = 4 ∧ b = 1 then 1 else if a = 1 ∧ b = 4 then -1 else b - a

/-- Lines 25-34: the counter. -/
def counter (nphi : Nat) (quad : Nat → Int) : Int :=
  forLoop nphi (fun j c => c + stepOf (quad j) (quad (j + 1))) 0

/-- Outcome of `calculate_helicity` (helicity.cpp lines 6-48). -/
inductive Result
  | ok (helicity : Int)
  | throwNotMultipleOf4
  deriving DecidableEq, Repr

/-- Lines 39-47.  C++ `/` and `%` on `int` truncate: `Int.tdiv`, `Int.tmod`. -/
def finish (counter spsi sG : Int) : Result :=
  let c := counter * (spsi * sG)
  if Int.tmod c 4 ≠ 0 then .throwNotMultipleOf4 else .ok (Int.tdiv c 4)

/-- `Qsc::calculate_helicity` (helicity.cpp lines 6-48). -/
def calculateHelicity {F : Type} (ge0 : F → Bool) (nphi : Nat) (n1 n3 : Nat → F)
    (spsi sG : Int) : Result :=
  finish (counter nphi (quadrant ge0 nphi n1 n3)) spsi sG

end Qsc.Helicity
