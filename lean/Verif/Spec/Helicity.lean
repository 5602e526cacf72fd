import Mathlib.Algebra.BigOperators.Intervals

/-!
Specification vocabulary for the axis helicity, independent of the model.

A sample is a pair of sign tests `(R component >= 0, Z component >= 0)`.
-/

namespace Qsc.Spec.Helicity

/-- Sample lies in the fourth quadrant: `nR >= 0` and not `nZ >= 0`. -/
def inFourth (s : Bool × Bool) : Bool := s.1 && !s.2

/-- Sample lies in the first quadrant: both tests true. -/
def inFirst (s : Bool × Bool) : Bool := s.1 && s.2

/-- Number of `j < n` for which the curve goes counter-clockwise through the positive
R half axis between sample `j` and its cyclic successor. -/
def upCrossings (n : Nat) (s : Nat → Bool × Bool) : Nat :=
  ((Finset.range n).filter fun j => inFourth (s j) && inFirst (s ((j + 1) % n))).card

/-- The same, clockwise. -/
def downCrossings (n : Nat) (s : Nat → Bool × Bool) : Nat :=
  ((Finset.range n).filter fun j => inFirst (s j) && inFourth (s ((j + 1) % n))).card

end Qsc.Spec.Helicity
