import Verif.Spec.Reversal

/-!
# Specification of a shift along the axis of symmetry

The same curve, moved by `h` in the direction of `Z`, may be given by other coefficients: modes of amplitude zero may
follow the last one, and the sine of the mode zero vanishes whatever its coefficient is.
-/

namespace Qsc.Spec.Shift
open Qsc.Netcdf Qsc.Toml Qsc.Spec.Single Qsc.Spec.Reversal

/-- The configuration `q` moved by `h`; coefficients beyond the arrays count as zero; `verbose` is free. -/
structure Moved (h : ℝ) (q q' : QscIn ℝ) : Prop where
  rest : q' = { q with R0c := q'.R0c, R0s := q'.R0s, Z0c := q'.Z0c, Z0s := q'.Z0s, verbose := q'.verbose }
  R0c : ∀ n, q'.R0c.getD n 0 = q.R0c.getD n 0
  R0s : ∀ n ≠ 0, q'.R0s.getD n 0 = q.R0s.getD n 0
  Z0c0 : q'.Z0c.getD 0 0 = q.Z0c.getD 0 0 + h
  Z0c : ∀ n ≠ 0, q'.Z0c.getD n 0 = q.Z0c.getD n 0
  Z0s : ∀ n ≠ 0, q'.Z0s.getD n 0 = q.Z0s.getD n 0

/-- The variables that change. -/
def moving : List String := ["R0c", "R0s", "Z0c", "Z0s", "Z0", "mean_Z"]

/-- The second file is the first one, moved by `h`.  The names of the variables are those of the tables in
`Verif/Spec/Scaling.lean`. -/
structure SameMoved (h : ℝ) (order : String) (n : Nat) (f f' : File ℝ) : Prop where
  labels : ∀ v ∈ Scaling.labels, Scaling.Unchanged f f' v
  Z0 : ∃ z, Profile f "Z0" n z ∧ Profile f' "Z0" n fun j => z j + h
  mean : ∃ x, Scalar f "mean_Z" x ∧ Scalar f' "mean_Z" (x + h)
  first : ∀ u ∈ Scaling.units1, u.1 ∉ moving → Same f f' u.1
  second : order ≠ "r1" → ∀ u ∈ Scaling.units2, Same f f' u.1
  singular : order ≠ "r1" → ∀ v ∈ Scaling.singular, Same f f' v
  third : order = "r2.1" → ∀ u ∈ Scaling.units3, Same f f' u.1

end Qsc.Spec.Shift
