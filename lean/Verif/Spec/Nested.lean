import Verif.Spec.Reversal

/-!
# Specification of the orders of the expansion

A run of a lower order calculates a part of what a run of a higher order calculates.
-/

namespace Qsc.Spec.Nested
open Qsc.Netcdf Qsc.Toml Qsc.Spec.Single Qsc.Spec.Reversal

/-- The second input asks for the same configuration, up to the same or a lower order.  The pressure and the second
order of the field strength do not belong to first order; `verbose` is free. -/
structure Lower (q q' : QscIn ℝ) : Prop where
  rest : q' = { q with
    order_r_option := q'.order_r_option, p2 := q'.p2, B2c := q'.B2c, B2s := q'.B2s, verbose := q'.verbose }
  order : q'.order_r_option = "r1" ∨ q'.order_r_option = "r2" ∧ q.order_r_option ≠ "r1" ∨
    q'.order_r_option = "r2.1" ∧ q.order_r_option = "r2.1"
  second : q'.order_r_option ≠ "r1" → q'.p2 = q.p2 ∧ q'.B2c = q.B2c ∧ q'.B2s = q.B2s

/-- The variables that tell the order. -/
def orders : List String := ["at_least_order_r2", "order_r2.1", "order_r3", "order_r_option"]

/-- What the second file, which is of the order `order`, contains is the same in the first one.  The names of the
variables are those of the tables in `Verif/Spec/Scaling.lean`. -/
structure Contains (order : String) (f f' : File ℝ) : Prop where
  labels : ∀ v ∈ Scaling.labels, v ∉ orders → Scaling.Unchanged f f' v
  first : ∀ u ∈ Scaling.units1, Same f f' u.1
  second : order ≠ "r1" → ∀ u ∈ Scaling.units2, Same f f' u.1
  singular : order ≠ "r1" → ∀ v ∈ Scaling.singular, Same f f' v
  third : order = "r2.1" → ∀ u ∈ Scaling.units3, Same f f' u.1

end Qsc.Spec.Nested
