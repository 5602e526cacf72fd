import Verif.Spec.Scaling

/-!
# Specification of the reversal of the field

The magnetic field and all currents change their directions; the shape of the axis, the pressure and all field
strengths stay the same.
-/

namespace Qsc.Spec.Reversal
open Qsc.Netcdf Qsc.Toml Qsc.Spec.Single

/-- The configuration `q` with the opposite field: the signs of the toroidal field (`sG`) and of the flux (`spsi`)
and the current `I2` change; `verbose` is free. -/
def Opposite (q q' : QscIn ℝ) : Prop :=
  q' = { q with sG := -q.sG, spsi := -q.spsi, I2 := -q.I2, verbose := q'.verbose }

/-- The variable has the same numbers in both files. -/
def Same (f f' : File ℝ) (v : String) : Prop := ∃ dims l, Holds f v dims (.flts l) ∧ Holds f' v dims (.flts l)

/-- The numbers of the variable have the opposite signs in the second file. -/
def Negated (f f' : File ℝ) (v : String) : Prop :=
  ∃ dims l, Holds f v dims (.flts l) ∧ Holds f' v dims (.flts (l.map (- ·)))

/-- The currents and the derivatives of the field. -/
def reversed : List String := ["I2", "G0", "G2", "grad_B_tensor", "grad_grad_B_tensor"]

/-- What happens to a variable of the file. -/
def Turned (f f' : File ℝ) (v : String) : Prop := if v ∈ reversed then Negated f f' v else Same f f' v

/-- The second file is the first one with the opposite field.  The names of the variables are those of the tables in
`Verif/Spec/Scaling.lean`. -/
structure SameOpposite (order : String) (f f' : File ℝ) : Prop where
  signs : ∀ v ∈ ["sG", "spsi"], ∃ x, Integer f v x ∧ Integer f' v (-x)
  labels : ∀ v ∈ Scaling.labels, v ∉ ["sG", "spsi"] → Scaling.Unchanged f f' v
  first : ∀ u ∈ Scaling.units1, Turned f f' u.1
  second : order ≠ "r1" → ∀ u ∈ Scaling.units2, Turned f f' u.1
  singular : order ≠ "r1" → ∀ v ∈ Scaling.singular, Turned f f' v
  third : order = "r2.1" → ∀ u ∈ Scaling.units3, Turned f f' u.1

end Qsc.Spec.Reversal
