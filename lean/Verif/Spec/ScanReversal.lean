import Verif.Spec.Reversal

/-!
# Specification of scans with the opposite field

What the output files of two scans have in common whose configurations differ in the direction of the field.
-/

namespace Qsc.Spec.ScanReversal
open Qsc.Netcdf Qsc.Spec.Netcdf

/-- The numbers with the opposite signs. -/
noncomputable def negate : Data ℝ → Data ℝ
  | .ints l => .ints (l.map (- ·))
  | .flts l => .flts (l.map (- ·))
  | .chars l => .chars l

/-- The second file has the same dimensions and the same variables in the same order, with the same types, dimensions
and contents; only the numbers in the variables with the names `T` have the opposite signs. -/
def SameExcept (T : List String) (f f' : File ℝ) : Prop :=
  f'.dims = f.dims ∧
  contents f' = (contents f).map fun e => if e.name ∈ T then { e with data := e.data.map negate } else e

/-- The variables that say which way the field points. -/
def signs : List String := ["sG", "spsi", "I2"]

end Qsc.Spec.ScanReversal
