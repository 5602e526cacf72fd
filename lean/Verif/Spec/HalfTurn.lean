import Verif.Spec.Reversal

/-!
# Specification of the sign of `eta_bar`

The field strength is `B0 (1 + r eta_bar cos theta)` to first order, so `eta_bar` changes its sign if the poloidal
angle is counted from the opposite side.  The field is the same.
-/

namespace Qsc.Spec.HalfTurn
open Qsc.Netcdf Qsc.Toml Qsc.Spec.Single Qsc.Spec.Reversal

/-- The configuration `q` with the poloidal angle counted from the opposite side; `verbose` is free. -/
def OtherSide (q q' : QscIn ℝ) : Prop := q' = { q with eta_bar := -q.eta_bar, verbose := q'.verbose }

/-- A linear solver that gives the same answer if the matrix and the right-hand side change their signs.  So does
elimination, also with rounding: the pivots and all rows change their signs. -/
def SignFree (gesv : Nat → (Nat → Nat → ℝ) → (Nat → ℝ) → Option (Nat → ℝ)) : Prop :=
  ∀ n m y, gesv n (fun a b => -m a b) (fun a => -y a) = gesv n m y

/-- The coefficients of the odd multiples of the poloidal angle. -/
def odd : List String :=
  ["eta_bar", "X1c", "Y1s", "Y1c", "d_X1c_d_varphi", "d_Y1s_d_varphi", "d_Y1c_d_varphi", "beta_1s",
   "X3c1", "Y3c1", "Y3s1", "d_X3c1_d_varphi", "d_Y3c1_d_varphi", "d_Y3s1_d_varphi",
   "d2_X3c1_d_varphi2", "d2_Y3c1_d_varphi2", "d2_Y3s1_d_varphi2"]

/-- What happens to a variable of the file. -/
def Turned (f f' : File ℝ) (v : String) : Prop := if v ∈ odd then Negated f f' v else Same f f' v

/-- The second file is the first one with the poloidal angle counted from the opposite side.  The names of the
variables are those of the tables in `Verif/Spec/Scaling.lean`. -/
structure SameTurned (order : String) (f f' : File ℝ) : Prop where
  labels : ∀ v ∈ Scaling.labels, Scaling.Unchanged f f' v
  first : ∀ u ∈ Scaling.units1, Turned f f' u.1
  second : order ≠ "r1" → ∀ u ∈ Scaling.units2, Turned f f' u.1
  singular : order ≠ "r1" → ∀ v ∈ Scaling.singular, Turned f f' v
  third : order = "r2.1" → ∀ u ∈ Scaling.units3, Turned f f' u.1

end Qsc.Spec.HalfTurn
