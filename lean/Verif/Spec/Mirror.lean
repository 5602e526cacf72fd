import Verif.Spec.Reversal

/-!
# Specification of mirror images

The mirror image at the plane `Z = 0`: `Z` changes its sign, and with it the handedness.  The binormal vector changes
its direction relative to the mirror image of the old one, because it is a vector product.
-/

namespace Qsc.Spec.Mirror
open Qsc.Netcdf Qsc.Toml Qsc.Spec.Single Qsc.Spec.Reversal

/-- The mirror image of the configuration `q`: the coefficients of `Z`, the tilt `sigma0`, the current `I2` and the
up-down asymmetric part `B2s` of the field strength change their signs; `verbose` is free. -/
def MirrorImage (q q' : QscIn ℝ) : Prop :=
  q' = { q with
    Z0c := q.Z0c.map (- ·), Z0s := q.Z0s.map (- ·), sigma0 := -q.sigma0, I2 := -q.I2, B2s := -q.B2s
    verbose := q'.verbose }

/-- A linear solver that follows the signs of the rows and columns: if the row `a` of the matrix and of the right-hand
side is multiplied by the sign `r a`, and the column `b` of the matrix by the sign `c b`, then the component `b` of the
answer is multiplied by `c b`.  So does elimination with pivots of the largest absolute value, also with rounding. -/
def Signs (gesv : Nat → (Nat → Nat → ℝ) → (Nat → ℝ) → Option (Nat → ℝ)) : Prop :=
  ∀ n m y (r c : Nat → ℝ), (∀ j, r j = 1 ∨ r j = -1) → (∀ j, c j = 1 ∨ c j = -1) →
    gesv n (fun a b => r a * m a b * c b) (fun a => r a * y a) = (gesv n m y).map fun x b => c b * x b

/-- At two neighbouring points of the grid `x` has the same sign if `z` vanishes at one of them.  The code takes a
vanishing `z` for positive, also in the mirror image. -/
def Steady (n : Nat) (x z : Nat → ℝ) : Prop :=
  ∀ j < n, (z j = 0 ∨ z ((j + 1) % n) = 0) → (0 ≤ x j ↔ 0 ≤ x ((j + 1) % n))

/-- The variables that change their signs. -/
def odd : List String :=
  ["sigma0", "I2", "Z0c", "Z0s", "mean_Z", "iota", "iota_N", "Z0", "Z0p", "Z0pp", "Z0ppp", "torsion", "sigma", "Y1c",
   "d_Y1c_d_varphi", "B2s", "beta_1s", "X2s", "Y20", "Y2c", "Z2s", "d_X2s_d_varphi", "d_Y20_d_varphi", "d_Y2c_d_varphi",
   "d_Z2s_d_varphi", "d2_X2s_d_varphi2", "d2_Y20_d_varphi2", "d2_Y2c_d_varphi2", "d2_Z2s_d_varphi2", "Y3c1",
   "d_Y3c1_d_varphi", "d2_Y3c1_d_varphi2"]

/-- What happens to a variable of the file. -/
def Turned (f f' : File ℝ) (v : String) : Prop := if v ∈ odd then Negated f f' v else Same f f' v

/-- The sign of a component: the direction 1 is the binormal. -/
noncomputable def bsgn (i : Nat) : ℝ := if i = 1 then -1 else 1

/-- The second file is the mirror image of the first one.  The names of the variables are those of the tables in
`Verif/Spec/Scaling.lean`; the results of the search for singularities are left out. -/
structure SameMirrored (order : String) (n : Nat) (f f' : File ℝ) : Prop where
  helicity : ∃ h, Integer f "helicity" h ∧ Integer f' "helicity" (-h)
  labels : ∀ v ∈ Scaling.labels, v ≠ "helicity" → Scaling.Unchanged f f' v
  first : ∀ u ∈ Scaling.units1, u.1 ≠ "grad_B_tensor" → Turned f f' u.1
  gradient : ∃ t, Tensor f "grad_B_tensor" n t ∧ Tensor f' "grad_B_tensor" n fun j a b => bsgn a * bsgn b * t j a b
  second : order ≠ "r1" → ∀ u ∈ Scaling.units2, u.1 ≠ "grad_grad_B_tensor" → Turned f f' u.1
  gradient2 : order ≠ "r1" → ∃ t, Tensor3 f "grad_grad_B_tensor" n t ∧
    Tensor3 f' "grad_grad_B_tensor" n fun j a b c => bsgn a * bsgn b * bsgn c * t j a b c
  third : order = "r2.1" → ∀ u ∈ Scaling.units3, Turned f f' u.1

end Qsc.Spec.Mirror
