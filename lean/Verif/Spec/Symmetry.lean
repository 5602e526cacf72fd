import Verif.Spec.Single
import Mathlib.Data.Real.Basic
import Mathlib.Algebra.BigOperators.Group.Finset.Defs

/-!
# Stellarator symmetry (specification for C97, C98)

A configuration is stellarator symmetric if it does not change when `phi` and `Z` change sign.
-/

namespace Qsc.Spec.Symmetry

/-- The grid point at `-phi`, where grid point `j` of `n` is at `phi`, up to a period. -/
def mirror (n j : Nat) : Nat := (n - j) % n

/-- The same at `-phi` as at `phi`. -/
def Even (n : Nat) (v : Nat → ℝ) : Prop := ∀ j < n, v (mirror n j) = v j

/-- The opposite at `-phi`. -/
def Odd (n : Nat) (v : Nat → ℝ) : Prop := ∀ j < n, v (mirror n j) = -v j

/-- The axis `R = Σ R0c cos`, `Z = Σ Z0s sin` is symmetric, and so is the condition at `phi = 0`. -/
structure First (q : Toml.QscIn ℝ) : Prop where
  R0s : ∀ x ∈ q.R0s, x = 0
  Z0c : ∀ x ∈ q.Z0c, x = 0
  sigma0 : q.sigma0 = 0

/-- A linear solver in exact arithmetic: when it gives an answer, it is the only solution. -/
def Exact (gesv : Nat → (Nat → Nat → ℝ) → (Nat → ℝ) → Option (Nat → ℝ)) : Prop :=
  ∀ n m b x, gesv n m b = some x →
    (∀ i < n, ∑ j ∈ Finset.range n, m i j * x j = b i) ∧
    ∀ y : Nat → ℝ, (∀ i < n, ∑ j ∈ Finset.range n, m i j * y j = b i) → ∀ j < n, y j = x j

/-- A profile of the file that is even. -/
def EvenVar (f : Netcdf.File ℝ) (n : Nat) (a : String) : Prop := ∃ v, Single.Profile f a n v ∧ Even n v

/-- A profile of the file that is odd. -/
def OddVar (f : Netcdf.File ℝ) (n : Nat) (a : String) : Prop := ∃ v, Single.Profile f a n v ∧ Odd n v

/-- An angle of the file that goes through one of `nfp` periods. -/
def AngleVar (f : Netcdf.File ℝ) (n : Nat) (nfp : Int) (a : String) : Prop :=
  ∃ v, Single.Profile f a n v ∧ v 0 = 0 ∧ ∀ j, 0 < j → j < n → v (mirror n j) = 2 * Real.pi / nfp - v j

/-- The file of a symmetric configuration, axis and first order.  A derivative changes the parity.  For the
gradient of the field, the component with normal indices only is odd (so is the normal component of the field), and
every index that is not the normal changes the parity. -/
structure FirstVars (f : Netcdf.File ℝ) (q : Toml.QscIn ℝ) (n : Nat) : Prop where
  angles : ∀ a ∈ ["phi", "Boozer_toroidal_angle"], AngleVar f n q.nfp a
  axisEven : ∀ a ∈ ["R0", "Z0p", "R0pp", "Z0ppp", "d_l_d_phi", "curvature", "torsion"], EvenVar f n a
  axisOdd : ∀ a ∈ ["Z0", "R0p", "Z0pp", "R0ppp", "d2_l_d_phi2"], OddVar f n a
  mean_Z : Single.Scalar f "mean_Z" 0
  even : ∀ a ∈ ["X1c", "Y1s", "elongation", "d_Y1c_d_varphi", "L_grad_B", "L_grad_B_inverse"], EvenVar f n a
  odd : ∀ a ∈ ["sigma", "Y1c", "d_X1c_d_varphi", "d_Y1s_d_varphi"], OddVar f n a
  matrices : ∀ a ∈ ["d_d_phi", "d_d_varphi"], ∃ m, Single.Square f a n m ∧
    ∀ j < n, ∀ k < n, m (mirror n j) (mirror n k) = -m j k
  grad : ∃ m, Single.Tensor f "grad_B_tensor" n m ∧ ∀ b c,
    ((b = 0 ↔ c = 0) → Odd n fun j => m j b c) ∧ (¬ (b = 0 ↔ c = 0) → Even n fun j => m j b c)

/-- The file of a symmetric configuration, second order. -/
structure SecondVars (f : Netcdf.File ℝ) (n : Nat) : Prop where
  even : ∀ a ∈ ["X20", "X2c", "Y2s", "Z2s", "B20", "B20_anomaly", "d_X2s_d_varphi", "d_Y20_d_varphi", "d_Y2c_d_varphi",
    "d_Z20_d_varphi", "d_Z2c_d_varphi", "d2_X20_d_varphi2", "d2_X2c_d_varphi2", "d2_Y2s_d_varphi2", "d2_Z2s_d_varphi2",
    "L_grad_grad_B", "L_grad_grad_B_inverse"], EvenVar f n a
  odd : ∀ a ∈ ["X2s", "Y20", "Y2c", "Z20", "Z2c", "d_X20_d_varphi", "d_X2c_d_varphi", "d_Y2s_d_varphi", "d_Z2s_d_varphi",
    "d2_X2s_d_varphi2", "d2_Y20_d_varphi2", "d2_Y2c_d_varphi2", "d2_Z20_d_varphi2", "d2_Z2c_d_varphi2"], OddVar f n a
  grad : ∃ m, Single.Tensor3 f "grad_grad_B_tensor" n m ∧ ∀ b c d,
    (((b = 0 ↔ c = 0) ↔ d = 0) → Odd n fun j => m j b c d) ∧ (¬ ((b = 0 ↔ c = 0) ↔ d = 0) → Even n fun j => m j b c d)

/-- The file of a symmetric configuration, third order. -/
structure ThirdVars (f : Netcdf.File ℝ) (n : Nat) : Prop where
  even : ∀ a ∈ ["lambda_for_XY3", "X3c1", "Y3s1", "d_Y3c1_d_varphi", "d2_X3c1_d_varphi2", "d2_Y3s1_d_varphi2"], EvenVar f n a
  odd : ∀ a ∈ ["Y3c1", "d_X3c1_d_varphi", "d_Y3s1_d_varphi", "d2_Y3c1_d_varphi2"], OddVar f n a

end Qsc.Spec.Symmetry
