import Verif.Spec.Output

/-!
# What a file of the Fortran version holds

The Fortran version names some quantities differently, and stores strings as 50 characters, filled with blanks.
-/

namespace Qsc.Spec.FortranFile
open Qsc.Netcdf Qsc.Output

variable {F : Type}

/-- A quantity with the same name in both versions. -/
def same (l : List String) : List (String × String) := l.map fun a => (a, a)

/-- Integers: name in the file, name in the class. -/
def intQ : List (String × String) :=
  same ["nfp"] ++ [("sign_G", "sG"), ("sign_psi", "spsi"), ("axis_helicity", "helicity")]

/-- Floating point numbers. -/
def fltQ (fl : Flags) : List (String × String) :=
  same ["eta_bar", "iota", "mean_elongation", "rms_curvature", "axis_length", "abs_G0_over_B0",
    "standard_deviation_of_R", "standard_deviation_of_Z", "B0"] ++ [("sigma_initial", "sigma0")] ++
  if fl.r2 then
    same ["p2", "B2s", "B2c", "B20_mean", "B20_residual", "d2_volume_d_psi2", "DWell_times_r2", "DGeod_times_r2",
      "DMerc_times_r2"] ++ [("r_singularity", "r_singularity_robust")]
  else []

/-- Functions of the toroidal angle. -/
def vecQ (fl : Flags) : List (String × String) :=
  same ["phi", "Boozer_toroidal_angle", "R0", "curvature", "torsion", "sigma", "X1c", "Y1c", "Y1s", "elongation",
    "d_l_d_phi"] ++ [("z0", "Z0"), ("modBinv_sqrt_half_grad_B_colon_grad_B", "L_grad_B_inverse")] ++
  (if fl.r2 then
    same ["X20", "X2s", "X2c", "Y20", "Y2s", "Y2c", "Z20", "Z2s", "Z2c", "B20"] ++
      [("grad_grad_B_inverse_scale_length_vs_zeta", "L_grad_grad_B_inverse"),
       ("r_singularity_basic_vs_zeta", "r_hat_singularity_robust")]
  else []) ++
  if fl.r3 then same ["X3s1", "X3s3", "X3c1", "X3c3", "Y3s1", "Y3s3", "Y3c1", "Y3c3"] else []

/-- The file has a variable of that name with that value. -/
def Holds (f : File F) (name : String) (d : Data F) : Prop := ∃ v ∈ f.vars, v.name = name ∧ v.data = some d

/-- The orders of the expansion that `order_r_option` asks for. -/
def orders (order : String) : Flags := ⟨order != "r1", order == "r3_flux_constraint", order == "r3_flux_constraint"⟩

/-- A printable text: neither a blank nor a zero byte. -/
def Plain (l : List Char) : Prop := ∀ c ∈ l, c ≠ ' ' ∧ c ≠ '\x00'

/-- A file of the Fortran version with `n` grid points, for the setting `order`. -/
structure IsFortran (f : File F) (n : Nat) (order : String) : Prop where
  names : (f.vars.map (·.name)).Nodup
  pos : 0 < n
  plain : Plain order.toList
  short : order.toList.length < 50
  nphi : Holds f "N_phi" (.ints [(n : Int)])
  text : Holds f "order_r_option" (.chars (order.toList ++ List.replicate (50 - order.toList.length) ' '))
  ints : ∀ q ∈ intQ, ∃ x, Holds f q.1 (.ints [x])
  flts : ∀ q ∈ fltQ (orders order), ∃ x, Holds f q.1 (.flts [x])
  vecs : ∀ q ∈ vecQ (orders order), ∃ l, Holds f q.1 (.flts l) ∧ l.length = n

/-- The number of grid points the class uses: the next odd number. -/
def oddUp (n : Nat) : Nat := if n % 2 = 0 then n + 1 else n

end Qsc.Spec.FortranFile
