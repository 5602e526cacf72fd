import Verif.Spec.Reversal
import Verif.Spec.OptRun

/-!
# Specification of an optimization with the opposite field

What the output files of two optimizations have in common that start from the same configuration with opposite fields.
-/

namespace Qsc.Spec.OptReversal
open Qsc.Netcdf Qsc.Spec.Single Qsc.Spec.Reversal

/-- The arrays of the history. -/
def history : List String :=
  ["iter_objective_function",
   "iter_B20_term", "iter_iota_term", "iter_elongation_term", "iter_curvature_term", "iter_R0_term",
   "iter_d2_volume_d_psi2_term", "iter_DMerc_times_r2_term", "iter_XY2_term", "iter_XY2Prime_term",
   "iter_XY2PrimePrime_term", "iter_Z2_term", "iter_Z2Prime_term", "iter_XY3_term", "iter_XY3Prime_term",
   "iter_XY3PrimePrime_term", "iter_grad_B_term", "iter_grad_grad_B_term", "iter_r_singularity_term",
   "iter_axis_length_term", "iter_standard_deviation_of_R_term", "iter_B20_mean_term",
   "iter_eta_bar", "iter_sigma0", "iter_B2c", "iter_B2s", "iter_R0c", "iter_R0s", "iter_Z0c", "iter_Z0s",
   "iter_min_R0", "iter_max_curvature", "iter_iota", "iter_max_elongation", "iter_min_L_grad_B",
   "iter_min_L_grad_grad_B", "iter_r_singularity", "iter_B20_variation", "iter_B20_residual",
   "iter_d2_volume_d_psi2", "iter_DMerc_times_r2", "iter_standard_deviation_of_R", "iter_standard_deviation_of_Z",
   "iter_axis_length"]

/-- The two files tell the same history. -/
structure SameHistory (f f' : File ℝ) : Prop where
  counts : ∀ v ∈ ["n_iter", "n_evals"], ∃ x, Integer f v x ∧ Integer f' v x
  steps : ∃ dims l, Holds f "iter_fourier_refine_step" dims (.ints l) ∧ Holds f' "iter_fourier_refine_step" dims (.ints l)
  arrays : ∀ v ∈ history, Same f f' v
  weights : ∀ b : OptResid.Block, Same f f' ("weight_" ++ b.name)
  targets : ∀ v ∈ ["target_iota", "min_R0", "max_d2_volume_d_psi2", "min_DMerc_times_r2", "target_axis_length"],
    Same f f' v

/-- The residuals made from derivatives of the field. -/
def flips : OptResid.Block → Bool
  | .grad_B | .grad_grad_B => true
  | _ => false

end Qsc.Spec.OptReversal
