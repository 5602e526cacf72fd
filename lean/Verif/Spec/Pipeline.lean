import Verif.Model.Pipeline
import Verif.Spec.Sections
import Verif.Spec.OptLoop

/-!
Specification vocabulary for runs that start from an input file (C73-C75).
-/

namespace Qsc.Spec.Pipeline

open Qsc.Sections Qsc.Pipeline Qsc.OptState

variable {F P : Type}

/-- The run ends normally with a result that satisfies `Q`, or with an exception. -/
def Fine {α : Type} (Q : α → Prop) : Except Pipeline.Err α → Prop
  | .ok a => Q a
  | .error e => ∃ m, e = .run (.throw m)

/-- The settings `s` are the members of `o`. -/
structure IsRaw (o : Obj F) (s : Raw) : Prop where
  etaBar : o "vary_eta_bar" = some (.bool s.fl.etaBar)
  sigma0 : o "vary_sigma0" = some (.bool s.fl.sigma0)
  B2c : o "vary_B2c" = some (.bool s.fl.B2c)
  B2s : o "vary_B2s" = some (.bool s.fl.B2s)
  R0c : o "vary_R0c" = some (.bools s.fl.R0c)
  R0s : o "vary_R0s" = some (.bools s.fl.R0s)
  Z0c : o "vary_Z0c" = some (.bools s.fl.Z0c)
  Z0s : o "vary_Z0s" = some (.bools s.fl.Z0s)
  refine : o "fourier_refine" = some (.int s.refine)
  maxIter : o "max_iter" = some (.int s.maxIter)
  nphis : o "nphi" = some (.ints s.nphis)

/-- The key of the weight of each target. -/
def weightKeys (w : OptResid.Weights F) : List (String × F) :=
  [("weight_B20", w.B20), ("weight_iota", w.iota), ("weight_elongation", w.elongation),
   ("weight_curvature", w.curvature), ("weight_R0", w.R0),
   ("weight_d2_volume_d_psi2", w.d2_volume_d_psi2), ("weight_DMerc_times_r2", w.DMerc_times_r2),
   ("weight_XY2", w.XY2), ("weight_XY2Prime", w.XY2Prime),
   ("weight_XY2PrimePrime", w.XY2PrimePrime), ("weight_Z2", w.Z2), ("weight_Z2Prime", w.Z2Prime),
   ("weight_XY3", w.XY3), ("weight_XY3Prime", w.XY3Prime),
   ("weight_XY3PrimePrime", w.XY3PrimePrime), ("weight_grad_B", w.grad_B),
   ("weight_grad_grad_B", w.grad_grad_B), ("weight_r_singularity", w.r_singularity),
   ("weight_axis_length", w.axis_length),
   ("weight_standard_deviation_of_R", w.standard_deviation_of_R),
   ("weight_B20_mean", w.B20_mean)]

/-- The weights `w` are the members of `o`. -/
def IsWeights (o : Obj F) (w : OptResid.Weights F) : Prop :=
  ∀ k x, (k, x) ∈ weightKeys w → o k = some (.flt x)

/-- All sizes are non-negative `int`s. -/
structure Natural (s : Raw) : Prop where
  refine : 0 ≤ s.refine ∧ s.refine < 2 ^ 31
  maxIter : 0 ≤ s.maxIter
  nphis : ∀ n ∈ s.nphis, 0 ≤ n

end Qsc.Spec.Pipeline
