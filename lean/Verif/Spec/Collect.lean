import Verif.Model.Collect
import Mathlib.Data.List.FinRange

/-!
Specification of a collection: what process 0 must hold, as a function of what every process
holds, with no reference to messages.
-/

namespace Qsc.Spec.Collect
open Qsc.Collect

variable {F : Type} {n : Nat}

/-- Shape of the local data assumed by the collection: full counters, arrays long enough. -/
structure Ok (nf : Nat) (L : Local F) : Prop where
  filters : L.filters.length = 17
  params : 20 * L.jScan ≤ L.params.length
  fourier : nf * L.jScan ≤ L.fourier.length
  ints : L.jScan ≤ L.ints.length

/-- What one collection must produce from the local data `l`. -/
def combine (nf : Nat) (l : Fin (n + 1) → Local F) : Gathered F where
  nScan := ((List.finRange (n + 1)).map fun i => (l i).jScan).sum
  filters := (List.range 17).map fun j =>
    ((List.finRange (n + 1)).map fun i =>
      if j = 1 then (l i).jScan else (l i).filters.getD j 0).sum
  params := (List.finRange (n + 1)).flatMap fun i => (l i).params.take (20 * (l i).jScan)
  fourier := (List.finRange (n + 1)).flatMap fun i => (l i).fourier.take (nf * (l i).jScan)
  ints := (List.finRange (n + 1)).flatMap fun i => (l i).ints.take (l i).jScan

/-- What each scalar array of the output file must hold of a configuration. -/
def scalarOutputs : List (String × (Scan.Cand F → F)) :=
  [("scan_eta_bar", fun c => c.etaBar), ("scan_sigma0", fun c => c.sigma0),
   ("scan_B2c", fun c => c.B2c), ("scan_B2s", fun c => c.B2s), ("scan_p2", fun c => c.p2),
   ("scan_axis_length", fun c => c.axisLength), ("scan_min_R0", fun c => c.gridMinR0),
   ("scan_max_curvature", fun c => c.gridMaxCurvature), ("scan_iota", fun c => c.iota),
   ("scan_max_elongation", fun c => c.gridMaxElongation),
   ("scan_min_L_grad_B", fun c => c.gridMinLGradB),
   ("scan_min_L_grad_grad_B", fun c => c.gridMinLGradGradB),
   ("scan_r_singularity", fun c => c.rSingularity),
   ("scan_d2_volume_d_psi2", fun c => c.d2Volume), ("scan_DMerc_times_r2", fun c => c.dMerc),
   ("scan_B20_variation", fun c => c.b20Variation), ("scan_B20_residual", fun c => c.b20Residual),
   ("scan_standard_deviation_of_R", fun c => c.sdR),
   ("scan_standard_deviation_of_Z", fun c => c.sdZ), ("scan_beta", fun c => c.beta)]

/-- What each Fourier array of the output file must hold. -/
def fourierOutputs : List (String × (Scan.Cand F → List F)) :=
  [("scan_R0c", fun c => c.R0c), ("scan_R0s", fun c => c.R0s), ("scan_Z0c", fun c => c.Z0c),
   ("scan_Z0s", fun c => c.Z0s)]

end Qsc.Spec.Collect
