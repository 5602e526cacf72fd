import Verif.Model.Single
import Verif.Spec.Single
import Verif.Spec.OptResid
import Verif.Spec.OptLoop
import Verif.Spec.Pipeline

/-!
# Specification of an optimization from the input file to the output file

What a reader finds in the history in the output file, and which results of a single run enter the residuals.
-/

namespace Qsc.Spec.OptRun
open Qsc.Netcdf Qsc.Spec.Single Qsc.Toml Qsc.OptState

/-- The configuration of the input with the parameters of the optimizer, on a grid of `n` points. -/
def configuration {K : Type} (q : QscIn K) (c : Config K) (n : Nat) : QscIn K :=
  { q with
    nphi := n, eta_bar := c.etaBar, sigma0 := c.sigma0, B2c := c.B2c, B2s := c.B2s
    R0c := c.R0c, R0s := c.R0s, Z0c := c.Z0c, Z0s := c.Z0s }

/-- Column `k` of an array of the history, which has `m` columns. -/
def Column {F : Type} (f : File F) (m : Nat) (a : String) (k : Nat) (x : F) : Prop :=
  ∃ l, Holds f a [("n_iter", m)] (.flts l) ∧ l.length = m ∧ l[k]? = some x

/-- The same for an array of integers. -/
def IntColumn {F : Type} (f : File F) (m : Nat) (a : String) (k : Nat) (x : Int) : Prop :=
  ∃ l, Holds f a [("n_iter", m)] (.ints l) ∧ l.length = m ∧ l[k]? = some x

/-- Column `k` of an array of the history that holds the coefficients of a Fourier series. -/
def AxisColumn {F : Type} (f : File F) (m : Nat) (a : String) (k : Nat) (v : List F) : Prop :=
  ∃ l, Holds f a [("n_iter", m), ("axis_nmax_plus_1", v.length)] (.flts l) ∧ l.length = m * v.length ∧
    ∀ j, j < v.length → l[k * v.length + j]? = v[j]?

/-- The targets are members of `o`. -/
structure IsTargets {F : Type} (o : Sections.Obj F) (t : OptResid.Targets F) : Prop where
  target_iota : o "target_iota" = some (.flt t.target_iota)
  min_R0 : o "min_R0" = some (.flt t.min_R0)
  max_d2_volume_d_psi2 : o "max_d2_volume_d_psi2" = some (.flt t.max_d2_volume_d_psi2)
  min_DMerc_times_r2 : o "min_DMerc_times_r2" = some (.flt t.min_DMerc_times_r2)
  target_axis_length : o "target_axis_length" = some (.flt t.target_axis_length)

/-- The arithmetic of the real numbers. -/
noncomputable def realRes : OptResid.Ops ℝ := ⟨fun a b => decide (a < b), Real.sqrt, 1 / 2, fun n => n⟩

/-- `ph` is what the output file `f` of a single run says, on `n` points. -/
structure Says (f : File ℝ) (n : Nat) (ph : OptResid.Phys ℝ) : Prop where
  nphi : ph.nphi = n
  nfp : Integer f "nfp" ph.nfp
  scalars : ∀ a ∈ [("d_phi", ph.d_phi), ("axis_length", ph.axis_length), ("iota", ph.iota),
    ("d2_volume_d_psi2", ph.d2_volume_d_psi2), ("DMerc_times_r2", ph.DMerc_times_r2), ("mean_R", ph.mean_R)],
    Scalar f a.1 a.2
  profiles : ∀ a ∈ [("d_l_d_phi", ph.d_l_d_phi), ("B20_anomaly", ph.B20_anomaly), ("elongation", ph.elongation),
    ("curvature", ph.curvature), ("R0", ph.R0), ("B20", ph.B20),
    ("r_hat_singularity_robust", ph.r_hat_singularity_robust), ("X20", ph.X20), ("X2s", ph.X2s), ("X2c", ph.X2c),
    ("Y20", ph.Y20), ("Y2s", ph.Y2s), ("Y2c", ph.Y2c), ("d_X20_d_varphi", ph.d_X20_d_varphi),
    ("d_X2s_d_varphi", ph.d_X2s_d_varphi), ("d_X2c_d_varphi", ph.d_X2c_d_varphi),
    ("d_Y20_d_varphi", ph.d_Y20_d_varphi), ("d_Y2s_d_varphi", ph.d_Y2s_d_varphi),
    ("d_Y2c_d_varphi", ph.d_Y2c_d_varphi), ("d2_X20_d_varphi2", ph.d2_X20_d_varphi2),
    ("d2_X2s_d_varphi2", ph.d2_X2s_d_varphi2), ("d2_X2c_d_varphi2", ph.d2_X2c_d_varphi2),
    ("d2_Y20_d_varphi2", ph.d2_Y20_d_varphi2), ("d2_Y2s_d_varphi2", ph.d2_Y2s_d_varphi2),
    ("d2_Y2c_d_varphi2", ph.d2_Y2c_d_varphi2), ("Z20", ph.Z20), ("Z2s", ph.Z2s), ("Z2c", ph.Z2c),
    ("d_Z20_d_varphi", ph.d_Z20_d_varphi), ("d_Z2s_d_varphi", ph.d_Z2s_d_varphi),
    ("d_Z2c_d_varphi", ph.d_Z2c_d_varphi), ("X3c1", ph.X3c1), ("Y3c1", ph.Y3c1), ("Y3s1", ph.Y3s1),
    ("d_X3c1_d_varphi", ph.d_X3c1_d_varphi), ("d_Y3c1_d_varphi", ph.d_Y3c1_d_varphi),
    ("d_Y3s1_d_varphi", ph.d_Y3s1_d_varphi), ("d2_X3c1_d_varphi2", ph.d2_X3c1_d_varphi2),
    ("d2_Y3c1_d_varphi2", ph.d2_Y3c1_d_varphi2), ("d2_Y3s1_d_varphi2", ph.d2_Y3s1_d_varphi2)],
    Profile f a.1 n a.2
  gradB : Tensor f "grad_B_tensor" n fun j b c => ph.grad_B_tensor (j + n * (b + 3 * c))
  gradgradB : Tensor3 f "grad_grad_B_tensor" n fun j b c d => ph.grad_grad_B_tensor (j + n * (b + 3 * (c + 3 * d)))

/-- The results that are recorded in every iteration: the array of the history, and the variable of a single
run. -/
def recorded : List (String × String) :=
  [("iter_min_R0", "grid_min_R0"), ("iter_max_curvature", "grid_max_curvature"), ("iter_iota", "iota"),
   ("iter_max_elongation", "grid_max_elongation"), ("iter_min_L_grad_B", "grid_min_L_grad_B"),
   ("iter_min_L_grad_grad_B", "grid_min_L_grad_grad_B"), ("iter_r_singularity", "r_singularity_robust"),
   ("iter_B20_variation", "B20_grid_variation"), ("iter_B20_residual", "B20_residual"),
   ("iter_d2_volume_d_psi2", "d2_volume_d_psi2"), ("iter_DMerc_times_r2", "DMerc_times_r2"),
   ("iter_standard_deviation_of_R", "standard_deviation_of_R"),
   ("iter_standard_deviation_of_Z", "standard_deviation_of_Z"), ("iter_axis_length", "axis_length")]

/-- The parameters in column `k` of the history. -/
structure Parameters (f : File ℝ) (m k : Nat) (c : Config ℝ) : Prop where
  eta_bar : Column f m "iter_eta_bar" k c.etaBar
  sigma0 : Column f m "iter_sigma0" k c.sigma0
  B2c : Column f m "iter_B2c" k c.B2c
  B2s : Column f m "iter_B2s" k c.B2s
  R0c : AxisColumn f m "iter_R0c" k c.R0c
  R0s : AxisColumn f m "iter_R0s" k c.R0s
  Z0c : AxisColumn f m "iter_Z0c" k c.Z0c
  Z0s : AxisColumn f m "iter_Z0s" k c.Z0s

open Qsc.Spec.OptResid in
/-- The objective and its terms in column `k`, for the results `ph`.  The curvature term is missing; under its name
the file has the elongation term (C63). -/
structure Objective (f : File ℝ) (m k : Nat) (w : OptResid.Weights ℝ) (t : OptResid.Targets ℝ)
    (ph : OptResid.Phys ℝ) : Prop where
  terms : ∀ b : Block, b ≠ .curvature → Column f m ("iter_" ++ b.name ++ "_term") k
    (∑ i ∈ Finset.range (b.size ph.nphi), value realRes t ph b i ^ 2)
  curvature : Column f m "iter_curvature_term" k
    (∑ i ∈ Finset.range ph.nphi, value realRes t ph .elongation i ^ 2)
  objective : ∃ es, Entries realRes w ph.nphi es ∧ Column f m "iter_objective_function" k
    (1 / 2 * (es.map fun e => (e.1.weight w * value realRes t ph e.1 e.2) ^ 2).sum)

open Qsc.Spec.OptLoop Qsc.Spec.OptState in
/-- Why an optimization ends with the exception `m`. -/
inductive Refused (L : Qsc.Single.Lib ℝ) (s : Pipeline.Raw) (w : OptResid.Weights ℝ) (q : QscIn ℝ) (m : String) : Prop
  /-- An array of flags does not have the size of the axis arrays. -/
  | size (h : m = "Size of vary_R0c is incorrect" ∧ s.fl.R0c.length ≠ q.R0c.length ∨
      m = "Size of vary_R0s is incorrect" ∧ s.fl.R0s.length ≠ q.R0c.length ∨
      m = "Size of vary_Z0c is incorrect" ∧ s.fl.Z0c.length ≠ q.R0c.length ∨
      m = "Size of vary_Z0s is incorrect" ∧ s.fl.Z0s.length ≠ q.R0c.length)
  /-- No weight is positive. -/
  | residuals (hm : m = "There must be at least 1 residual term.") (h : ∀ b : OptResid.Block, b.weight w ≤ 0)
  /-- No parameter is varied. -/
  | parameters (hm : m = "There must be at least 1 parameter varied.") (h : ∀ p, ¬ Varied s.fl p)
  | order (hm : m = "Invalid setting for order_r_option") (h : q.order_r_option ∉ ["r1", "r2", "r2.1"])
  /-- In step `j` there are fewer residuals, listed by `es`, than parameters, listed by `ps`. -/
  | points (hm : m = "insufficient data points, n < p") (j : Nat) (hj : j ≤ s.refine.toNat) (ps : List Param)
      (hp : ∀ p, p ∈ ps ↔ MayVary s.fl q.R0c.length j p) (hs : ps.Pairwise Before)
      (es : List (OptResid.Block × Nat))
      (he : OptResid.Entries realRes w (gridAt (s.nphis.map Int.toNat) q.nphi.toNat j) es)
      (h : es.length < ps.length)
  /-- A LAPACK routine fails. -/
  | gesv (hm : m = "LAPACK error in *gesv") (ho : q.order_r_option = "r2.1") (h : ∃ n a b, L.gesv n a b = none)
  | geev (hm : m = "LAPACK error in *geev") (ho : q.order_r_option = "r2.1") (h : ∃ a, L.geev a = none)

end Qsc.Spec.OptRun
