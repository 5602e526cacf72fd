import Verif.Model.OptResid

/-!
# What the residual vector should contain

A block is one physical target; `size` is its number of entries, `value` its `m`-th entry before
weighting.
-/

namespace Qsc.Spec.OptResid

open Qsc.OptResid

/-- The targets, in the documented order. -/
inductive Block
  | B20
  | iota
  | elongation
  | curvature
  | R0
  | d2_volume_d_psi2
  | DMerc_times_r2
  | XY2
  | XY2Prime
  | XY2PrimePrime
  | Z2
  | Z2Prime
  | XY3
  | XY3Prime
  | XY3PrimePrime
  | grad_B
  | grad_grad_B
  | r_singularity
  | axis_length
  | standard_deviation_of_R
  | B20_mean
  deriving DecidableEq, Repr

namespace Block

/-- The weight of a target. -/
def weight {K : Type} (w : Weights K) : Block → K
  | B20 => w.B20
  | iota => w.iota
  | elongation => w.elongation
  | curvature => w.curvature
  | R0 => w.R0
  | d2_volume_d_psi2 => w.d2_volume_d_psi2
  | DMerc_times_r2 => w.DMerc_times_r2
  | XY2 => w.XY2
  | XY2Prime => w.XY2Prime
  | XY2PrimePrime => w.XY2PrimePrime
  | Z2 => w.Z2
  | Z2Prime => w.Z2Prime
  | XY3 => w.XY3
  | XY3Prime => w.XY3Prime
  | XY3PrimePrime => w.XY3PrimePrime
  | grad_B => w.grad_B
  | grad_grad_B => w.grad_grad_B
  | r_singularity => w.r_singularity
  | axis_length => w.axis_length
  | standard_deviation_of_R => w.standard_deviation_of_R
  | B20_mean => w.B20_mean

/-- The name of a target. -/
def name : Block → String
  | B20 => "B20"
  | iota => "iota"
  | elongation => "elongation"
  | curvature => "curvature"
  | R0 => "R0"
  | d2_volume_d_psi2 => "d2_volume_d_psi2"
  | DMerc_times_r2 => "DMerc_times_r2"
  | XY2 => "XY2"
  | XY2Prime => "XY2Prime"
  | XY2PrimePrime => "XY2PrimePrime"
  | Z2 => "Z2"
  | Z2Prime => "Z2Prime"
  | XY3 => "XY3"
  | XY3Prime => "XY3Prime"
  | XY3PrimePrime => "XY3PrimePrime"
  | grad_B => "grad_B"
  | grad_grad_B => "grad_grad_B"
  | r_singularity => "r_singularity"
  | axis_length => "axis_length"
  | standard_deviation_of_R => "standard_deviation_of_R"
  | B20_mean => "B20_mean"

/-- Position in the documented order. -/
def rank : Block → Nat
  | B20 => 0
  | iota => 1
  | elongation => 2
  | curvature => 3
  | R0 => 4
  | d2_volume_d_psi2 => 5
  | DMerc_times_r2 => 6
  | XY2 => 7
  | XY2Prime => 8
  | XY2PrimePrime => 9
  | Z2 => 10
  | Z2Prime => 11
  | XY3 => 12
  | XY3Prime => 13
  | XY3PrimePrime => 14
  | grad_B => 15
  | grad_grad_B => 16
  | r_singularity => 17
  | axis_length => 18
  | standard_deviation_of_R => 19
  | B20_mean => 20

/-- Targets that are a single number; the others have entries at every grid point. -/
def single : Block → Bool
  | iota | d2_volume_d_psi2 | DMerc_times_r2 | axis_length => true
  | _ => false

/-- Number of components at one grid point. -/
def comps : Block → Nat
  | XY2 | XY2Prime | XY2PrimePrime => 6
  | Z2 | Z2Prime | XY3 | XY3Prime | XY3PrimePrime => 3
  | grad_B => 9
  | grad_grad_B => 27
  | _ => 1

/-- Number of entries. -/
def size (nphi : Nat) (b : Block) : Nat := if b.single then 1 else nphi * b.comps

/-- The name of entry `m`. -/
def label (b : Block) (m : Nat) : String :=
  if b.single then b.name else b.name ++ "[" ++ toString m ++ "]"

end Block

/-- The square root of the fraction of the axis length that belongs to grid point `k`. -/
def frac {K : Type} [Mul K] [Div K] (o : Ops K) (q : Phys K) (k : Nat) : K :=
  o.sqrt (q.d_l_d_phi k * (q.d_phi * o.ofNat q.nfp / q.axis_length))

/-- Component `c` of a vector valued target at grid point `k`. -/
def component {K : Type} [Zero K] (q : Phys K) (k : Nat) : Block → Nat → K
  | .XY2, 0 => q.X20 k
  | .XY2, 1 => q.X2s k
  | .XY2, 2 => q.X2c k
  | .XY2, 3 => q.Y20 k
  | .XY2, 4 => q.Y2s k
  | .XY2, 5 => q.Y2c k
  | .XY2Prime, 0 => q.d_X20_d_varphi k
  | .XY2Prime, 1 => q.d_X2s_d_varphi k
  | .XY2Prime, 2 => q.d_X2c_d_varphi k
  | .XY2Prime, 3 => q.d_Y20_d_varphi k
  | .XY2Prime, 4 => q.d_Y2s_d_varphi k
  | .XY2Prime, 5 => q.d_Y2c_d_varphi k
  | .XY2PrimePrime, 0 => q.d2_X20_d_varphi2 k
  | .XY2PrimePrime, 1 => q.d2_X2s_d_varphi2 k
  | .XY2PrimePrime, 2 => q.d2_X2c_d_varphi2 k
  | .XY2PrimePrime, 3 => q.d2_Y20_d_varphi2 k
  | .XY2PrimePrime, 4 => q.d2_Y2s_d_varphi2 k
  | .XY2PrimePrime, 5 => q.d2_Y2c_d_varphi2 k
  | .Z2, 0 => q.Z20 k
  | .Z2, 1 => q.Z2s k
  | .Z2, 2 => q.Z2c k
  | .Z2Prime, 0 => q.d_Z20_d_varphi k
  | .Z2Prime, 1 => q.d_Z2s_d_varphi k
  | .Z2Prime, 2 => q.d_Z2c_d_varphi k
  | .XY3, 0 => q.X3c1 k
  | .XY3, 1 => q.Y3c1 k
  | .XY3, 2 => q.Y3s1 k
  | .XY3Prime, 0 => q.d_X3c1_d_varphi k
  | .XY3Prime, 1 => q.d_Y3c1_d_varphi k
  | .XY3Prime, 2 => q.d_Y3s1_d_varphi k
  | .XY3PrimePrime, 0 => q.d2_X3c1_d_varphi2 k
  | .XY3PrimePrime, 1 => q.d2_Y3c1_d_varphi2 k
  | .XY3PrimePrime, 2 => q.d2_Y3s1_d_varphi2 k
  | .grad_B, c => q.grad_B_tensor (k + q.nphi * c)
  | .grad_grad_B, c => q.grad_grad_B_tensor (k + q.nphi * c)
  | .B20, _ => q.B20_anomaly k
  | .elongation, _ => q.elongation k
  | .curvature, _ => q.curvature k
  | .B20_mean, _ => q.B20 k
  | _, _ => 0

/-- Entry `m` of a target before weighting. -/
def value {K : Type} [Zero K] [Sub K] [Mul K] [Div K] (o : Ops K) (t : Targets K) (q : Phys K)
    (b : Block) (m : Nat) : K :=
  match b with
  | .iota => q.iota - t.target_iota
  | .axis_length => q.axis_length - t.target_axis_length
  | .d2_volume_d_psi2 => if o.lt t.max_d2_volume_d_psi2 q.d2_volume_d_psi2 then
      q.d2_volume_d_psi2 - t.max_d2_volume_d_psi2 else 0
  | .DMerc_times_r2 => if o.lt q.DMerc_times_r2 t.min_DMerc_times_r2 then
      t.min_DMerc_times_r2 - q.DMerc_times_r2 else 0
  | .R0 => if o.lt (q.R0 m) t.min_R0 then frac o q m * (t.min_R0 - q.R0 m) else 0
  | .r_singularity => frac o q m / q.r_hat_singularity_robust m
  | .standard_deviation_of_R => frac o q m * (q.R0 m - q.mean_R)
  | b => frac o q (m / b.comps) * component q (m / b.comps) b (m % b.comps)

/-- Order of the entries. -/
def Before (x y : Block × Nat) : Prop :=
  x.1.rank < y.1.rank ∨ (x.1.rank = y.1.rank ∧ x.2 < y.2)

/-- `es` lists the entries of the targets with a positive weight, each once, in order. -/
structure Entries {K : Type} [Zero K] (o : Ops K) (w : Weights K) (nphi : Nat)
    (es : List (Block × Nat)) : Prop where
  mem : ∀ b m, (b, m) ∈ es ↔ o.lt 0 (b.weight w) = true ∧ m < b.size nphi
  sorted : es.Pairwise Before

end Qsc.Spec.OptResid
