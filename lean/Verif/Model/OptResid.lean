import Verif.Model.OptState

/-!
# `optimize.cpp`: the residual vector of the optimizer

`init_residuals` (321-450) counts and names the entries; `set_residuals` (553-841) computes them.
Both are transcribed separately, block by block, because the code repeats the order of the blocks.
A loop whose body treats several arrays is written as one list of terms in the order in which the
loop produces them.  The arrays of `q` have length `nphi` (allocate.cpp) and are functions here;
the tensors are indexed with `k + nphi * j2` as in the code.  Writing outside `residuals` and a
failing `assert` are errors.  The comparison, the square root and the constant `0.5` are arbitrary.
-/

namespace Qsc.OptResid

open Qsc.OptState (Err)

/-- Floating point operations that are not ring operations (used in optimize.cpp lines 330-445 and
557-840). -/
structure Ops (K : Type) where
  lt : K → K → Bool
  sqrt : K → K
  half : K
  ofNat : Nat → K

/-- The weights (opt.hpp lines 49-59). -/
structure Weights (K : Type) where
  B20 : K
  iota : K
  elongation : K
  curvature : K
  R0 : K
  d2_volume_d_psi2 : K
  DMerc_times_r2 : K
  XY2 : K
  XY2Prime : K
  XY2PrimePrime : K
  Z2 : K
  Z2Prime : K
  XY3 : K
  XY3Prime : K
  XY3PrimePrime : K
  grad_B : K
  grad_grad_B : K
  r_singularity : K
  axis_length : K
  standard_deviation_of_R : K
  B20_mean : K

/-- The targets and bounds (opt.hpp lines 49-58). -/
structure Targets (K : Type) where
  target_iota : K
  min_R0 : K
  max_d2_volume_d_psi2 : K
  min_DMerc_times_r2 : K
  target_axis_length : K

/-- The results in `q` that enter the residuals (qsc.hpp lines 64-105). -/
structure Phys (K : Type) where
  nphi : Nat
  nfp : Nat
  d_phi : K
  axis_length : K
  iota : K
  d2_volume_d_psi2 : K
  DMerc_times_r2 : K
  mean_R : K
  d_l_d_phi : Nat → K
  B20_anomaly : Nat → K
  elongation : Nat → K
  curvature : Nat → K
  R0 : Nat → K
  B20 : Nat → K
  r_hat_singularity_robust : Nat → K
  X20 : Nat → K
  X2s : Nat → K
  X2c : Nat → K
  Y20 : Nat → K
  Y2s : Nat → K
  Y2c : Nat → K
  d_X20_d_varphi : Nat → K
  d_X2s_d_varphi : Nat → K
  d_X2c_d_varphi : Nat → K
  d_Y20_d_varphi : Nat → K
  d_Y2s_d_varphi : Nat → K
  d_Y2c_d_varphi : Nat → K
  d2_X20_d_varphi2 : Nat → K
  d2_X2s_d_varphi2 : Nat → K
  d2_X2c_d_varphi2 : Nat → K
  d2_Y20_d_varphi2 : Nat → K
  d2_Y2s_d_varphi2 : Nat → K
  d2_Y2c_d_varphi2 : Nat → K
  Z20 : Nat → K
  Z2s : Nat → K
  Z2c : Nat → K
  d_Z20_d_varphi : Nat → K
  d_Z2s_d_varphi : Nat → K
  d_Z2c_d_varphi : Nat → K
  X3c1 : Nat → K
  Y3c1 : Nat → K
  Y3s1 : Nat → K
  d_X3c1_d_varphi : Nat → K
  d_Y3c1_d_varphi : Nat → K
  d_Y3s1_d_varphi : Nat → K
  d2_X3c1_d_varphi2 : Nat → K
  d2_Y3c1_d_varphi2 : Nat → K
  d2_Y3s1_d_varphi2 : Nat → K
  grad_B_tensor : Nat → K
  grad_grad_B_tensor : Nat → K

variable {K : Type}

/-! ## `init_residuals` -/

/-- A block with one entry: `if (weight > 0) { n_terms++; names.push_back(name); }`. -/
def countOne [Zero K] (o : Ops K) (w : K) (name : String) (s : Nat × List String) :
    Nat × List String :=
  if o.lt 0 w then (s.1 + 1, s.2 ++ [name]) else s

/-- A block with `m` entries (optimize.cpp lines 330-334 and the like). -/
def countMany [Zero K] (o : Ops K) (w : K) (m : Nat) (name : String) (s : Nat × List String) :
    Nat × List String :=
  if o.lt 0 w then
    (s.1 + m, s.2 ++ (List.range m).map fun j => name ++ "[" ++ toString j ++ "]")
  else s

/-- `Opt::init_residuals` with `make_names` (optimize.cpp 321-450): `n_terms` and
`residual_names`.  Writing the file of names is left out. -/
def initResiduals [Zero K] (o : Ops K) (w : Weights K) (nphi : Nat) :
    Except Err (Nat × List String) :=
  let s := (0, [])
  let s := countMany o w.B20 nphi "B20" s
  let s := countOne o w.iota "iota" s
  let s := countMany o w.elongation nphi "elongation" s
  let s := countMany o w.curvature nphi "curvature" s
  let s := countMany o w.R0 nphi "R0" s
  let s := countOne o w.d2_volume_d_psi2 "d2_volume_d_psi2" s
  let s := countOne o w.DMerc_times_r2 "DMerc_times_r2" s
  let s := countMany o w.XY2 (nphi * 6) "XY2" s
  let s := countMany o w.XY2Prime (nphi * 6) "XY2Prime" s
  let s := countMany o w.XY2PrimePrime (nphi * 6) "XY2PrimePrime" s
  let s := countMany o w.Z2 (nphi * 3) "Z2" s
  let s := countMany o w.Z2Prime (nphi * 3) "Z2Prime" s
  let s := countMany o w.XY3 (nphi * 3) "XY3" s
  let s := countMany o w.XY3Prime (nphi * 3) "XY3Prime" s
  let s := countMany o w.XY3PrimePrime (nphi * 3) "XY3PrimePrime" s
  let s := countMany o w.grad_B (nphi * 9) "grad_B" s
  let s := countMany o w.grad_grad_B (nphi * 27) "grad_grad_B" s
  let s := countMany o w.r_singularity nphi "r_singularity" s
  let s := countOne o w.axis_length "axis_length" s
  let s := countMany o w.standard_deviation_of_R nphi "standard_deviation_of_R" s
  let s := countMany o w.B20_mean nphi "B20_mean" s
  if s.1 < 1 then .error (.throw "There must be at least 1 residual term.") else .ok s

/-! ## `set_residuals` -/

/-- The counter `j` and the array `residuals` (optimize.cpp lines 554-555, opt.hpp line 40). -/
structure St (K : Type) where
  j : Nat
  res : List K

/-- `if (weight > 0) residuals[j++] = weight * term;`. -/
def emit [Zero K] [Mul K] (o : Ops K) (w term : K) (st : St K) : Except Err (St K) :=
  if o.lt 0 w then
    if st.j < st.res.length then .ok ⟨st.j + 1, st.res.set st.j (w * term)⟩
    else .error (.undefined "residuals")
  else .ok st

/-- A loop over terms: `acc += term * term`, then `emit` (optimize.cpp lines 583-587 and the like).
-/
def many [Zero K] [Add K] [Mul K] (o : Ops K) (w : K) :
    List K → K → St K → Except Err (K × St K)
  | [], acc, st => .ok (acc, st)
  | t :: ts, acc, st => (emit o w t st).bind (many o w ts (acc + t * t))

/-- A single term: `x_term = term * term`, and `emit` (optimize.cpp lines 589-591 and the like). -/
def one [Zero K] [Mul K] (o : Ops K) (w : K) (t : K) (st : St K) : Except Err (K × St K) :=
  (emit o w t st).bind fun st => .ok (t * t, st)

/-- A loop over the grid whose body has one term for each of the given arrays (optimize.cpp lines
631-660 and the like). -/
def grid [Mul K] (af : Nat → K) (nphi : Nat) (arrays : List (Nat → K)) : List K :=
  (List.range nphi).flatMap fun k => arrays.map fun a => af k * a k

/-- The loop over `weights` and `terms` (825-828). -/
def objLoop [Zero K] [Add K] [Mul K] (o : Ops K) : List (K × K) → K → K
  | [], acc => acc
  | (w, t) :: l, acc => objLoop o l (if o.lt 0 w then acc + o.half * w * w * t else acc)

/-- `Opt::set_residuals` (optimize.cpp 553-841): the objective, the recorded terms in the order of
the array `terms` (814-817), and the residual vector.  `n` is `n_terms`. -/
def setResiduals [Zero K] [Add K] [Sub K] [Mul K] [Div K] (o : Ops K) (n : Nat) (w : Weights K)
    (t : Targets K) (q : Phys K) (res : List K) : Except Err (K × List K × List K) :=
  let af := fun k => o.sqrt (q.d_l_d_phi k * (q.d_phi * o.ofNat q.nfp / q.axis_length))
  (many o w.B20 (grid af q.nphi [q.B20_anomaly]) 0 ⟨0, res⟩).bind fun r_B20 =>
  (one o w.iota (q.iota - t.target_iota) r_B20.2).bind fun r_iota =>
  (many o w.elongation (grid af q.nphi [q.elongation]) 0 r_iota.2).bind fun r_elongation =>
  (many o w.curvature (grid af q.nphi [q.curvature]) 0 r_elongation.2).bind fun r_curvature =>
  (many o w.R0 ((List.range q.nphi).map fun k =>
    if o.lt (q.R0 k) t.min_R0 then af k * (t.min_R0 - q.R0 k) else 0) 0 r_curvature.2).bind fun r_R0 =>
  (one o w.d2_volume_d_psi2 (if o.lt t.max_d2_volume_d_psi2 q.d2_volume_d_psi2 then
    q.d2_volume_d_psi2 - t.max_d2_volume_d_psi2 else 0) r_R0.2).bind fun r_d2_volume_d_psi2 =>
  (one o w.DMerc_times_r2 (if o.lt q.DMerc_times_r2 t.min_DMerc_times_r2 then
    t.min_DMerc_times_r2 - q.DMerc_times_r2 else 0) r_d2_volume_d_psi2.2).bind fun r_DMerc_times_r2 =>
  (many o w.XY2 (grid af q.nphi [q.X20, q.X2s, q.X2c, q.Y20, q.Y2s, q.Y2c]) 0 r_DMerc_times_r2.2).bind fun r_XY2 =>
  (many o w.XY2Prime (grid af q.nphi [q.d_X20_d_varphi, q.d_X2s_d_varphi, q.d_X2c_d_varphi, q.d_Y20_d_varphi,
      q.d_Y2s_d_varphi, q.d_Y2c_d_varphi]) 0 r_XY2.2).bind fun r_XY2Prime =>
  (many o w.XY2PrimePrime (grid af q.nphi [q.d2_X20_d_varphi2, q.d2_X2s_d_varphi2, q.d2_X2c_d_varphi2, q.d2_Y20_d_varphi2,
      q.d2_Y2s_d_varphi2, q.d2_Y2c_d_varphi2]) 0 r_XY2Prime.2).bind fun r_XY2PrimePrime =>
  (many o w.Z2 (grid af q.nphi [q.Z20, q.Z2s, q.Z2c]) 0 r_XY2PrimePrime.2).bind fun r_Z2 =>
  (many o w.Z2Prime (grid af q.nphi [q.d_Z20_d_varphi, q.d_Z2s_d_varphi, q.d_Z2c_d_varphi]) 0 r_Z2.2).bind fun r_Z2Prime =>
  (many o w.XY3 (grid af q.nphi [q.X3c1, q.Y3c1, q.Y3s1]) 0 r_Z2Prime.2).bind fun r_XY3 =>
  (many o w.XY3Prime (grid af q.nphi [q.d_X3c1_d_varphi, q.d_Y3c1_d_varphi, q.d_Y3s1_d_varphi]) 0 r_XY3.2).bind fun r_XY3Prime =>
  (many o w.XY3PrimePrime (grid af q.nphi [q.d2_X3c1_d_varphi2, q.d2_Y3c1_d_varphi2, q.d2_Y3s1_d_varphi2]) 0 r_XY3Prime.2).bind fun r_XY3PrimePrime =>
  (many o w.grad_B (grid af q.nphi ((List.range 9).map fun j2 k =>
    q.grad_B_tensor (k + q.nphi * j2))) 0 r_XY3PrimePrime.2).bind fun r_grad_B =>
  (many o w.grad_grad_B (grid af q.nphi ((List.range 27).map fun j2 k =>
    q.grad_grad_B_tensor (k + q.nphi * j2))) 0 r_grad_B.2).bind fun r_grad_grad_B =>
  (many o w.r_singularity ((List.range q.nphi).map fun k => af k / q.r_hat_singularity_robust k) 0 r_grad_grad_B.2).bind fun r_r_singularity =>
  (one o w.axis_length (q.axis_length - t.target_axis_length) r_r_singularity.2).bind fun r_axis_length =>
  (many o w.standard_deviation_of_R ((List.range q.nphi).map fun k => af k * (q.R0 k - q.mean_R)) 0 r_axis_length.2).bind fun r_standard_deviation_of_R =>
  (many o w.B20_mean (grid af q.nphi [q.B20]) 0 r_standard_deviation_of_R.2).bind fun r_B20_mean =>
  let weights := [w.B20, w.iota, w.elongation, w.curvature, w.R0, w.d2_volume_d_psi2,
    w.DMerc_times_r2, w.XY2, w.XY2Prime, w.XY2PrimePrime, w.Z2, w.Z2Prime, w.XY3, w.XY3Prime,
    w.XY3PrimePrime, w.grad_B, w.grad_grad_B, w.r_singularity, w.axis_length,
    w.standard_deviation_of_R, w.B20_mean]
  let terms := [r_B20.1, r_iota.1, r_elongation.1, r_curvature.1, r_R0.1, r_d2_volume_d_psi2.1,
    r_DMerc_times_r2.1, r_XY2.1, r_XY2Prime.1, r_XY2PrimePrime.1, r_Z2.1, r_Z2Prime.1, r_XY3.1,
    r_XY3Prime.1, r_XY3PrimePrime.1, r_grad_B.1, r_grad_grad_B.1, r_r_singularity.1,
    r_axis_length.1, r_standard_deviation_of_R.1, r_B20_mean.1]
  if r_B20_mean.2.j = n then
    .ok (objLoop o (weights.zip terms) 0, terms, r_B20_mean.2.res)
  else .error .assert

end Qsc.OptResid
