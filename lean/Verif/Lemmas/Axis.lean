import Verif.Model.Axis
import Verif.Spec.Axis
import Verif.Lemmas.Field
import Verif.Lemmas.DiffMat
import Verif.Props.Helicity
import Mathlib.Analysis.SpecialFunctions.Sqrt
import Mathlib.Analysis.Calculus.Deriv.Add
import Mathlib.Analysis.Calculus.Deriv.Mul
import Mathlib.Analysis.Calculus.Deriv.Inv
import Mathlib.Tactic.FieldSimp
import Mathlib.Tactic.LinearCombination

/-!
# Lemmas on the axis
-/

namespace Qsc.Axis

open Qsc.Spec.Axis

/-! ## Vectors -/

theorem v3_ext {u v : V3 ℝ} (hx : u.x = v.x) (hy : u.y = v.y) (hz : u.z = v.z) : u = v := by
  cases u; cases v; cases hx; cases hy; cases hz; rfl

theorem dot_cart (φ : ℝ) (u v : V3 ℝ) : dot (cart φ u) (cart φ v) = dot u v := by
  have h := Real.sin_sq_add_cos_sq φ
  simp only [dot, cart]
  linear_combination (u.x * v.x + u.y * v.y) * h

theorem cross_cart (φ : ℝ) (u v : V3 ℝ) : cross (cart φ u) (cart φ v) = cart φ (cross u v) := by
  have h := Real.sin_sq_add_cos_sq φ
  apply v3_ext
  · simp only [cross, cart]; ring
  · simp only [cross, cart]; ring
  · simp only [cross, cart]
    linear_combination (u.x * v.y - u.y * v.x) * h

theorem smul_cart (φ a : ℝ) (v : V3 ℝ) : smul a (cart φ v) = cart φ (smul a v) := by
  apply v3_ext <;> simp only [smul, cart] <;> ring

theorem len_cart (φ : ℝ) (v : V3 ℝ) : len (cart φ v) = len v := by
  unfold len; rw [dot_cart]

theorem dot_self_nonneg (v : V3 ℝ) : 0 ≤ dot v v := by
  unfold dot
  have := mul_self_nonneg v.x
  have := mul_self_nonneg v.y
  have := mul_self_nonneg v.z
  linarith

theorem len_sq (v : V3 ℝ) : len v * len v = dot v v := Real.mul_self_sqrt (dot_self_nonneg v)

theorem len_nonneg (v : V3 ℝ) : 0 ≤ len v := Real.sqrt_nonneg _

/-! ## Derivatives -/

/-- Derivative of a Fourier sum: another Fourier sum. -/
theorem fourier_hasDerivAt (N nfp : Nat) (c s : Nat → ℝ) (φ : ℝ) :
    HasDerivAt (fourier N nfp c s)
      (fourier N nfp (fun n => ((n : ℝ) * nfp) * s n) (fun n => -(((n : ℝ) * nfp) * c n)) φ) φ := by
  unfold fourier
  apply HasDerivAt.fun_sum
  intro n _
  have hi : HasDerivAt (fun x : ℝ => ((n : ℝ) * nfp) * x) ((n : ℝ) * nfp) φ := by
    simpa using (hasDerivAt_id φ).const_mul ((n : ℝ) * nfp)
  refine ((hi.cos.const_mul (c n)).add (hi.sin.const_mul (s n))).congr_deriv ?_
  ring

/-- Derivative of a vector given by its components in the rotating basis. -/
theorem d3_cart {a b c : ℝ → ℝ} {a' b' c' φ : ℝ} (ha : HasDerivAt a a' φ) (hb : HasDerivAt b b' φ)
    (hc : HasDerivAt c c' φ) :
    d3 (fun s => cart s ⟨a s, b s, c s⟩) φ = cart φ ⟨a' - b φ, a φ + b', c'⟩ := by
  have hcos := Real.hasDerivAt_cos φ
  have hsin := Real.hasDerivAt_sin φ
  apply v3_ext
  · simp only [d3, cart]
    refine (((ha.mul hcos).sub (hb.mul hsin)).deriv).trans ?_
    ring
  · simp only [d3, cart]
    refine (((ha.mul hsin).add (hb.mul hcos)).deriv).trans ?_
    ring
  · simp only [d3, cart]
    exact hc.deriv

/-- The three derivatives of the curve in cylindrical components. -/
theorem curve_derivs {R R1 R2 R3 Z Z1 Z2 Z3 : ℝ → ℝ} (h1 : ∀ φ, HasDerivAt R (R1 φ) φ)
    (h2 : ∀ φ, HasDerivAt R1 (R2 φ) φ) (h3 : ∀ φ, HasDerivAt R2 (R3 φ) φ)
    (g1 : ∀ φ, HasDerivAt Z (Z1 φ) φ) (g2 : ∀ φ, HasDerivAt Z1 (Z2 φ) φ)
    (g3 : ∀ φ, HasDerivAt Z2 (Z3 φ) φ) :
    (d3 (curve R Z) = fun φ => cart φ ⟨R1 φ, R φ, Z1 φ⟩) ∧
    (d3 (d3 (curve R Z)) = fun φ => cart φ ⟨R2 φ - R φ, 2 * R1 φ, Z2 φ⟩) ∧
    (d3 (d3 (d3 (curve R Z))) = fun φ => cart φ ⟨R3 φ - 3 * R1 φ, 3 * R2 φ - R φ, Z3 φ⟩) := by
  have e0 : curve R Z = fun φ => cart φ ⟨R φ, (fun _ => (0 : ℝ)) φ, Z φ⟩ := by
    funext φ
    apply v3_ext <;> simp [curve, cart]
  have e1 : d3 (curve R Z) = fun φ => cart φ ⟨R1 φ, R φ, Z1 φ⟩ := by
    rw [e0]
    funext φ
    rw [d3_cart (h1 φ) (hasDerivAt_const φ (0 : ℝ)) (g1 φ)]
    simp
  have e2 : d3 (d3 (curve R Z)) = fun φ => cart φ ⟨R2 φ - R φ, 2 * R1 φ, Z2 φ⟩ := by
    rw [e1]
    funext φ
    rw [d3_cart (h2 φ) (h1 φ) (g2 φ)]
    congr 2; ring
  refine ⟨e1, e2, ?_⟩
  rw [e2]
  funext φ
  rw [d3_cart (a := fun φ => R2 φ - R φ) (b := fun φ => 2 * R1 φ) (c := Z2) ((h3 φ).sub (h1 φ))
    ((h2 φ).const_mul 2) (g3 φ)]
  congr 2 <;> ring

/-! ## The local quantities in vector form -/

theorem d1_d2 (p : Pt ℝ) :
    p.R0 * p.R0p + p.R0p * p.R0pp + p.Z0p * p.Z0pp = dot p.d1 p.d2 := by
  simp only [dot, Pt.d1, Pt.d2]; ring

theorem loc_dl (p : Pt ℝ) : (localOf realOps p).dl = len p.d1 := by
  simp only [localOf, realOps, len, dot, Pt.d1]
  congr 1; ring

theorem loc_tangent (p : Pt ℝ) :
    (localOf realOps p).tangent = smul (1 / len p.d1) p.d1 := by
  rw [← loc_dl]
  apply v3_ext <;> simp only [localOf, smul] <;> ring

theorem loc_dTangent (p : Pt ℝ) (h : len p.d1 ≠ 0) :
    (localOf realOps p).dTangent =
      smul (1 / len p.d1 ^ 4) (cross (cross p.d1 p.d2) p.d1) := by
  have hd := loc_dl p
  have e : ∀ u v w : ℝ, (-u * (dot p.d1 p.d2 / len p.d1) / len p.d1 + v) /
      (len p.d1 * len p.d1) = 1 / len p.d1 ^ 4 *
        (v * dot p.d1 p.d1 - u * dot p.d1 p.d2) + 0 * w := by
    intro u v w
    rw [← len_sq]
    field_simp
    ring
  have hx : (localOf realOps p).dTangent = ⟨(-p.d1.x * (dot p.d1 p.d2 / len p.d1) / len p.d1 +
      p.d2.x) / (len p.d1 * len p.d1), (-p.d1.y * (dot p.d1 p.d2 / len p.d1) / len p.d1 +
      p.d2.y) / (len p.d1 * len p.d1), (-p.d1.z * (dot p.d1 p.d2 / len p.d1) / len p.d1 +
      p.d2.z) / (len p.d1 * len p.d1)⟩ := by
    rw [← hd, ← d1_d2]; rfl
  rw [hx, e _ _ 0, e _ _ 0, e _ _ 0]
  apply v3_ext <;> simp only [smul, cross, dot] <;> ring

theorem lagrange (a b : V3 ℝ) :
    dot (cross (cross a b) a) (cross (cross a b) a) = dot (cross a b) (cross a b) * dot a a := by
  simp only [dot, cross]; ring

theorem len_smul (a : ℝ) (ha : 0 ≤ a) (v : V3 ℝ) : len (smul a v) = a * len v := by
  unfold len
  rw [show dot (smul a v) (smul a v) = a ^ 2 * dot v v by simp only [dot, smul]; ring,
    Real.sqrt_mul (sq_nonneg a), Real.sqrt_sq ha]

theorem len_mul_of_dot {u v w : V3 ℝ} (h : dot u u = dot v v * dot w w) :
    len u = len v * len w := by
  unfold len; rw [h, Real.sqrt_mul (dot_self_nonneg v)]

theorem loc_curvature (p : Pt ℝ) (h : len p.d1 ≠ 0) :
    (localOf realOps p).curvature = len (cross p.d1 p.d2) / len p.d1 ^ 3 := by
  have e : (localOf realOps p).curvature = len (localOf realOps p).dTangent := rfl
  rw [e, loc_dTangent p h, len_smul _ (by have := len_nonneg p.d1; positivity),
    len_mul_of_dot (lagrange _ _)]
  field_simp

theorem loc_normal (p : Pt ℝ) (h : len p.d1 ≠ 0) (hc : len (cross p.d1 p.d2) ≠ 0) :
    (localOf realOps p).normal =
      cross (smul (1 / len (cross p.d1 p.d2)) (cross p.d1 p.d2)) (smul (1 / len p.d1) p.d1) := by
  have e : (localOf realOps p).normal = ⟨(localOf realOps p).dTangent.x / (localOf realOps p).curvature,
    (localOf realOps p).dTangent.y / (localOf realOps p).curvature,
    (localOf realOps p).dTangent.z / (localOf realOps p).curvature⟩ := rfl
  rw [e, loc_curvature p h, loc_dTangent p h]
  apply v3_ext <;> simp only [smul, cross] <;> field_simp

theorem loc_binormal (p : Pt ℝ) (h : len p.d1 ≠ 0) (hc : len (cross p.d1 p.d2) ≠ 0) :
    (localOf realOps p).binormal =
      smul (1 / len (cross p.d1 p.d2)) (cross p.d1 p.d2) := by
  have e : (localOf realOps p).binormal =
    cross (localOf realOps p).tangent (localOf realOps p).normal := rfl
  rw [e, loc_normal p h hc, loc_tangent]
  have hn := len_sq p.d1
  have key : ∀ a b : V3 ℝ, cross a (cross (cross a b) a) = smul (dot a a) (cross a b) := by
    intro a b
    apply v3_ext <;> simp only [smul, cross, dot] <;> ring
  have e2 : cross (smul (1 / len p.d1) p.d1) (cross (smul (1 / len (cross p.d1 p.d2))
      (cross p.d1 p.d2)) (smul (1 / len p.d1) p.d1)) =
      smul (1 / len p.d1 * (1 / len p.d1) * (1 / len (cross p.d1 p.d2)))
        (cross p.d1 (cross (cross p.d1 p.d2) p.d1)) := by
    apply v3_ext <;> simp only [smul, cross] <;> ring
  rw [e2, key, ← hn]
  apply v3_ext <;> simp only [smul] <;> field_simp

theorem loc_torsion (p : Pt ℝ) :
    (localOf realOps p).torsion =
      dot p.d1 (cross p.d2 p.d3) / len (cross p.d1 p.d2) ^ 2 := by
  rw [pow_two, len_sq]
  simp only [localOf, dot, cross]
  congr 1
  ring

/-! ## The sums over modes -/

/-- Mode `n` of a complete set of arrays. -/
def modeAt (c : Coeffs ℝ) (n : Nat) : Mode ℝ :=
  ⟨n, c.R0c.getD n 0, c.R0s.getD n 0, c.Z0c.getD n 0, c.Z0s.getD n 0⟩

theorem mapM_ok {α β : Type} (f : α → Except Qsc.OptState.Err β) (g : α → β) (l : List α)
    (h : ∀ a ∈ l, f a = .ok (g a)) : l.mapM f = .ok (l.map g) := by
  induction l with
  | nil => rfl
  | cons a l ih =>
    rw [List.mapM_cons, h a (by simp), ih fun b hb => h b (by simp [hb])]
    rfl

theorem modes_ok (c : Coeffs ℝ) (h1 : c.R0s.length = c.R0c.length)
    (h2 : c.Z0c.length = c.R0c.length) (h3 : c.Z0s.length = c.R0c.length) :
    c.modes = .ok (((List.range c.R0c.length).drop 1).map (modeAt c)) := by
  apply mapM_ok
  intro n hn
  have hn' : n < c.R0c.length := List.mem_range.1 (List.mem_of_mem_drop hn)
  unfold Coeffs.mode modeAt
  rw [List.getElem?_eq_getElem hn', List.getElem?_eq_getElem (h1 ▸ hn'),
    List.getElem?_eq_getElem (h2 ▸ hn'), List.getElem?_eq_getElem (h3 ▸ hn')]
  simp [List.getElem?_eq_getElem hn', List.getElem?_eq_getElem (h1 ▸ hn' : n < c.R0s.length),
    List.getElem?_eq_getElem (h2 ▸ hn' : n < c.Z0c.length),
    List.getElem?_eq_getElem (h3 ▸ hn' : n < c.Z0s.length)]

/-- One term of a Fourier sum. -/
noncomputable def term (nfp n : Nat) (c s φ : ℝ) : ℝ :=
  c * Real.cos (((n : ℝ) * (nfp : ℝ)) * φ) + s * Real.sin (((n : ℝ) * (nfp : ℝ)) * φ)

theorem foldl_addMode (nfp : Nat) (φ : ℝ) (ms : List (Mode ℝ)) (p : Pt ℝ) :
    ms.foldl (addMode realOps nfp φ) p =
      { R0 := p.R0 + (ms.map fun m => term nfp m.n m.rc m.rs φ).sum
        Z0 := p.Z0 + (ms.map fun m => term nfp m.n m.zc m.zs φ).sum
        R0p := p.R0p + (ms.map fun m => term nfp m.n (((m.n : ℝ) * nfp) * m.rs)
          (-(((m.n : ℝ) * nfp) * m.rc)) φ).sum
        Z0p := p.Z0p + (ms.map fun m => term nfp m.n (((m.n : ℝ) * nfp) * m.zs)
          (-(((m.n : ℝ) * nfp) * m.zc)) φ).sum
        R0pp := p.R0pp + (ms.map fun m => term nfp m.n (((m.n : ℝ) * nfp) * -(((m.n : ℝ) * nfp) * m.rc))
          (-(((m.n : ℝ) * nfp) * (((m.n : ℝ) * nfp) * m.rs))) φ).sum
        Z0pp := p.Z0pp + (ms.map fun m => term nfp m.n (((m.n : ℝ) * nfp) * -(((m.n : ℝ) * nfp) * m.zc))
          (-(((m.n : ℝ) * nfp) * (((m.n : ℝ) * nfp) * m.zs))) φ).sum
        R0ppp := p.R0ppp + (ms.map fun m => term nfp m.n
          (((m.n : ℝ) * nfp) * -(((m.n : ℝ) * nfp) * (((m.n : ℝ) * nfp) * m.rs)))
          (-(((m.n : ℝ) * nfp) * (((m.n : ℝ) * nfp) * -(((m.n : ℝ) * nfp) * m.rc)))) φ).sum
        Z0ppp := p.Z0ppp + (ms.map fun m => term nfp m.n
          (((m.n : ℝ) * nfp) * -(((m.n : ℝ) * nfp) * (((m.n : ℝ) * nfp) * m.zs)))
          (-(((m.n : ℝ) * nfp) * (((m.n : ℝ) * nfp) * -(((m.n : ℝ) * nfp) * m.zc)))) φ).sum } := by
  induction ms generalizing p with
  | nil => simp
  | cons m ms ih =>
    rw [List.foldl_cons, ih]
    simp only [List.map_cons, List.sum_cons, addMode, realOps, term, Pt.mk.injEq]
    refine ⟨?_, ?_, ?_, ?_, ?_, ?_, ?_, ?_⟩ <;> ring

/-- A sum over `n < N` is the first term and the rest. -/
theorem fourier_split (N nfp : Nat) (hN : 0 < N) (c s : Nat → ℝ) (φ : ℝ) :
    fourier N nfp c s φ = c 0 +
      (((List.range N).drop 1).map fun n => term nfp n (c n) (s n) φ).sum := by
  obtain ⟨M, rfl⟩ : ∃ M, N = M + 1 := ⟨N - 1, by omega⟩
  unfold fourier
  rw [Finset.sum_range_succ', List.range_succ_eq_map, List.drop_one, List.tail_cons, List.map_map,
    add_comm]
  congr 1
  simp

/-- The functions of which the arrays hold the values. -/
noncomputable def Rf (c : Coeffs ℝ) : ℝ → ℝ :=
  fourier c.R0c.length c.nfp (fun n => c.R0c.getD n 0) (fun n => c.R0s.getD n 0)
noncomputable def Zf (c : Coeffs ℝ) : ℝ → ℝ :=
  fourier c.R0c.length c.nfp (fun n => c.Z0c.getD n 0) (fun n => c.Z0s.getD n 0)

/-- The four arrays have one common length, at least 1. -/
structure Coeffs.WellSized {K : Type} (c : Coeffs K) : Prop where
  pos : 0 < c.R0c.length
  R0s : c.R0s.length = c.R0c.length
  Z0c : c.Z0c.length = c.R0c.length
  Z0s : c.Z0s.length = c.R0c.length

/-- With arrays of one length and an odd grid, `init_axis` runs through, and this is its result. -/
theorem initAxis_eq (c : Coeffs ℝ) (hc : c.WellSized) (M : Nat) (sG spsi : Int) (B0 : ℝ) :
    ∃ h, initAxis realOps c (2 * M + 1) sG spsi B0 =
      .ok (axisData realOps c.nfp (2 * M + 1) sG B0 (c.R0c.getD 0 0) (c.Z0c.getD 0 0)
        (((List.range c.R0c.length).drop 1).map (modeAt c))
        (fun j k => if j < 2 * M + 1 ∧ k < 2 * M + 1 then
          DiffMat.entry M (2 * Real.pi / (2 * Real.pi / (c.nfp : ℝ) - 0)) j k else
          (((DiffMat.differentiationMatrix DiffMat.real (2 * M + 1) 0
            (2 * Real.pi / (c.nfp : ℝ))).bind fun m => m.get j k).getD 0)) h) ∧
      Helicity.calculateHelicity realOps.ge0 (2 * M + 1)
        (fun j => (localOf realOps (point realOps c.nfp (c.R0c.getD 0 0) (c.Z0c.getD 0 0)
          (((List.range c.R0c.length).drop 1).map (modeAt c))
          (phiGrid (dPhi realOps c.nfp (2 * M + 1)) j))).normal.x)
        (fun j => (localOf realOps (point realOps c.nfp (c.R0c.getD 0 0) (c.Z0c.getD 0 0)
          (((List.range c.R0c.length).drop 1).map (modeAt c))
          (phiGrid (dPhi realOps c.nfp (2 * M + 1)) j))).normal.z) spsi sG = .ok h := by
  obtain ⟨m, m1, -, m3, m4, m5⟩ := DiffMat.entries_odd M 0 (2 * Real.pi / (c.nfp : ℝ))
  have hz : 0 < c.Z0c.length := hc.Z0c ▸ hc.pos
  have r0 : c.R0c[0]? = some (c.R0c.getD 0 0) := by
    rw [List.getElem?_eq_getElem hc.pos]; simp [hc.pos]
  have z0 : c.Z0c[0]? = some (c.Z0c.getD 0 0) := by
    rw [List.getElem?_eq_getElem hz]; simp [hz]
  have hm : DiffMat.differentiationMatrix ⟨realOps.pi, realOps.sin, realOps.tan⟩ (2 * M + 1) 0
      (2 * realOps.pi / (c.nfp : ℝ)) = some m := m1
  have hD : (fun j k => (m.get j k).getD 0) = (fun j k => if j < 2 * M + 1 ∧ k < 2 * M + 1 then
          DiffMat.entry M (2 * Real.pi / (2 * Real.pi / (c.nfp : ℝ) - 0)) j k else
          (((DiffMat.differentiationMatrix DiffMat.real (2 * M + 1) 0
            (2 * Real.pi / (c.nfp : ℝ))).bind fun m => m.get j k).getD 0)) := by
    funext j k
    by_cases h : j < 2 * M + 1 ∧ k < 2 * M + 1
    · rw [if_pos h, m5 j k h.1 h.2]; rfl
    · rw [if_neg h, m1]; rfl
  refine ⟨_, ?_, Helicity.helicity_never_throws _ _ _ _ _ _⟩
  unfold initAxis
  rw [hm, r0, z0]
  dsimp only
  rw [modes_ok c hc.R0s hc.Z0c hc.Z0s]
  dsimp only [Except.bind]
  rw [Helicity.helicity_never_throws, hD]
  rfl

/-! ## Calculus of curves -/

/-- Componentwise derivative. -/
def HasD3 (f : ℝ → V3 ℝ) (v : V3 ℝ) (φ : ℝ) : Prop :=
  HasDerivAt (fun s => (f s).x) v.x φ ∧ HasDerivAt (fun s => (f s).y) v.y φ ∧
    HasDerivAt (fun s => (f s).z) v.z φ

def add (u v : V3 ℝ) : V3 ℝ := ⟨u.x + v.x, u.y + v.y, u.z + v.z⟩

theorem HasD3.eq {f : ℝ → V3 ℝ} {v : V3 ℝ} {φ : ℝ} (h : HasD3 f v φ) : d3 f φ = v :=
  v3_ext h.1.deriv h.2.1.deriv h.2.2.deriv

theorem HasD3.dotR {f g : ℝ → V3 ℝ} {u v : V3 ℝ} {φ : ℝ} (hf : HasD3 f u φ) (hg : HasD3 g v φ) :
    HasDerivAt (fun s => dot (f s) (g s)) (dot u (g φ) + dot (f φ) v) φ := by
  refine ((hf.1.mul hg.1).add (hf.2.1.mul hg.2.1)).add (hf.2.2.mul hg.2.2) |>.congr_deriv ?_
  simp only [dot]; ring

theorem HasD3.crossR {f g : ℝ → V3 ℝ} {u v : V3 ℝ} {φ : ℝ} (hf : HasD3 f u φ) (hg : HasD3 g v φ) :
    HasD3 (fun s => cross (f s) (g s)) (add (cross u (g φ)) (cross (f φ) v)) φ := by
  refine ⟨?_, ?_, ?_⟩
  · refine ((hf.2.1.mul hg.2.2).sub (hf.2.2.mul hg.2.1)).congr_deriv ?_
    simp only [cross, add]; ring
  · refine ((hf.2.2.mul hg.1).sub (hf.1.mul hg.2.2)).congr_deriv ?_
    simp only [cross, add]; ring
  · refine ((hf.1.mul hg.2.1).sub (hf.2.1.mul hg.1)).congr_deriv ?_
    simp only [cross, add]; ring

theorem HasD3.smulR {a : ℝ → ℝ} {a' : ℝ} {f : ℝ → V3 ℝ} {v : V3 ℝ} {φ : ℝ} (ha : HasDerivAt a a' φ)
    (hf : HasD3 f v φ) : HasD3 (fun s => smul (a s) (f s)) (add (smul a' (f φ)) (smul (a φ) v)) φ :=
  ⟨ha.mul hf.1, ha.mul hf.2.1, ha.mul hf.2.2⟩

theorem HasD3.lenR {f : ℝ → V3 ℝ} {v : V3 ℝ} {φ : ℝ} (hf : HasD3 f v φ) (h0 : len (f φ) ≠ 0) :
    HasDerivAt (fun s => len (f s)) (dot (f φ) v / len (f φ)) φ := by
  have hd : dot (f φ) (f φ) ≠ 0 := by
    rw [← len_sq]; exact mul_ne_zero h0 h0
  refine ((hf.dotR hf).sqrt hd).congr_deriv ?_
  have : dot v (f φ) = dot (f φ) v := by simp only [dot]; ring
  rw [this]
  change _ / (2 * len (f φ)) = _
  field_simp
  ring

/-- The derivative of a unit vector `f / |f|`. -/
theorem HasD3.unitR {f : ℝ → V3 ℝ} {v : V3 ℝ} {φ : ℝ} (hf : HasD3 f v φ) (h0 : len (f φ) ≠ 0) :
    HasD3 (fun s => smul (1 / len (f s)) (f s))
      (smul (1 / len (f φ) ^ 3)
        (cross (cross (f φ) v) (f φ))) φ := by
  have h1 : HasDerivAt (fun s => 1 / len (f s))
      (-(dot (f φ) v / len (f φ)) / len (f φ) ^ 2) φ := by
    simpa [one_div] using (hf.lenR h0).fun_inv h0
  have h2 := HasD3.smulR h1 hf
  have e : add (smul (-(dot (f φ) v / len (f φ)) / len (f φ) ^ 2) (f φ))
      (smul (1 / len (f φ)) v) = smul (1 / len (f φ) ^ 3)
        (cross (cross (f φ) v) (f φ)) := by
    have hn := len_sq (f φ)
    have hs : ∀ u w : ℝ, -(dot (f φ) v / len (f φ)) / len (f φ) ^ 2 * u +
        1 / len (f φ) * w =
        1 / len (f φ) ^ 3 * (w * dot (f φ) (f φ) - u * dot (f φ) v) := by
      intro u w
      rw [← hn]
      field_simp
      ring
    apply v3_ext
    · simp only [add, smul]
      rw [hs]; simp only [dot, cross]; ring
    · simp only [add, smul]
      rw [hs]; simp only [dot, cross]; ring
    · simp only [add, smul]
      rw [hs]; simp only [dot, cross]; ring
  rw [e] at h2
  exact h2

end Qsc.Axis
