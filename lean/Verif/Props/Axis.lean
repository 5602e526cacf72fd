import Verif.Lemmas.Axis
import Verif.Props.DiffMat

/-!
# Properties of `init_axis` (C39, C40, C56)

Exact real arithmetic.  `nphi` is odd, as `allocate` makes it (C35).
-/

namespace Qsc.Axis

open Qsc.Spec.Axis

/-- The axis curve of the input: the two Fourier sums, in Cartesian coordinates. -/
noncomputable def axisCurve (c : Coeffs ℝ) : ℝ → V3 ℝ := curve (Rf c) (Zf c)

/-! ## When the calculation runs through -/

/-- Arrays of one common length: `init_axis` succeeds. -/
theorem init_ok (c : Coeffs ℝ) (hc : c.WellSized) (M : Nat) (sG spsi : Int) (B0 : ℝ) :
    ∃ a, initAxis realOps c (2 * M + 1) sG spsi B0 = .ok a := by
  obtain ⟨h, h1, -⟩ := initAxis_eq c hc M sG spsi B0
  exact ⟨_, h1⟩

theorem mapM_error {α β : Type} (f : α → Except Qsc.OptState.Err β) (e : Qsc.OptState.Err)
    (l : List α) (h : ∀ a ∈ l, f a = .error e ∨ ∃ b, f a = .ok b) (h1 : ∃ a ∈ l, f a = .error e) :
    l.mapM f = .error e := by
  induction l with
  | nil => obtain ⟨a, ha, -⟩ := h1; cases ha
  | cons a l ih =>
    rw [List.mapM_cons]
    rcases h a (by simp) with ha | ⟨b, hb⟩
    · rw [ha]; rfl
    · obtain ⟨x, hx, hx'⟩ := h1
      rcases List.mem_cons.1 hx with rfl | hx
      · rw [hb] at hx'; cases hx'
      · rw [hb, ih (fun y hy => h y (by simp [hy])) ⟨x, hx, hx'⟩]; rfl

/-- An array that is too short for the modes in `R0c` is read out of bounds, and so is an empty
`R0c` or `Z0c`. -/
theorem short_array_undefined (c : Coeffs ℝ) (nphi : Nat) (sG spsi : Int) (B0 : ℝ)
    (h : c.R0c = [] ∨ c.Z0c = [] ∨ (1 < c.R0c.length ∧ (c.R0s.length < c.R0c.length ∨
      c.Z0c.length < c.R0c.length ∨ c.Z0s.length < c.R0c.length))) :
    initAxis realOps c nphi sG spsi B0 = .error (.undefined "axis array") := by
  unfold initAxis
  split
  · rename_i m R00 Z00 _ hr hz
    have hr0 : c.R0c ≠ [] := by intro e; rw [e] at hr; simp at hr
    have hz0 : c.Z0c ≠ [] := by intro e; rw [e] at hz; simp at hz
    rcases h with h | h | ⟨h1, h2⟩
    · exact absurd h hr0
    · exact absurd h hz0
    · have hm : c.modes = .error (.undefined "axis array") := by
        apply mapM_error
        · intro n hn
          unfold Coeffs.mode
          split
          · exact .inr ⟨_, rfl⟩
          · exact .inl rfl
        · refine ⟨c.R0c.length - 1, ?_, ?_⟩
          · have : (List.range c.R0c.length).drop 1 =
                List.map Nat.succ (List.range (c.R0c.length - 1)) := by
              obtain ⟨k, hk⟩ : ∃ k, c.R0c.length = k + 1 := ⟨c.R0c.length - 1, by omega⟩
              rw [hk, List.range_succ_eq_map]; simp
            rw [this]
            refine List.mem_map.2 ⟨c.R0c.length - 2, List.mem_range.2 (by omega), by omega⟩
          · unfold Coeffs.mode
            split
            · rename_i _ _ _ _ g1 g2 g3 g4
              have := (List.getElem?_eq_some_iff.1 g2).1
              have := (List.getElem?_eq_some_iff.1 g3).1
              have := (List.getElem?_eq_some_iff.1 g4).1
              omega
            · rfl
      rw [hm]; rfl
  · rfl

/-- Modes of `R0s`, `Z0c`, `Z0s` beyond the length of `R0c` are ignored silently. -/
theorem extra_modes_ignored (c : Coeffs ℝ) (x y z : List ℝ) (hc : c.WellSized) (nphi : Nat)
    (sG spsi : Int) (B0 : ℝ) :
    initAxis realOps { c with R0s := c.R0s ++ x, Z0c := c.Z0c ++ y, Z0s := c.Z0s ++ z } nphi sG spsi
      B0 = initAxis realOps c nphi sG spsi B0 := by
  have hm : Coeffs.modes { c with R0s := c.R0s ++ x, Z0c := c.Z0c ++ y, Z0s := c.Z0s ++ z } =
      c.modes := by
    rw [modes_ok c hc.R0s hc.Z0c hc.Z0s]
    apply mapM_ok
    intro n hn
    have hn' : n < c.R0c.length := List.mem_range.1 (List.mem_of_mem_drop hn)
    have := modes_ok c hc.R0s hc.Z0c hc.Z0s
    unfold Coeffs.mode modeAt
    dsimp only
    rw [List.getElem?_append_left (hc.R0s ▸ hn'), List.getElem?_append_left (hc.Z0c ▸ hn'),
      List.getElem?_append_left (hc.Z0s ▸ hn'), List.getElem?_eq_getElem hn',
      List.getElem?_eq_getElem (hc.R0s ▸ hn'),
      List.getElem?_eq_getElem (hc.Z0c ▸ hn'), List.getElem?_eq_getElem (hc.Z0s ▸ hn')]
    simp [List.getElem?_eq_getElem hn', List.getElem?_eq_getElem (hc.R0s ▸ hn' : n < c.R0s.length),
      List.getElem?_eq_getElem (hc.Z0c ▸ hn' : n < c.Z0c.length),
      List.getElem?_eq_getElem (hc.Z0s ▸ hn' : n < c.Z0s.length)]
  have hz : 0 < c.Z0c.length := hc.Z0c ▸ hc.pos
  unfold initAxis
  rw [hm]
  dsimp only
  rw [List.getElem?_append_left hz]

/-! ## The Fourier sums and their derivatives -/

section
variable {c : Coeffs ℝ} {M : Nat} {sG spsi : Int} {B0 : ℝ} {a : Axis ℝ}

theorem of_ok (hc : c.WellSized) (h : initAxis realOps c (2 * M + 1) sG spsi B0 = .ok a) :
    ∃ D k, (∀ i j, i < 2 * M + 1 → j < 2 * M + 1 →
        D i j = DiffMat.entry M (2 * Real.pi / (2 * Real.pi / (c.nfp : ℝ) - 0)) i j) ∧
      a = axisData realOps c.nfp (2 * M + 1) sG B0 (c.R0c.getD 0 0) (c.Z0c.getD 0 0)
        (((List.range c.R0c.length).drop 1).map (modeAt c)) D k ∧
      Helicity.calculateHelicity realOps.ge0 (2 * M + 1) (fun j => (a.loc j).normal.x)
        (fun j => (a.loc j).normal.z) spsi sG = .ok k := by
  obtain ⟨k, h1, h2⟩ := initAxis_eq c hc M sG spsi B0
  have ha := h.symm.trans h1
  injection ha with ha
  refine ⟨_, k, ?_, ha, ?_⟩
  · intro i j hi hj
    rw [if_pos ⟨hi, hj⟩]
  · rw [ha]; exact h2

theorem grid_point (d : ℝ) (j : Nat) : phiGrid d j = j * d := by
  induction j with
  | zero => simp [phiGrid]
  | succ j ih => rw [phiGrid, ih]; push_cast; ring

/-- The toroidal grid is uniform: `phi_j = 2 pi j / (nfp nphi)`. -/
theorem grid (hc : c.WellSized) (h : initAxis realOps c (2 * M + 1) sG spsi B0 = .ok a) (j : Nat) :
    a.phi j = 2 * Real.pi * j / (c.nfp * ((2 * M + 1 : Nat) : ℝ)) := by
  obtain ⟨D, k, -, rfl, -⟩ := of_ok hc h
  change phiGrid _ j = _
  rw [grid_point]
  simp only [dPhi, realOps]
  push_cast
  ring

/-- The sum over modes at an angle. -/
theorem point_eq (c : Coeffs ℝ) (hc : c.WellSized) (φ : ℝ) :
    point realOps c.nfp (c.R0c.getD 0 0) (c.Z0c.getD 0 0)
      (((List.range c.R0c.length).drop 1).map (modeAt c)) φ =
    { R0 := Rf c φ
      Z0 := Zf c φ
      R0p := deriv (Rf c) φ
      Z0p := deriv (Zf c) φ
      R0pp := deriv (deriv (Rf c)) φ
      Z0pp := deriv (deriv (Zf c)) φ
      R0ppp := deriv (deriv (deriv (Rf c))) φ
      Z0ppp := deriv (deriv (deriv (Zf c))) φ } := by
  have dF : ∀ (C S : Nat → ℝ), deriv (fourier c.R0c.length c.nfp C S) =
      fourier c.R0c.length c.nfp (fun n => ((n : ℝ) * c.nfp) * S n)
        (fun n => -(((n : ℝ) * c.nfp) * C n)) :=
    fun C S => funext fun φ => (fourier_hasDerivAt _ _ C S φ).deriv
  unfold point
  rw [foldl_addMode]
  unfold Rf Zf
  simp only [dF]
  simp only [fourier_split _ _ hc.pos, List.map_map]
  congr 1 <;> simp [Function.comp_def, modeAt]

/-- The code's `R0, R0p, R0pp, R0ppp` and `Z0, ...` are the Fourier sums and their first three
derivatives at the grid points. -/
theorem derivatives (hc : c.WellSized) (h : initAxis realOps c (2 * M + 1) sG spsi B0 = .ok a)
    (j : Nat) :
    (a.pt j).R0 = Rf c (a.phi j) ∧ (a.pt j).Z0 = Zf c (a.phi j) ∧
    HasDerivAt (Rf c) (a.pt j).R0p (a.phi j) ∧ HasDerivAt (Zf c) (a.pt j).Z0p (a.phi j) ∧
    HasDerivAt (deriv (Rf c)) (a.pt j).R0pp (a.phi j) ∧
    HasDerivAt (deriv (Zf c)) (a.pt j).Z0pp (a.phi j) ∧
    HasDerivAt (deriv (deriv (Rf c))) (a.pt j).R0ppp (a.phi j) ∧
    HasDerivAt (deriv (deriv (Zf c))) (a.pt j).Z0ppp (a.phi j) := by
  have dF : ∀ (C S : Nat → ℝ), deriv (fourier c.R0c.length c.nfp C S) =
      fourier c.R0c.length c.nfp (fun n => ((n : ℝ) * c.nfp) * S n)
        (fun n => -(((n : ℝ) * c.nfp) * C n)) :=
    fun C S => funext fun φ => (fourier_hasDerivAt _ _ C S φ).deriv
  have dd : ∀ (C S : Nat → ℝ) φ, HasDerivAt (fourier c.R0c.length c.nfp C S)
      (deriv (fourier c.R0c.length c.nfp C S) φ) φ :=
    fun C S φ => (fourier_hasDerivAt _ _ C S φ).differentiableAt.hasDerivAt
  obtain ⟨D, k, -, rfl, -⟩ := of_ok hc h
  have e : (axisData realOps c.nfp (2 * M + 1) sG B0 (c.R0c.getD 0 0) (c.Z0c.getD 0 0)
        (((List.range c.R0c.length).drop 1).map (modeAt c)) D k).pt j =
      point realOps c.nfp (c.R0c.getD 0 0) (c.Z0c.getD 0 0)
      (((List.range c.R0c.length).drop 1).map (modeAt c)) (phiGrid (dPhi realOps c.nfp (2 * M + 1)) j) :=
    rfl
  rw [e, point_eq c hc]
  refine ⟨rfl, rfl, dd _ _ _, dd _ _ _, ?_, ?_, ?_, ?_⟩
  · unfold Rf; simp only [dF]; exact (fourier_hasDerivAt _ _ _ _ _).congr_deriv rfl
  · unfold Zf; simp only [dF]; exact (fourier_hasDerivAt _ _ _ _ _).congr_deriv rfl
  · unfold Rf; simp only [dF]; exact (fourier_hasDerivAt _ _ _ _ _).congr_deriv rfl
  · unfold Zf; simp only [dF]; exact (fourier_hasDerivAt _ _ _ _ _).congr_deriv rfl

/-! ## The curve -/

theorem curve_components (c : Coeffs ℝ) :
    (d3 (axisCurve c) = fun φ => cart φ ⟨deriv (Rf c) φ, Rf c φ, deriv (Zf c) φ⟩) ∧
    (d3 (d3 (axisCurve c)) = fun φ => cart φ
      ⟨deriv (deriv (Rf c)) φ - Rf c φ, 2 * deriv (Rf c) φ, deriv (deriv (Zf c)) φ⟩) ∧
    (d3 (d3 (d3 (axisCurve c))) = fun φ => cart φ
      ⟨deriv (deriv (deriv (Rf c))) φ - 3 * deriv (Rf c) φ, 3 * deriv (deriv (Rf c)) φ - Rf c φ,
        deriv (deriv (deriv (Zf c))) φ⟩) := by
  have dF : ∀ (C S : Nat → ℝ), deriv (fourier c.R0c.length c.nfp C S) =
      fourier c.R0c.length c.nfp (fun n => ((n : ℝ) * c.nfp) * S n)
        (fun n => -(((n : ℝ) * c.nfp) * C n)) :=
    fun C S => funext fun φ => (fourier_hasDerivAt _ _ C S φ).deriv
  have dd : ∀ (C S : Nat → ℝ) φ, HasDerivAt (fourier c.R0c.length c.nfp C S)
      (deriv (fourier c.R0c.length c.nfp C S) φ) φ :=
    fun C S φ => (fourier_hasDerivAt _ _ C S φ).differentiableAt.hasDerivAt
  apply curve_derivs
  · exact dd _ _
  · unfold Rf; rw [dF]; exact dd _ _
  · unfold Rf; rw [dF, dF]; exact dd _ _
  · exact dd _ _
  · unfold Zf; rw [dF]; exact dd _ _
  · unfold Zf; rw [dF, dF]; exact dd _ _

/-- The three vectors of lines 60-70, turned into Cartesian components, are the first three
derivatives of the curve. -/
theorem curve_derivatives (hc : c.WellSized)
    (h : initAxis realOps c (2 * M + 1) sG spsi B0 = .ok a) (j : Nat) :
    cart (a.phi j) (a.pt j).d1 = d3 (axisCurve c) (a.phi j) ∧
    cart (a.phi j) (a.pt j).d2 = d3 (d3 (axisCurve c)) (a.phi j) ∧
    cart (a.phi j) (a.pt j).d3 = d3 (d3 (d3 (axisCurve c))) (a.phi j) := by
  obtain ⟨h1, h2, h3⟩ := curve_components c
  rw [h3, h2, h1]
  obtain ⟨D, k, -, rfl, -⟩ := of_ok hc h
  have e : (axisData realOps c.nfp (2 * M + 1) sG B0 (c.R0c.getD 0 0) (c.Z0c.getD 0 0)
        (((List.range c.R0c.length).drop 1).map (modeAt c)) D k).pt j =
      point realOps c.nfp (c.R0c.getD 0 0) (c.Z0c.getD 0 0)
      (((List.range c.R0c.length).drop 1).map (modeAt c)) (phiGrid (dPhi realOps c.nfp (2 * M + 1)) j) :=
    rfl
  rw [e, point_eq c hc]
  exact ⟨rfl, rfl, rfl⟩

/-- The helicity is the one counted from the `R` and `Z` components of the normal vectors at the
grid points (C01 and C02 say what that count means). -/
theorem helicity_eq (hc : c.WellSized) (h : initAxis realOps c (2 * M + 1) sG spsi B0 = .ok a) :
    Helicity.calculateHelicity realOps.ge0 (2 * M + 1) (fun j => (a.loc j).normal.x)
      (fun j => (a.loc j).normal.z) spsi sG = .ok a.helicity := by
  obtain ⟨D, k, -, h1, h2⟩ := of_ok hc h
  rw [h2, h1]
  rfl

theorem loc_eq (hc : c.WellSized) (h : initAxis realOps c (2 * M + 1) sG spsi B0 = .ok a)
    (j : Nat) : a.loc j = localOf realOps (a.pt j) := by
  obtain ⟨D, k, -, rfl, -⟩ := of_ok hc h
  rfl

theorem speed_eq (hc : c.WellSized) (h : initAxis realOps c (2 * M + 1) sG spsi B0 = .ok a)
    (j : Nat) : (a.loc j).dl = speed (axisCurve c) (a.phi j) := by
  unfold speed
  rw [← (curve_derivatives hc h j).1, len_cart, loc_eq hc h, loc_dl]

/-- Where the curve is regular and not straight, everything the code calls `d_l_d_phi`, tangent,
normal, binormal, curvature and torsion is the classical quantity of the curve, vectors being given by
their components along `e_R, e_phi, e_Z`. -/
theorem frenet (hc : c.WellSized) (h : initAxis realOps c (2 * M + 1) sG spsi B0 = .ok a) (j : Nat)
    (hs : speed (axisCurve c) (a.phi j) ≠ 0) (hk : curvature (axisCurve c) (a.phi j) ≠ 0) :
    (a.loc j).dl = speed (axisCurve c) (a.phi j) ∧
    cart (a.phi j) (a.loc j).tangent = tangent (axisCurve c) (a.phi j) ∧
    cart (a.phi j) (a.loc j).normal = normal (axisCurve c) (a.phi j) ∧
    cart (a.phi j) (a.loc j).binormal = binormal (axisCurve c) (a.phi j) ∧
    (a.loc j).curvature = curvature (axisCurve c) (a.phi j) ∧
    (a.loc j).torsion = torsion (axisCurve c) (a.phi j) := by
  obtain ⟨e1, e2, e3⟩ := curve_derivatives hc h j
  have hl : len (a.pt j).d1 ≠ 0 := by
    have := hs; unfold speed at this; rwa [← e1, len_cart] at this
  have hx : len (cross (a.pt j).d1 (a.pt j).d2) ≠ 0 := by
    intro e0
    apply hk
    unfold curvature
    rw [← e1, ← e2, cross_cart, len_cart, e0, zero_div]
  rw [loc_eq hc h]
  refine ⟨?_, ?_, ?_, ?_, ?_, ?_⟩
  · rw [← loc_eq hc h]; exact speed_eq hc h j
  · unfold tangent speed
    rw [loc_tangent, ← e1, len_cart, smul_cart]
  · unfold normal binormal tangent speed
    rw [loc_normal _ hl hx, ← e1, ← e2, cross_cart, len_cart, len_cart, smul_cart, smul_cart,
      cross_cart]
  · unfold binormal
    rw [loc_binormal _ hl hx, ← e1, ← e2, cross_cart, len_cart, smul_cart]
  · unfold curvature speed
    rw [loc_curvature _ hl, ← e1, ← e2, cross_cart, len_cart, len_cart]
  · unfold torsion
    rw [loc_torsion, ← e1, ← e2, ← e3, cross_cart, cross_cart, len_cart, dot_cart]

/-- Tangent and curvature need only a regular curve; the curvature may be zero. -/
theorem curvature_regular (hc : c.WellSized) (h : initAxis realOps c (2 * M + 1) sG spsi B0 = .ok a)
    (j : Nat) (hs : speed (axisCurve c) (a.phi j) ≠ 0) :
    cart (a.phi j) (a.loc j).tangent = tangent (axisCurve c) (a.phi j) ∧
    (a.loc j).curvature = curvature (axisCurve c) (a.phi j) := by
  obtain ⟨e1, e2, e3⟩ := curve_derivatives hc h j
  have hl : len (a.pt j).d1 ≠ 0 := by
    have := hs; unfold speed at this; rwa [← e1, len_cart] at this
  rw [loc_eq hc h]
  constructor
  · unfold tangent speed
    rw [loc_tangent, ← e1, len_cart, smul_cart]
  · unfold curvature speed
    rw [loc_curvature _ hl, ← e1, ← e2, cross_cart, len_cart, len_cart]

end

/-- The axis curve has the derivatives `d3`. -/
theorem curve_hasD3 (c : Coeffs ℝ) (φ : ℝ) :
    HasD3 (axisCurve c) (d3 (axisCurve c) φ) φ ∧
    HasD3 (d3 (axisCurve c)) (d3 (d3 (axisCurve c)) φ) φ ∧
    HasD3 (d3 (d3 (axisCurve c))) (d3 (d3 (d3 (axisCurve c))) φ) φ := by
  have dF : ∀ (C S : Nat → ℝ), deriv (fourier c.R0c.length c.nfp C S) =
      fourier c.R0c.length c.nfp (fun n => ((n : ℝ) * c.nfp) * S n)
        (fun n => -(((n : ℝ) * c.nfp) * C n)) :=
    fun C S => funext fun φ => (fourier_hasDerivAt _ _ C S φ).deriv
  have dd : ∀ (C S : Nat → ℝ) φ, DifferentiableAt ℝ (fourier c.R0c.length c.nfp C S) φ :=
    fun C S φ => (fourier_hasDerivAt _ _ C S φ).differentiableAt
  have hR : ∀ φ, DifferentiableAt ℝ (Rf c) φ := fun φ => dd _ _ φ
  have hZ : ∀ φ, DifferentiableAt ℝ (Zf c) φ := fun φ => dd _ _ φ
  have hR1 : ∀ φ, DifferentiableAt ℝ (deriv (Rf c)) φ := by unfold Rf; rw [dF]; exact dd _ _
  have hZ1 : ∀ φ, DifferentiableAt ℝ (deriv (Zf c)) φ := by unfold Zf; rw [dF]; exact dd _ _
  have hR2 : ∀ φ, DifferentiableAt ℝ (deriv (deriv (Rf c))) φ := by
    unfold Rf; rw [dF, dF]; exact dd _ _
  have hZ2 : ∀ φ, DifferentiableAt ℝ (deriv (deriv (Zf c))) φ := by
    unfold Zf; rw [dF, dF]; exact dd _ _
  have hcos := Real.differentiableAt_cos (x := φ)
  have hsin := Real.differentiableAt_sin (x := φ)
  have two : DifferentiableAt ℝ (fun s => 2 * deriv (Rf c) s) φ := (hR1 φ).const_mul 2
  have sub : DifferentiableAt ℝ (fun s => deriv (deriv (Rf c)) s - Rf c s) φ := (hR2 φ).sub (hR φ)
  obtain ⟨h1, h2, -⟩ := curve_components c
  refine ⟨⟨?_, ?_, ?_⟩, ⟨?_, ?_, ?_⟩, ⟨?_, ?_, ?_⟩⟩
  · exact ((hR φ).mul hcos).hasDerivAt
  · exact ((hR φ).mul hsin).hasDerivAt
  · exact (hZ φ).hasDerivAt
  · refine DifferentiableAt.hasDerivAt ?_
    rw [h1]; exact ((hR1 φ).mul hcos).sub ((hR φ).mul hsin)
  · refine DifferentiableAt.hasDerivAt ?_
    rw [h1]; exact ((hR1 φ).mul hsin).add ((hR φ).mul hcos)
  · refine DifferentiableAt.hasDerivAt ?_
    rw [h1]; exact hZ1 φ
  · refine DifferentiableAt.hasDerivAt ?_
    rw [h2]; exact (sub.mul hcos).sub (two.mul hsin)
  · refine DifferentiableAt.hasDerivAt ?_
    rw [h2]; exact (sub.mul hsin).add (two.mul hcos)
  · refine DifferentiableAt.hasDerivAt ?_
    rw [h2]; exact hZ2 φ

section
variable {c : Coeffs ℝ} {M : Nat} {sG spsi : Int} {B0 : ℝ} {a : Axis ℝ}

/-- `d2_l_d_phi2` is the derivative of the speed. -/
theorem d2l_eq (hc : c.WellSized) (h : initAxis realOps c (2 * M + 1) sG spsi B0 = .ok a) (j : Nat)
    (hs : speed (axisCurve c) (a.phi j) ≠ 0) :
    HasDerivAt (speed (axisCurve c)) (a.loc j).d2l (a.phi j) := by
  obtain ⟨e1, e2, -⟩ := curve_derivatives hc h j
  refine ((curve_hasD3 c (a.phi j)).2.1.lenR hs).congr_deriv ?_
  rw [← e1, ← e2, dot_cart, len_cart, ← loc_dl, ← d1_d2, loc_eq hc h]
  rfl

/-- A unit-length identity used three times below. -/
theorem unit_dot {v : V3 ℝ} (h : len v ≠ 0) : dot (smul (1 / len v) v) (smul (1 / len v) v) = 1 := by
  have : dot (smul (1 / len v) v) (smul (1 / len v) v) = (1 / len v) ^ 2 * dot v v := by
    simp only [dot, smul]; ring
  rw [this, ← len_sq]
  field_simp

/-- The frame of the code is orthonormal and right handed. -/
theorem orthonormal (hc : c.WellSized) (h : initAxis realOps c (2 * M + 1) sG spsi B0 = .ok a)
    (j : Nat) (hs : speed (axisCurve c) (a.phi j) ≠ 0)
    (hk : curvature (axisCurve c) (a.phi j) ≠ 0) :
    let t := (a.loc j).tangent
    let n := (a.loc j).normal
    let b := (a.loc j).binormal
    dot t t = 1 ∧ dot n n = 1 ∧ dot b b = 1 ∧ dot t n = 0 ∧ dot n b = 0 ∧ dot t b = 0 ∧
      cross t n = b ∧ cross n b = t ∧ cross b t = n := by
  obtain ⟨e1, e2, e3⟩ := curve_derivatives hc h j
  have hl : len (a.pt j).d1 ≠ 0 := by
    have := hs; unfold speed at this; rwa [← e1, len_cart] at this
  have hx : len (cross (a.pt j).d1 (a.pt j).d2) ≠ 0 := by
    intro e0
    apply hk
    unfold curvature
    rw [← e1, ← e2, cross_cart, len_cart, e0, zero_div]
  rw [loc_eq hc h]
  dsimp only
  have hb := loc_binormal _ hl hx
  have hn := loc_normal _ hl hx
  have ht := loc_tangent (a.pt j)
  rw [← hb, ← ht] at hn
  have tt := unit_dot hl
  have bb := unit_dot hx
  have tb : dot (smul (1 / len (a.pt j).d1) (a.pt j).d1)
      (smul (1 / len (cross (a.pt j).d1 (a.pt j).d2)) (cross (a.pt j).d1 (a.pt j).d2)) = 0 := by
    simp only [dot, smul, cross]; ring
  rw [← ht] at tt tb
  rw [← hb] at bb tb
  rw [hn]
  generalize (localOf realOps (a.pt j)).tangent = t at *
  generalize (localOf realOps (a.pt j)).binormal = b at *
  have hnn : dot (cross b t) (cross b t) = 1 := by
    have : dot (cross b t) (cross b t) = dot b b * dot t t - dot t b ^ 2 := by
      simp only [dot, cross]; ring
    rw [this, bb, tt, tb]; norm_num
  refine ⟨tt, hnn, bb, ?_, ?_, tb, ?_, ?_, rfl⟩
  · simp only [dot, cross]; ring
  · simp only [dot, cross]; ring
  · have key : ∀ x y : ℝ, x * dot t t - y * dot t b = x := by
      intro x y; rw [tt, tb]; ring
    apply v3_ext
    · refine Eq.trans ?_ (key b.x t.x); simp only [dot, cross]; ring
    · refine Eq.trans ?_ (key b.y t.y); simp only [dot, cross]; ring
    · refine Eq.trans ?_ (key b.z t.z); simp only [dot, cross]; ring
  · have key : ∀ x y : ℝ, x * dot b b - y * dot t b = x := by
      intro x y; rw [bb, tb]; ring
    apply v3_ext
    · refine Eq.trans ?_ (key t.x b.x); simp only [dot, cross]; ring
    · refine Eq.trans ?_ (key t.y b.y); simp only [dot, cross]; ring
    · refine Eq.trans ?_ (key t.z b.z); simp only [dot, cross]; ring

/-- The Frenet-Serret equations, with the curvature, torsion and frame computed by the code: the
derivative of the unit tangent along the curve is `speed * curvature * normal`, and the derivative of
the binormal is `- speed * torsion * normal`.  This fixes the signs of normal and torsion. -/
theorem frenet_serret (hc : c.WellSized)
    (h : initAxis realOps c (2 * M + 1) sG spsi B0 = .ok a)
    (j : Nat) (hs : speed (axisCurve c) (a.phi j) ≠ 0)
    (hk : curvature (axisCurve c) (a.phi j) ≠ 0) :
    d3 (tangent (axisCurve c)) (a.phi j) =
      cart (a.phi j) (smul ((a.loc j).dl * (a.loc j).curvature) (a.loc j).normal) ∧
    d3 (binormal (axisCurve c)) (a.phi j) =
      cart (a.phi j) (smul (-((a.loc j).dl * (a.loc j).torsion)) (a.loc j).normal) := by
  obtain ⟨f1, f2, f3, f4, f5, f6⟩ := frenet hc h j hs hk
  obtain ⟨g1, g2, g3⟩ := curve_hasD3 c (a.phi j)
  have hx : len (cross (d3 (axisCurve c) (a.phi j)) (d3 (d3 (axisCurve c)) (a.phi j))) ≠ 0 := by
    intro e0; apply hk; unfold curvature; rw [e0, zero_div]
  rw [← smul_cart, ← smul_cart, f1, f3, f5, f6]
  have hs' : len (d3 (axisCurve c) (a.phi j)) ≠ 0 := hs
  constructor
  · have := (g2.unitR hs').eq
    refine Eq.trans this ?_
    unfold normal binormal tangent curvature speed
    generalize len (cross (d3 (axisCurve c) (a.phi j)) (d3 (d3 (axisCurve c)) (a.phi j))) = q at *
    generalize len (d3 (axisCurve c) (a.phi j)) = p at *
    apply v3_ext <;> simp only [smul, cross] <;> field_simp
  · have := ((g2.crossR g3).unitR hx).eq
    refine Eq.trans this ?_
    unfold normal binormal tangent torsion speed
    generalize len (cross (d3 (axisCurve c) (a.phi j)) (d3 (d3 (axisCurve c)) (a.phi j))) = q at *
    generalize len (d3 (axisCurve c) (a.phi j)) = p at *
    generalize d3 (axisCurve c) (a.phi j) = u
    generalize d3 (d3 (d3 (axisCurve c))) (a.phi j) = w
    generalize d3 (d3 (axisCurve c)) (a.phi j) = v
    apply v3_ext <;> simp only [smul, cross, add, dot] <;> field_simp <;> ring

end

/-- An axis that stays away from `R = 0` is regular. -/
theorem speed_pos {c : Coeffs ℝ} {φ : ℝ} (hR : Rf c φ ≠ 0) : 0 < speed (axisCurve c) φ := by
  unfold speed
  rw [(curve_components c).1]
  dsimp only
  rw [len_cart]
  apply Real.sqrt_pos.2
  simp only [dot]
  have := mul_self_pos.2 hR
  have := mul_self_nonneg (deriv (Rf c) φ)
  have := mul_self_nonneg (deriv (Zf c) φ)
  linarith

/-! ## The Boozer angle (C40) -/

section
variable {c : Coeffs ℝ} {M : Nat} {sG spsi : Int} {B0 : ℝ} {a : Axis ℝ}

/-- The trapezoid sum of the intervals before grid point `j`. -/
theorem angleSum_eq (dl : Nat → ℝ) (j : Nat) :
    angleSum dl j = ∑ k ∈ Finset.range j, (dl k + dl (k + 1)) := by
  induction j with
  | zero => rfl
  | succ j ih => rw [angleSum, ih, Finset.sum_range_succ]

theorem length_eq (hc : c.WellSized) (h : initAxis realOps c (2 * M + 1) sG spsi B0 = .ok a)
    (hn : 0 < c.nfp) : a.axisLength =
      (∑ k ∈ Finset.range (2 * M + 1), speed (axisCurve c) (a.phi k)) * (2 * Real.pi) /
        ((2 * M + 1 : Nat) : ℝ) := by
  have hs := speed_eq hc h
  obtain ⟨D, k, -, rfl, -⟩ := of_ok hc h
  simp only [← hs]
  simp only [axisData, vsum_eq, dPhi, realOps]
  have : (c.nfp : ℝ) ≠ 0 := by exact_mod_cast hn.ne'
  push_cast
  field_simp

/-- The Boozer angle starts at zero, and each interval adds the trapezoid rule for
`(2 pi / length) * integral of d_l_d_phi`. -/
theorem boozer_steps (hc : c.WellSized) (h : initAxis realOps c (2 * M + 1) sG spsi B0 = .ok a) :
    a.boozer 0 = 0 ∧ ∀ j, a.boozer (j + 1) - a.boozer j =
      2 * Real.pi / a.axisLength *
        (a.dPhi * (speed (axisCurve c) (a.phi j) + speed (axisCurve c) (a.phi (j + 1))) / 2) := by
  have hs := speed_eq hc h
  obtain ⟨D, k, -, rfl, -⟩ := of_ok hc h
  refine ⟨by simp [axisData, angleSum], fun j => ?_⟩
  simp only [← hs]
  simp only [axisData, angleSum, realOps]
  ring

/-- On a regular axis the Boozer angle is strictly increasing along the grid. -/
theorem boozer_increasing (hc : c.WellSized)
    (h : initAxis realOps c (2 * M + 1) sG spsi B0 = .ok a) (hn : 0 < c.nfp)
    (hR : ∀ k < 2 * M + 1, Rf c (a.phi k) ≠ 0) {i j : Nat} (hij : i < j) (hj : j < 2 * M + 1) :
    a.boozer i < a.boozer j := by
  have hb := (boozer_steps hc h).2
  have hpos : ∀ k < 2 * M + 1, 0 < speed (axisCurve c) (a.phi k) := fun k hk => speed_pos (hR k hk)
  have hsum : 0 < ∑ k ∈ Finset.range (2 * M + 1), speed (axisCurve c) (a.phi k) :=
    Finset.sum_pos (fun k hk => hpos k (Finset.mem_range.1 hk)) ⟨0, by simp⟩
  have hL : 0 < a.axisLength := by
    rw [length_eq hc h hn]
    have := Real.pi_pos
    positivity
  have hd : 0 < a.dPhi := by
    obtain ⟨D, k, -, rfl, -⟩ := of_ok hc h
    simp only [axisData, dPhi, realOps]
    have := Real.pi_pos
    have : 0 < c.nfp * (2 * M + 1) := Nat.mul_pos hn (by omega)
    have : (0 : ℝ) < ((c.nfp * (2 * M + 1) : Nat) : ℝ) := by exact_mod_cast this
    positivity
  have step : ∀ k, k + 1 < 2 * M + 1 → a.boozer k < a.boozer (k + 1) := by
    intro k hk
    have h1 := hpos k (by omega)
    have h2 := hpos (k + 1) hk
    have := Real.pi_pos
    have : 0 < a.boozer (k + 1) - a.boozer k := by rw [hb]; positivity
    linarith
  induction j with
  | zero => omega
  | succ j ih =>
    rcases Nat.lt_succ_iff_lt_or_eq.1 hij with h' | rfl
    · exact lt_trans (ih h' (by omega)) (step j hj)
    · exact step i hj

theorem trapezoid_sum (f : Nat → ℝ) (n : Nat) :
    (∑ k ∈ Finset.range n, (f k + f (k + 1))) + (f n + f 0) =
      2 * ∑ k ∈ Finset.range (n + 1), f k := by
  induction n with
  | zero => simp; ring
  | succ n ih =>
    rw [Finset.sum_range_succ, Finset.sum_range_succ _ (n + 1), mul_add, ← ih]
    ring

/-- Adding the last interval, from the last grid point to the first of the next field period,
gives exactly `2 pi / nfp`. -/
theorem boozer_closes (hc : c.WellSized)
    (h : initAxis realOps c (2 * M + 1) sG spsi B0 = .ok a) (hn : 0 < c.nfp)
    (hR : ∀ k < 2 * M + 1, Rf c (a.phi k) ≠ 0) :
    a.boozer (2 * M) + 2 * Real.pi / a.axisLength *
        (a.dPhi * (speed (axisCurve c) (a.phi (2 * M)) + speed (axisCurve c) (a.phi 0)) / 2) =
      2 * Real.pi / c.nfp := by
  have hpos : ∀ k < 2 * M + 1, 0 < speed (axisCurve c) (a.phi k) := fun k hk => speed_pos (hR k hk)
  have hsum : 0 < ∑ k ∈ Finset.range (2 * M + 1), speed (axisCurve c) (a.phi k) :=
    Finset.sum_pos (fun k hk => hpos k (Finset.mem_range.1 hk)) ⟨0, by simp⟩
  have hs := speed_eq hc h
  have hL := length_eq hc h hn
  obtain ⟨D, k, -, rfl, -⟩ := of_ok hc h
  have htr := trapezoid_sum (fun k => ((axisData realOps c.nfp (2 * M + 1) sG B0 (c.R0c.getD 0 0)
    (c.Z0c.getD 0 0) (((List.range c.R0c.length).drop 1).map (modeAt c)) D ‹_›).loc k).dl) (2 * M)
  simp only [← hs] at hsum hL ⊢
  generalize hA : axisData realOps c.nfp (2 * M + 1) sG B0 (c.R0c.getD 0 0)
    (c.Z0c.getD 0 0) (((List.range c.R0c.length).drop 1).map (modeAt c)) D _ = A at *
  have hbo : A.boozer (2 * M) = angleSum (fun k => (A.loc k).dl) (2 * M) *
      (1 / 2 * A.dPhi * 2 * Real.pi / A.axisLength) := by subst hA; rfl
  have hd : A.dPhi = 2 * Real.pi / ((c.nfp * (2 * M + 1) : Nat) : ℝ) := by subst hA; rfl
  rw [hbo, angleSum_eq, hd, hL]
  generalize (∑ k ∈ Finset.range (2 * M), ((A.loc k).dl + (A.loc (k + 1)).dl)) = T at *
  generalize (∑ k ∈ Finset.range (2 * M + 1), (A.loc k).dl) = S at *
  have hT : T = 2 * S - ((A.loc (2 * M)).dl + (A.loc 0).dl) := by linarith
  rw [hT]
  have h1 : (c.nfp : ℝ) ≠ 0 := by exact_mod_cast hn.ne'
  have h2 : (((2 * M + 1 : Nat)) : ℝ) ≠ 0 := by positivity
  have h3 := Real.pi_ne_zero
  have h4 := hsum.ne'
  rw [Nat.cast_mul]
  generalize (((2 * M + 1 : Nat)) : ℝ) = N at *
  field_simp
  ring

/-- `d_d_varphi` differentiates with respect to the Boozer angle: if `phi -> nu(phi)` has the
derivative `2 pi / length * d_l_d_phi` at a grid point and `w` is a function of `nu` that is, as a
function of `phi`, a trigonometric polynomial the grid resolves, then the matrix applied to the grid
values of `w` gives the derivative of `w`. -/
theorem varphi_derivative (hc : c.WellSized)
    (h : initAxis realOps c (2 * M + 1) sG spsi B0 = .ok a) (hn : 0 < c.nfp)
    (hR : ∀ k < 2 * M + 1, Rf c (a.phi k) ≠ 0) (w nu : ℝ → ℝ) (p q : Nat → ℝ)
    (hw : ∀ φ, w (nu φ) = Spec.DiffMat.trigPoly M (2 * Real.pi / c.nfp) p q φ)
    {j : Nat} (hj : j < 2 * M + 1)
    (hnu : HasDerivAt nu (2 * Real.pi / a.axisLength * speed (axisCurve c) (a.phi j)) (a.phi j))
    (hwd : DifferentiableAt ℝ w (nu (a.phi j))) :
    HasDerivAt w (∑ k ∈ Finset.range (2 * M + 1), a.dDvarphi j k * w (nu (a.phi k)))
      (nu (a.phi j)) := by
  have hpos : ∀ k < 2 * M + 1, 0 < speed (axisCurve c) (a.phi k) := fun k hk => speed_pos (hR k hk)
  have hsum : 0 < ∑ k ∈ Finset.range (2 * M + 1), speed (axisCurve c) (a.phi k) :=
    Finset.sum_pos (fun k hk => hpos k (Finset.mem_range.1 hk)) ⟨0, by simp⟩
  have hn0 : (c.nfp : ℝ) ≠ 0 := by exact_mod_cast hn.ne'
  have hper : (0 : ℝ) ≠ 2 * Real.pi / c.nfp := (div_ne_zero (by simp [Real.pi_ne_zero]) hn0).symm
  obtain ⟨m, hm, D', hD', hder⟩ := DiffMat.exact_on_trigPoly M 0 (2 * Real.pi / c.nfp) hper p q
  have hd := hder j hj
  have hgrid : ∀ k, Spec.DiffMat.gridPoint (2 * M + 1) 0 (2 * Real.pi / c.nfp) k = a.phi k := by
    intro k
    rw [grid hc h]
    unfold Spec.DiffMat.gridPoint
    have : (((2 * M + 1 : Nat)) : ℝ) ≠ 0 := by positivity
    field_simp
    ring
  rw [sub_zero] at hd
  simp only [hgrid, ← hw] at hd
  have hfun : Spec.DiffMat.trigPoly M (2 * Real.pi / c.nfp) p q = w ∘ nu := by
    funext φ; exact (hw φ).symm
  rw [hfun] at hd
  have hcomp := hwd.hasDerivAt.comp (a.phi j) hnu
  have huniq := hd.unique hcomp
  refine hwd.hasDerivAt.congr_deriv ?_
  have hsp := hpos j hj
  have hL := length_eq hc h hn
  have hs := speed_eq hc h
  have hE : ∀ k < 2 * M + 1, D' j k =
      DiffMat.entry M (2 * Real.pi / (2 * Real.pi / (c.nfp : ℝ) - 0)) j k := by
    intro k hk
    obtain ⟨m', m1, -, -, -, m5⟩ := DiffMat.entries_odd M 0 (2 * Real.pi / (c.nfp : ℝ))
    have : some m = some m' := hm.symm.trans m1
    injection this with this
    have e := (hD' j k hj hk).symm.trans (this ▸ m5 j k hj hk)
    injection e
  obtain ⟨D, k, hD, rfl, -⟩ := of_ok hc h
  generalize hA : axisData realOps c.nfp (2 * M + 1) sG B0 (c.R0c.getD 0 0)
    (c.Z0c.getD 0 0) (((List.range c.R0c.length).drop 1).map (modeAt c)) D k = A at *
  have hv : ∀ k < 2 * M + 1, A.dDvarphi j k =
      D' j k * ((∑ i ∈ Finset.range (2 * M + 1), speed (axisCurve c) (A.phi i)) /
        ((((2 * M + 1 : Nat)) : ℝ) * speed (axisCurve c) (A.phi j))) := by
    intro k hk
    have e : A.dDvarphi j k = D j k / ((((2 * M + 1 : Nat)) : ℝ) /
        vsum (2 * M + 1) (fun i => (A.loc i).dl) * (A.loc j).dl) := by subst hA; rfl
    rw [e, hE k hk, hD j k hj hk, vsum_eq]
    simp only [hs]
    have : (((2 * M + 1 : Nat)) : ℝ) ≠ 0 := by positivity
    have := hsum.ne'
    field_simp
  rw [Finset.sum_congr rfl fun k hk => by rw [hv k (Finset.mem_range.1 hk), mul_right_comm],
    ← Finset.sum_mul, huniq, hL]
  have : (((2 * M + 1 : Nat)) : ℝ) ≠ 0 := by positivity
  have := hsum.ne'
  have := Real.pi_ne_zero
  have := hsp.ne'
  field_simp

/-! ## Averages along the axis (C56) -/

/-- The stored extrema are bounds and are attained. -/
theorem extrema (hc : c.WellSized) (h : initAxis realOps c (2 * M + 1) sG spsi B0 = .ok a) :
    (∀ j < 2 * M + 1, a.minR0 ≤ Rf c (a.phi j)) ∧ (∃ j < 2 * M + 1, a.minR0 = Rf c (a.phi j)) ∧
    (∀ j < 2 * M + 1, (a.loc j).curvature ≤ a.maxCurvature) ∧
    (∃ j < 2 * M + 1, a.maxCurvature = (a.loc j).curvature) := by
  have hd := fun j => (derivatives hc h j).1
  simp only [← hd]
  obtain ⟨D, k, -, rfl, -⟩ := of_ok hc h
  have h1 := vmin_spec (2 * M + 1) (by omega) fun j => ((axisData realOps c.nfp (2 * M + 1) sG B0
    (c.R0c.getD 0 0) (c.Z0c.getD 0 0) (((List.range c.R0c.length).drop 1).map (modeAt c)) D k).pt j).R0
  have h2 := vmax_spec (2 * M + 1) (by omega) fun j => ((axisData realOps c.nfp (2 * M + 1) sG B0
    (c.R0c.getD 0 0) (c.Z0c.getD 0 0) (((List.range c.R0c.length).drop 1).map (modeAt c)) D k).loc j).curvature
  exact ⟨h1.1, h1.2, h2.1, h2.2⟩

/-- Length-weighted average of a profile. -/
noncomputable def avg (c : Coeffs ℝ) (n : Nat) (phi : Nat → ℝ) (f : Nat → ℝ) : ℝ :=
  (∑ j ∈ Finset.range n, f j * speed (axisCurve c) (phi j)) /
    ∑ j ∈ Finset.range n, speed (axisCurve c) (phi j)

/-- Length, `G0`, mean, standard deviation and rms curvature are the averages they are called. -/
theorem averages (hc : c.WellSized) (h : initAxis realOps c (2 * M + 1) sG spsi B0 = .ok a)
    (hn : 0 < c.nfp) (hR : ∀ k < 2 * M + 1, Rf c (a.phi k) ≠ 0) :
    a.G0 = sG * B0 * (a.axisLength / (2 * Real.pi)) ∧
    a.dlDvarphi = a.axisLength / (2 * Real.pi) ∧
    a.G0overB0 = a.axisLength / (2 * Real.pi) ∧ a.B0overG0 * a.G0overB0 = 1 ∧
    a.meanR = avg c (2 * M + 1) a.phi (fun j => Rf c (a.phi j)) ∧
    a.meanZ = avg c (2 * M + 1) a.phi (fun j => Zf c (a.phi j)) ∧
    0 ≤ a.sdR ∧ a.sdR ^ 2 = avg c (2 * M + 1) a.phi (fun j => (Rf c (a.phi j) - a.meanR) ^ 2) ∧
    0 ≤ a.sdZ ∧ a.sdZ ^ 2 = avg c (2 * M + 1) a.phi (fun j => (Zf c (a.phi j) - a.meanZ) ^ 2) ∧
    0 ≤ a.rmsCurvature ∧
    a.rmsCurvature ^ 2 = avg c (2 * M + 1) a.phi (fun j => (a.loc j).curvature ^ 2) := by
  have hpos : ∀ k < 2 * M + 1, 0 < speed (axisCurve c) (a.phi k) := fun k hk => speed_pos (hR k hk)
  have hsum : 0 < ∑ k ∈ Finset.range (2 * M + 1), speed (axisCurve c) (a.phi k) :=
    Finset.sum_pos (fun k hk => hpos k (Finset.mem_range.1 hk)) ⟨0, by simp⟩
  have hn0 : (c.nfp : ℝ) ≠ 0 := by exact_mod_cast hn.ne'
  have hN : (((2 * M + 1 : Nat)) : ℝ) ≠ 0 := by positivity
  have hpi := Real.pi_ne_zero
  have hL := length_eq hc h hn
  have hs := speed_eq hc h
  have hr := fun j => (derivatives hc h j).1
  have hz := fun j => (derivatives hc h j).2.1
  unfold avg
  have hdn : ∀ x y : ℝ, y * (2 * Real.pi / ((c.nfp * (2 * M + 1) : Nat) : ℝ)) * c.nfp /
      (x * (2 * Real.pi) / (((2 * M + 1 : Nat)) : ℝ)) = y / x := by
    intro x y
    rw [Nat.cast_mul]
    by_cases hx : x = 0
    · rw [hx]; simp
    · field_simp
  have hw0 : ∀ f : Nat → ℝ, 0 ≤ (∑ j ∈ Finset.range (2 * M + 1),
      f j ^ 2 * speed (axisCurve c) (a.phi j)) /
      ∑ j ∈ Finset.range (2 * M + 1), speed (axisCurve c) (a.phi j) := by
    intro f
    refine div_nonneg (Finset.sum_nonneg fun j hj => ?_) hsum.le
    exact mul_nonneg (sq_nonneg _) (hpos j (Finset.mem_range.1 hj)).le
  have w1 := hw0 fun j => Rf c (a.phi j) - a.meanR
  have w2 := hw0 fun j => Zf c (a.phi j) - a.meanZ
  have w3 := hw0 fun j => (a.loc j).curvature
  simp only [← hs, ← hr, ← hz] at hsum hL w1 w2 w3 ⊢
  obtain ⟨D, k, -, rfl, -⟩ := of_ok hc h
  generalize hA : axisData realOps c.nfp (2 * M + 1) sG B0 (c.R0c.getD 0 0)
    (c.Z0c.getD 0 0) (((List.range c.R0c.length).drop 1).map (modeAt c)) D k = A at *
  have eB : A.B0overG0 = (((2 * M + 1 : Nat)) : ℝ) / vsum (2 * M + 1) (fun i => (A.loc i).dl) := by
    subst hA; rfl
  have eG : A.G0overB0 = 1 / A.B0overG0 := by subst hA; rfl
  have eG' : A.G0overB0 = A.axisLength / (2 * Real.pi) := by
    rw [eG, eB, vsum_eq, hL]; field_simp
  have eMR : A.meanR = vsum (2 * M + 1) (fun j => (A.pt j).R0 * (A.loc j).dl) *
      (2 * Real.pi / ((c.nfp * (2 * M + 1) : Nat) : ℝ)) * c.nfp / A.axisLength := by subst hA; rfl
  have eMZ : A.meanZ = vsum (2 * M + 1) (fun j => (A.pt j).Z0 * (A.loc j).dl) *
      (2 * Real.pi / ((c.nfp * (2 * M + 1) : Nat) : ℝ)) * c.nfp / A.axisLength := by subst hA; rfl
  have eSR : A.sdR = Real.sqrt (vsum (2 * M + 1) (fun j => ((A.pt j).R0 - A.meanR) *
      ((A.pt j).R0 - A.meanR) * (A.loc j).dl) *
      (2 * Real.pi / ((c.nfp * (2 * M + 1) : Nat) : ℝ)) * c.nfp / A.axisLength) := by subst hA; rfl
  have eSZ : A.sdZ = Real.sqrt (vsum (2 * M + 1) (fun j => ((A.pt j).Z0 - A.meanZ) *
      ((A.pt j).Z0 - A.meanZ) * (A.loc j).dl) *
      (2 * Real.pi / ((c.nfp * (2 * M + 1) : Nat) : ℝ)) * c.nfp / A.axisLength) := by subst hA; rfl
  have eK : A.rmsCurvature = Real.sqrt (vsum (2 * M + 1) (fun j => (A.loc j).curvature *
      (A.loc j).curvature * (A.loc j).dl) *
      (2 * Real.pi / ((c.nfp * (2 * M + 1) : Nat) : ℝ)) * c.nfp / A.axisLength) := by subst hA; rfl
  refine ⟨?_, ?_, eG', ?_, ?_, ?_, ?_, ?_, ?_, ?_, ?_, ?_⟩
  · have : A.G0 = sG * A.G0overB0 * B0 := by subst hA; rfl
    rw [this, eG']; ring
  · have : A.dlDvarphi = A.G0overB0 := by subst hA; rfl
    rw [this, eG']
  · rw [eG, eB, vsum_eq]; field_simp
  · rw [eMR, hL, hdn, vsum_eq]
  · rw [eMZ, hL, hdn, vsum_eq]
  · rw [eSR]; exact Real.sqrt_nonneg _
  · rw [eSR, hL, hdn, vsum_eq]
    simp only [← pow_two]
    exact Real.sq_sqrt w1
  · rw [eSZ]; exact Real.sqrt_nonneg _
  · rw [eSZ, hL, hdn, vsum_eq]
    simp only [← pow_two]
    exact Real.sq_sqrt w2
  · rw [eK]; exact Real.sqrt_nonneg _
  · rw [eK, hL, hdn, vsum_eq]
    simp only [← pow_two]
    exact Real.sq_sqrt w3

/-- Consequences: the mean major radius is at least the stored minimum, its standard deviation
vanishes exactly if `R` is the same at all grid points, and the rms curvature does not exceed the
stored maximum. -/
theorem average_bounds (hc : c.WellSized) (h : initAxis realOps c (2 * M + 1) sG spsi B0 = .ok a)
    (hn : 0 < c.nfp) (hR : ∀ k < 2 * M + 1, Rf c (a.phi k) ≠ 0) :
    a.minR0 ≤ a.meanR ∧
    (a.sdR = 0 ↔ ∀ i < 2 * M + 1, ∀ j < 2 * M + 1, Rf c (a.phi i) = Rf c (a.phi j)) ∧
    (a.sdZ = 0 ↔ ∀ i < 2 * M + 1, ∀ j < 2 * M + 1, Zf c (a.phi i) = Zf c (a.phi j)) ∧
    a.rmsCurvature ≤ a.maxCurvature := by
  have hpos : ∀ k < 2 * M + 1, 0 < speed (axisCurve c) (a.phi k) := fun k hk => speed_pos (hR k hk)
  have hsum : 0 < ∑ k ∈ Finset.range (2 * M + 1), speed (axisCurve c) (a.phi k) :=
    Finset.sum_pos (fun k hk => hpos k (Finset.mem_range.1 hk)) ⟨0, by simp⟩
  obtain ⟨-, -, -, -, mR, mZ, -, sR, -, sZ, k0, kk⟩ := averages hc h hn hR
  obtain ⟨x1, -, x3, x4⟩ := extrema hc h
  have const : ∀ (f : Nat → ℝ) (m s : ℝ), m = avg c (2 * M + 1) a.phi f →
      s ^ 2 = avg c (2 * M + 1) a.phi (fun j => (f j - m) ^ 2) →
      (s = 0 ↔ ∀ i < 2 * M + 1, ∀ j < 2 * M + 1, f i = f j) := by
    intro f m s hm hs
    have e1 : s = 0 ↔ ∀ j < 2 * M + 1, f j - m = 0 := by
      rw [← pow_eq_zero_iff (two_ne_zero), hs]
      unfold avg
      rw [div_eq_zero_iff, or_iff_left hsum.ne', ← wsum_sq_eq_zero hpos]
      simp only [pow_two]
    rw [e1]
    refine ⟨fun H i hi j hj => by linarith [H i hi, H j hj], fun H j hj => ?_⟩
    rw [hm]
    unfold avg
    rw [Finset.sum_congr rfl fun i hi => by rw [H i (Finset.mem_range.1 hi) j hj], ← Finset.mul_sum,
      mul_div_assoc, div_self hsum.ne', mul_one, sub_self]
  refine ⟨?_, const _ _ _ mR sR, const _ _ _ mZ sZ, ?_⟩
  · rw [mR]
    obtain ⟨b, hb⟩ : ∃ b, ∀ j < 2 * M + 1, Rf c (a.phi j) ≤ b :=
      ⟨_, (vmax_spec (2 * M + 1) (by omega) fun j => Rf c (a.phi j)).1⟩
    exact (mean_between hpos (by omega) x1 hb).1
  · obtain ⟨j0, hj0, e0⟩ := x4
    have hnn : ∀ j, 0 ≤ (a.loc j).curvature := by
      intro j; rw [loc_eq hc h]; exact Real.sqrt_nonneg _
    have hm0 : 0 ≤ a.maxCurvature := by rw [e0]; exact hnn j0
    refine le_of_sq_le_sq ?_ hm0
    rw [kk]
    refine (mean_between (a := 0) hpos (by omega) (fun j _ => sq_nonneg _) fun j hj => ?_).2
    exact pow_le_pow_left₀ (hnn j) (x3 j hj) 2

end

/-! ## An axis that meets the hypotheses -/

/-- `R = 1 + 0.1 cos(3 phi)`, `Z = 0.1 sin(3 phi)`. -/
noncomputable def sample : Coeffs ℝ := ⟨3, [1, 1 / 10], [0, 0], [0, 0], [0, 1 / 10]⟩

theorem sample_R (φ : ℝ) : Rf sample φ = 1 + 1 / 10 * Real.cos (3 * φ) := by
  simp [Rf, fourier, sample, Finset.sum_range_succ]

theorem sample_Z (φ : ℝ) : Zf sample φ = 1 / 10 * Real.sin (3 * φ) := by
  simp [Zf, fourier, sample, Finset.sum_range_succ]

example : sample.WellSized := ⟨by simp [sample], rfl, rfl, rfl⟩

example (φ : ℝ) : Rf sample φ ≠ 0 := by
  rw [sample_R]
  have := Real.neg_one_le_cos (3 * φ)
  intro h
  linarith

example : curvature (axisCurve sample) 0 ≠ 0 := by
  have dR : ∀ φ, HasDerivAt (Rf sample) (-(3 / 10) * Real.sin (3 * φ)) φ := by
    intro φ
    rw [funext sample_R]
    have hi : HasDerivAt (fun x : ℝ => 3 * x) 3 φ := by simpa using (hasDerivAt_id φ).const_mul 3
    refine ((hi.cos.const_mul (1 / 10)).const_add 1).congr_deriv ?_
    ring
  have ddR : HasDerivAt (deriv (Rf sample)) (-(9 / 10)) 0 := by
    rw [funext fun φ => (dR φ).deriv]
    have hi : HasDerivAt (fun x : ℝ => 3 * x) 3 0 := by simpa using (hasDerivAt_id (0 : ℝ)).const_mul 3
    refine (hi.sin.const_mul (-(3 / 10))).congr_deriv ?_
    simp; norm_num
  unfold curvature
  obtain ⟨h1, h2, -⟩ := curve_components sample
  refine div_ne_zero ?_ (pow_ne_zero _ (speed_pos ?_).ne')
  · rw [h2, h1]
    dsimp only
    rw [cross_cart, len_cart, ddR.deriv, (dR 0).deriv, sample_R]
    apply ne_of_gt
    apply Real.sqrt_pos.2
    simp only [dot, cross, mul_zero, Real.cos_zero, Real.sin_zero]
    have := mul_self_nonneg (deriv (Zf sample) 0)
    have := mul_self_nonneg (deriv (deriv (Zf sample)) 0)
    nlinarith
  · rw [sample_R]; norm_num

/-- A circle: curvature `1 / R`, torsion 0, length `2 pi R`. -/
example (R : ℝ) (hR : 0 < R) (M : Nat) (a : Axis ℝ)
    (h : initAxis realOps ⟨1, [R], [0], [0], [0]⟩ (2 * M + 1) 1 1 1 = .ok a) :
    a.axisLength = 2 * Real.pi * R ∧ a.G0 = R := by
  have hc : Coeffs.WellSized (⟨1, [R], [0], [0], [0]⟩ : Coeffs ℝ) := ⟨by simp, rfl, rfl, rfl⟩
  have hRf : Rf (⟨1, [R], [0], [0], [0]⟩ : Coeffs ℝ) = fun _ => R := by
    funext φ; simp [Rf, fourier]
  have hZf : Zf (⟨1, [R], [0], [0], [0]⟩ : Coeffs ℝ) = fun _ => 0 := by
    funext φ; simp [Zf, fourier]
  have hs : ∀ φ, speed (axisCurve ⟨1, [R], [0], [0], [0]⟩) φ = R := by
    intro φ
    unfold speed
    rw [(curve_components _).1]
    dsimp only
    rw [len_cart, hRf, hZf]
    simp [len, dot, Real.sqrt_mul_self hR.le]
  have hL := length_eq hc h Nat.one_pos
  have hG := (averages hc h Nat.one_pos (by intro k _; rw [hRf]; exact hR.ne')).1
  simp only [hs] at hL
  have hL' : a.axisLength = 2 * Real.pi * R := by
    rw [hL, Finset.sum_const, Finset.card_range, nsmul_eq_mul]
    have : (((2 * M + 1 : Nat)) : ℝ) ≠ 0 := by positivity
    field_simp
  refine ⟨hL', ?_⟩
  rw [hG, hL']
  have := Real.pi_ne_zero
  push_cast
  field_simp

end Qsc.Axis
