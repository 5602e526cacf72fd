import Verif.Spec.Symmetry
import Verif.Lemmas.Axis
import Verif.Props.Axis
import Verif.Props.DiffMat

/-!
# Lemmas on stellarator symmetry: sums, the differentiation matrix, the axis
-/

namespace Qsc.Symmetry
open Qsc.Spec.Symmetry

theorem mirror_lt {n j : Nat} (hj : j < n) : mirror n j < n := Nat.mod_lt _ (by omega)

theorem mirror_zero (n : Nat) : mirror n 0 = 0 := by simp [mirror]

theorem mirror_pos {n j : Nat} (h0 : 0 < j) (hj : j < n) : mirror n j = n - j := Nat.mod_eq_of_lt (by omega)

theorem mirror_mirror {n j : Nat} (hj : j < n) : mirror n (mirror n j) = j := by
  rcases Nat.eq_zero_or_pos j with rfl | h
  · rw [mirror_zero, mirror_zero]
  · rw [mirror_pos h hj, mirror_pos (by omega) (by omega)]; omega

theorem mirror_eq_zero {n j : Nat} (hj : j < n) : mirror n j = 0 ↔ j = 0 := by
  constructor
  · intro h
    have := mirror_mirror hj
    rw [h, mirror_zero] at this
    exact this.symm
  · rintro rfl; exact mirror_zero n

theorem sum_mirror (n : Nat) (f : Nat → ℝ) :
    ∑ j ∈ Finset.range n, f (mirror n j) = ∑ j ∈ Finset.range n, f j := by
  refine Finset.sum_nbij' (mirror n) (mirror n) ?_ ?_ ?_ ?_ ?_
  · intro j hj; exact Finset.mem_range.2 (mirror_lt (Finset.mem_range.1 hj))
  · intro j hj; exact Finset.mem_range.2 (mirror_lt (Finset.mem_range.1 hj))
  · intro j hj; exact mirror_mirror (Finset.mem_range.1 hj)
  · intro j hj; exact mirror_mirror (Finset.mem_range.1 hj)
  · intro j _; rfl

/-- The sum of an odd profile vanishes. -/
theorem Odd.sum {n : Nat} {f : Nat → ℝ} (h : Odd n f) : ∑ j ∈ Finset.range n, f j = 0 := by
  have := sum_mirror n f
  rw [Finset.sum_congr rfl fun j hj => h j (Finset.mem_range.1 hj), Finset.sum_neg_distrib] at this
  linarith

/-- A matrix that turns even into odd. -/
def Flips (n : Nat) (D : Nat → Nat → ℝ) : Prop :=
  ∀ j < n, ∀ k < n, D (mirror n j) (mirror n k) = -D j k

theorem Flips.even {n : Nat} {D : Nat → Nat → ℝ} (h : Flips n D) {f : Nat → ℝ} (hf : Even n f) :
    Odd n (matVec n D f) := by
  intro j hj
  simp only [matVec, vsum_eq]
  rw [← sum_mirror, ← Finset.sum_neg_distrib]
  refine Finset.sum_congr rfl fun k hk => ?_
  have hk := Finset.mem_range.1 hk
  rw [h j hj k hk, hf k hk]; ring

theorem Flips.odd {n : Nat} {D : Nat → Nat → ℝ} (h : Flips n D) {f : Nat → ℝ} (hf : Odd n f) :
    Even n (matVec n D f) := by
  intro j hj
  simp only [matVec, vsum_eq]
  rw [← sum_mirror]
  refine Finset.sum_congr rfl fun k hk => ?_
  have hk := Finset.mem_range.1 hk
  rw [h j hj k hk, hf k hk]; ring

/-- An antisymmetric circulant matrix. -/
theorem flips_of_circulant {n : Nat} {D : Nat → Nat → ℝ} (h1 : ∀ j k, j < n → k < n → D j k = -D k j)
    (h2 : ∀ j k, j < n → k < n → D ((j + 1) % n) ((k + 1) % n) = D j k) : Flips n D := by
  have key : ∀ a j k, j < n → k < n → D ((j + a) % n) ((k + a) % n) = D j k := by
    intro a
    induction a with
    | zero => intro j k hj hk; rw [Nat.add_zero, Nat.add_zero, Nat.mod_eq_of_lt hj, Nat.mod_eq_of_lt hk]
    | succ a ih =>
      intro j k hj hk
      have e : ∀ j, (j + (a + 1)) % n = ((j + a) % n + 1) % n := fun j => by
        rw [← Nat.add_assoc, Nat.mod_add_mod]
      rw [e, e, h2 _ _ (Nat.mod_lt _ (by omega)) (Nat.mod_lt _ (by omega)), ih j k hj hk]
  intro j hj k hk
  have e : ∀ {j} k, j < n → k < n → (mirror n j + (j + k)) % n = k := by
    intro j k hj hk
    rw [mirror, Nat.mod_add_mod, show n - j + (j + k) = n + k by omega, Nat.add_mod_left, Nat.mod_eq_of_lt hk]
  rw [← key (j + k) _ _ (mirror_lt hj) (mirror_lt hk), e k hj hk, Nat.add_comm j k, e j hk hj, h1 _ _ hk hj]

/-! ## The axis -/

open Qsc.Axis

/-- The point of the axis at `-phi`. -/
def flipPt (p : Pt ℝ) : Pt ℝ := ⟨p.R0, -p.Z0, -p.R0p, p.Z0p, p.R0pp, -p.Z0pp, -p.R0ppp, p.Z0ppp⟩

def flipT (v : V3 ℝ) : V3 ℝ := ⟨-v.x, v.y, v.z⟩
def flipN (v : V3 ℝ) : V3 ℝ := ⟨v.x, -v.y, -v.z⟩

/-- The local quantities at `-phi`. -/
def flipLocal (l : Local ℝ) : Local ℝ :=
  ⟨l.dl, -l.d2l, flipT l.tangent, flipN l.dTangent, l.curvature, flipN l.normal, flipT l.binormal, l.torsion⟩

theorem point_flip {nfp : Nat} {φ ψ : ℝ} (hc : ∀ n : Nat, Real.cos ((n : ℝ) * nfp * ψ) = Real.cos ((n : ℝ) * nfp * φ))
    (hs : ∀ n : Nat, Real.sin ((n : ℝ) * nfp * ψ) = -Real.sin ((n : ℝ) * nfp * φ)) (R00 : ℝ) (ms : List (Mode ℝ))
    (hm : ∀ m ∈ ms, m.rs = 0 ∧ m.zc = 0) :
    point realOps nfp R00 0 ms ψ = flipPt (point realOps nfp R00 0 ms φ) := by
  have key : ∀ (ms : List (Mode ℝ)) (p : Pt ℝ), (∀ m ∈ ms, m.rs = 0 ∧ m.zc = 0) →
      ms.foldl (addMode realOps nfp ψ) (flipPt p) = flipPt (ms.foldl (addMode realOps nfp φ) p) := by
    intro ms
    induction ms with
    | nil => intro p _; rfl
    | cons m ms ih =>
      intro p h
      rw [List.foldl_cons, List.foldl_cons, ← ih _ fun x hx => h x (List.mem_cons_of_mem _ hx)]
      congr 1
      obtain ⟨h1, h2⟩ := h m List.mem_cons_self
      simp only [addMode, flipPt, realOps, h1, h2, hc, hs, Pt.mk.injEq]
      refine ⟨?_, ?_, ?_, ?_, ?_, ?_, ?_, ?_⟩ <;> ring
  have := key ms ⟨R00, 0, 0, 0, 0, 0, 0, 0⟩ hm
  simpa [point, flipPt] using this

theorem localOf_flip (p : Pt ℝ) : localOf realOps (flipPt p) = flipLocal (localOf realOps p) := by
  have e1 : (localOf realOps (flipPt p)).dl = (localOf realOps p).dl := by
    simp only [localOf, flipPt, realOps]; congr 1; ring
  have e2 : (localOf realOps (flipPt p)).d2l = -(localOf realOps p).d2l := by
    change _ / (localOf realOps (flipPt p)).dl = -(_ / (localOf realOps p).dl)
    rw [e1, ← neg_div]; congr 1; simp only [flipPt]; ring
  have e3 : (localOf realOps (flipPt p)).tangent = flipT (localOf realOps p).tangent := by
    change (⟨_ / (localOf realOps (flipPt p)).dl, _ / (localOf realOps (flipPt p)).dl, _ / (localOf realOps (flipPt p)).dl⟩ : V3 ℝ) =
      ⟨-(_ / (localOf realOps p).dl), _ / (localOf realOps p).dl, _ / (localOf realOps p).dl⟩
    rw [e1]; simp only [flipPt, Pt.d1, neg_div]
  have e4 : (localOf realOps (flipPt p)).dTangent = flipN (localOf realOps p).dTangent := by
    change (⟨(-_ * (localOf realOps (flipPt p)).d2l / (localOf realOps (flipPt p)).dl + _) / ((localOf realOps (flipPt p)).dl * (localOf realOps (flipPt p)).dl),
      (-_ * (localOf realOps (flipPt p)).d2l / (localOf realOps (flipPt p)).dl + _) / ((localOf realOps (flipPt p)).dl * (localOf realOps (flipPt p)).dl),
      (-_ * (localOf realOps (flipPt p)).d2l / (localOf realOps (flipPt p)).dl + _) / ((localOf realOps (flipPt p)).dl * (localOf realOps (flipPt p)).dl)⟩ : V3 ℝ) =
      ⟨(-_ * (localOf realOps p).d2l / (localOf realOps p).dl + _) / ((localOf realOps p).dl * (localOf realOps p).dl),
      -((-_ * (localOf realOps p).d2l / (localOf realOps p).dl + _) / ((localOf realOps p).dl * (localOf realOps p).dl)),
      -((-_ * (localOf realOps p).d2l / (localOf realOps p).dl + _) / ((localOf realOps p).dl * (localOf realOps p).dl))⟩
    rw [e1, e2]
    simp only [flipPt, Pt.d1, Pt.d2, V3.mk.injEq]
    refine ⟨?_, ?_, ?_⟩ <;> ring
  have e5 : (localOf realOps (flipPt p)).curvature = (localOf realOps p).curvature := by
    change Real.sqrt ((localOf realOps (flipPt p)).dTangent.x * (localOf realOps (flipPt p)).dTangent.x +
      (localOf realOps (flipPt p)).dTangent.y * (localOf realOps (flipPt p)).dTangent.y +
      (localOf realOps (flipPt p)).dTangent.z * (localOf realOps (flipPt p)).dTangent.z) =
      Real.sqrt ((localOf realOps p).dTangent.x * (localOf realOps p).dTangent.x +
      (localOf realOps p).dTangent.y * (localOf realOps p).dTangent.y +
      (localOf realOps p).dTangent.z * (localOf realOps p).dTangent.z)
    rw [e4]; congr 1; simp only [flipN]; ring
  have e6 : (localOf realOps (flipPt p)).normal = flipN (localOf realOps p).normal := by
    change (⟨(localOf realOps (flipPt p)).dTangent.x / (localOf realOps (flipPt p)).curvature,
      (localOf realOps (flipPt p)).dTangent.y / (localOf realOps (flipPt p)).curvature,
      (localOf realOps (flipPt p)).dTangent.z / (localOf realOps (flipPt p)).curvature⟩ : V3 ℝ) =
      ⟨(localOf realOps p).dTangent.x / (localOf realOps p).curvature,
      -((localOf realOps p).dTangent.y / (localOf realOps p).curvature),
      -((localOf realOps p).dTangent.z / (localOf realOps p).curvature)⟩
    rw [e5, e4]; simp only [flipN, neg_div]
  have e7 : (localOf realOps (flipPt p)).binormal = flipT (localOf realOps p).binormal := by
    have h : ∀ p, (localOf realOps p).binormal =
      ⟨(localOf realOps p).tangent.y * (localOf realOps p).normal.z - (localOf realOps p).tangent.z * (localOf realOps p).normal.y,
       (localOf realOps p).tangent.z * (localOf realOps p).normal.x - (localOf realOps p).tangent.x * (localOf realOps p).normal.z,
       (localOf realOps p).tangent.x * (localOf realOps p).normal.y - (localOf realOps p).tangent.y * (localOf realOps p).normal.x⟩ :=
      fun _ => rfl
    rw [h, h, e3, e6]
    simp only [flipT, flipN, V3.mk.injEq]
    refine ⟨?_, ?_, ?_⟩ <;> ring
  have e8 : (localOf realOps (flipPt p)).torsion = (localOf realOps p).torsion := by
    simp only [localOf, flipPt, Pt.d1, Pt.d2, Pt.d3]
    congr 1 <;> ring
  have eta : ∀ a b : Local ℝ, a.dl = b.dl → a.d2l = b.d2l → a.tangent = b.tangent → a.dTangent = b.dTangent →
      a.curvature = b.curvature → a.normal = b.normal → a.binormal = b.binormal → a.torsion = b.torsion → a = b := by
    rintro ⟨⟩ ⟨⟩ h1 h2 h3 h4 h5 h6 h7 h8
    dsimp only at h1 h2 h3 h4 h5 h6 h7 h8
    rw [h1, h2, h3, h4, h5, h6, h7, h8]
  exact eta _ _ e1 e2 e3 e4 e5 e6 e7 e8

/-- The angle at the mirrored point. -/
theorem angle_mirror {nfp n : Nat} (hn : 0 < nfp) {j : Nat} (hj : j < n) (m : Nat) :
    ∃ a : Nat, (m : ℝ) * nfp * phiGrid (dPhi realOps nfp n) (mirror n j) =
      a * (2 * Real.pi) - m * nfp * phiGrid (dPhi realOps nfp n) j := by
  rcases Nat.eq_zero_or_pos j with rfl | h
  · exact ⟨0, by rw [mirror_zero]; simp [phiGrid]⟩
  · refine ⟨m, ?_⟩
    rw [mirror_pos h hj, grid_point, grid_point, dPhi, Nat.cast_sub hj.le]
    have h1 : (nfp : ℝ) ≠ 0 := by positivity
    have h2 : (n : ℝ) ≠ 0 := by have : 0 < n := by omega
                                positivity
    simp only [realOps]
    push_cast
    field_simp

theorem cos_mirror {nfp n : Nat} (hn : 0 < nfp) {j : Nat} (hj : j < n) (m : Nat) :
    Real.cos ((m : ℝ) * nfp * phiGrid (dPhi realOps nfp n) (mirror n j)) =
      Real.cos ((m : ℝ) * nfp * phiGrid (dPhi realOps nfp n) j) := by
  obtain ⟨a, ha⟩ := angle_mirror hn hj m
  rw [ha, Real.cos_nat_mul_two_pi_sub]

theorem sin_mirror {nfp n : Nat} (hn : 0 < nfp) {j : Nat} (hj : j < n) (m : Nat) :
    Real.sin ((m : ℝ) * nfp * phiGrid (dPhi realOps nfp n) (mirror n j)) =
      -Real.sin ((m : ℝ) * nfp * phiGrid (dPhi realOps nfp n) j) := by
  obtain ⟨a, ha⟩ := angle_mirror hn hj m
  rw [ha, Real.sin_nat_mul_two_pi_sub]

theorem angleSum_eq (dl : Nat → ℝ) (m : Nat) :
    angleSum dl m + dl 0 + dl m = 2 * ∑ k ∈ Finset.range (m + 1), dl k := by
  induction m with
  | zero => simp [angleSum]; ring
  | succ m ih => rw [Finset.sum_range_succ, mul_add, ← ih, angleSum]; ring

theorem angleSum_mirror {n : Nat} {dl : Nat → ℝ} (h : Even n dl) {j : Nat} (h0 : 0 < j) (hj : j < n) :
    angleSum dl (n - j) + angleSum dl j = 2 * ∑ k ∈ Finset.range n, dl k := by
  induction j with
  | zero => omega
  | succ j ih =>
    rcases Nat.eq_zero_or_pos j with rfl | hp
    · have h1 := angleSum_eq dl (n - 1)
      have h2 := h 1 hj
      rw [mirror_pos (by omega) hj] at h2
      rw [show n - 1 + 1 = n by omega, h2] at h1
      simp only [angleSum]
      linarith
    · have h1 := h j (by omega)
      have h2 := h (j + 1) hj
      have h3 := ih hp (by omega)
      rw [mirror_pos hp (by omega)] at h1
      rw [mirror_pos (by omega) hj] at h2
      rw [show n - j = (n - (j + 1)) + 1 by omega] at h1 h3
      simp only [angleSum] at h3 ⊢
      linarith

/-- What `init_axis` gives for a symmetric axis. -/
structure SymAxis (n nfp : Nat) (a : Axis ℝ) : Prop where
  pt : ∀ j < n, a.pt (mirror n j) = flipPt (a.pt j)
  loc : ∀ j < n, a.loc (mirror n j) = flipLocal (a.loc j)
  dphi : Flips n a.dDphi
  dvarphi : Flips n a.dDvarphi
  meanZ : a.meanZ = 0
  phi0 : a.phi 0 = 0
  phi : ∀ j, 0 < j → j < n → a.phi (mirror n j) = 2 * Real.pi / nfp - a.phi j
  boozer0 : a.boozer 0 = 0
  boozer : (∑ j ∈ Finset.range n, (a.loc j).dl) ≠ 0 →
    ∀ j, 0 < j → j < n → a.boozer (mirror n j) = 2 * Real.pi / nfp - a.boozer j

theorem symAxis {c : Coeffs ℝ} (hc : c.WellSized) (hn : 0 < c.nfp) (h1 : ∀ x ∈ c.R0s, x = 0) (h2 : ∀ x ∈ c.Z0c, x = 0)
    {M : Nat} {sG spsi : Int} {B0 : ℝ} {a : Axis ℝ} (h : initAxis realOps c (2 * M + 1) sG spsi B0 = .ok a) :
    SymAxis (2 * M + 1) c.nfp a := by
  obtain ⟨m, m1, -, -, D, d1, d2, d3, -, -⟩ :=
    DiffMat.antisymmetric_circulant (2 * M + 1) (by omega) 0 (2 * Real.pi / (c.nfp : ℝ))
  have hz : 0 < c.Z0c.length := hc.Z0c ▸ hc.pos
  have r0 : c.R0c[0]? = some (c.R0c.getD 0 0) := by
    rw [List.getElem?_eq_getElem hc.pos]; simp [hc.pos]
  have z0 : c.Z0c[0]? = some 0 := by
    rw [List.getElem?_eq_getElem hz, h2 _ (List.getElem_mem hz)]
  have hm : DiffMat.differentiationMatrix ⟨realOps.pi, realOps.sin, realOps.tan⟩ (2 * M + 1) 0
      (2 * realOps.pi / (c.nfp : ℝ)) = some m := m1
  unfold initAxis at h
  rw [hm, r0, z0] at h
  dsimp only at h
  rw [modes_ok c hc.R0s hc.Z0c hc.Z0s] at h
  dsimp only [Except.bind] at h
  have hflip : Flips (2 * M + 1) fun j k => (m.get j k).getD 0 := by
    refine flips_of_circulant (fun j k hj hk => ?_) fun j k hj hk => ?_
    · rw [d1 j k hj hk, d1 k j hk hj]; exact d2 j k hj hk
    · rw [d1 j k hj hk, d1 _ _ (Nat.mod_lt _ (by omega)) (Nat.mod_lt _ (by omega))]; exact d3 j k hj hk
  have hmodes : ∀ x ∈ ((List.range c.R0c.length).drop 1).map (modeAt c), x.rs = 0 ∧ x.zc = 0 := by
    intro x hx
    obtain ⟨k, -, rfl⟩ := List.mem_map.1 hx
    have e : ∀ (l : List ℝ), (∀ x ∈ l, x = 0) → l.getD k 0 = 0 := by
      intro l hl
      rw [List.getD_eq_getElem?_getD]
      cases hk : l[k]? with
      | none => rfl
      | some y => exact hl y (List.mem_of_getElem? hk)
    exact ⟨e _ h1, e _ h2⟩
  have hp : ∀ j < 2 * M + 1, _ = _ := fun j hj => point_flip (cos_mirror hn hj) (sin_mirror hn hj) (c.R0c.getD 0 0) _ hmodes
  split at h
  · cases h
  · injection h with h
    subst h
    have hl : ∀ j < 2 * M + 1, localOf realOps (point realOps c.nfp (c.R0c.getD 0 0) 0
        (((List.range c.R0c.length).drop 1).map (modeAt c)) (phiGrid (dPhi realOps c.nfp (2 * M + 1)) (mirror (2 * M + 1) j))) = _ :=
      fun j hj => by rw [hp j hj, localOf_flip]
    have n1 : (c.nfp : ℝ) ≠ 0 := by positivity
    have n2 : (2 * (M : ℝ) + 1) ≠ 0 := by positivity
    refine ⟨hp, hl, hflip, ?_, ?_, rfl, ?_, by simp [axisData, angleSum], ?_⟩
    · intro j hj k hk
      have hf := hflip j hj k hk
      dsimp only at hf
      simp only [axisData]
      rw [hl j hj, hf, neg_div]
      rfl
    · simp only [axisData, vsum_eq]
      rw [Odd.sum]
      · simp
      · intro j hj
        dsimp only
        rw [hl j hj, hp j hj]
        simp only [flipPt, flipLocal]; ring
    · intro j h0 hj
      simp only [axisData]
      rw [mirror_pos h0 hj, grid_point, grid_point, dPhi, Nat.cast_sub hj.le]
      simp only [realOps]
      push_cast
      field_simp
    · intro hd j h0 hj
      simp only [axisData] at hd ⊢
      have hdl : Even (2 * M + 1) fun j => (localOf realOps (point realOps c.nfp (c.R0c.getD 0 0) 0
          (((List.range c.R0c.length).drop 1).map (modeAt c)) (phiGrid (dPhi realOps c.nfp (2 * M + 1)) j))).dl :=
        fun j hj => by dsimp only; rw [hl j hj]; rfl
      have e := angleSum_mirror hdl h0 hj
      rw [mirror_pos h0 hj]
      rw [vsum_eq]
      have d0 : dPhi realOps c.nfp (2 * M + 1) ≠ 0 := by
        simp only [dPhi, realOps]
        have := Real.pi_pos
        have hm : 0 < c.nfp * (2 * M + 1) := by positivity
        positivity
      generalize dPhi realOps c.nfp (2 * M + 1) = d at *
      rw [eq_sub_iff_add_eq, ← add_mul, e]
      simp only [realOps] at hd ⊢
      field_simp

end Qsc.Symmetry
