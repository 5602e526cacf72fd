import Verif.Model.VecMat
import Mathlib.Tactic.Ring
import Mathlib.Tactic.Linarith
import Mathlib.Algebra.BigOperators.Intervals

/-! Helper lemmas for `Verif.Props.VecMat`. -/

namespace Qsc.VecMat

variable {F : Type}

theorem idx2_lt {r c m n : Nat} (hm : m < r) (hn : n < c) : idx2 r m n < r * c := by
  unfold idx2
  calc m + r * n < r + r * n := by omega
    _ = r * (n + 1) := by ring
    _ ≤ r * c := Nat.mul_le_mul_left _ hn

theorem idx2_inj {r m n m' n' : Nat} (hm : m < r) (hm' : m' < r)
    (h : idx2 r m n = idx2 r m' n') : m = m' ∧ n = n' := by
  unfold idx2 at h
  have hr : 0 < r := by omega
  have h1 := congrArg (· % r) h
  have h2 := congrArg (· / r) h
  simp only [Nat.add_mul_mod_self_left, Nat.mod_eq_of_lt hm, Nat.mod_eq_of_lt hm'] at h1
  simp only [Nat.add_mul_div_left _ _ hr, Nat.div_eq_of_lt hm, Nat.div_eq_of_lt hm',
    zero_add] at h2
  exact ⟨h1, h2⟩

theorem idx2_surj {r c k : Nat} (hk : k < r * c) : ∃ m n, m < r ∧ n < c ∧ idx2 r m n = k := by
  have hr : 0 < r := by
    rcases Nat.eq_zero_or_pos r with h | h
    · subst h; simp at hk
    · exact h
  exact ⟨k % r, k / r, Nat.mod_lt _ hr, Nat.div_lt_of_lt_mul hk, Nat.mod_add_div k r⟩

theorem idx3_eq (d1 d2 j1 j2 j3 : Nat) : idx3 d1 d2 j1 j2 j3 = idx2 d1 j1 (idx2 d2 j2 j3) := rfl

theorem idx4_eq (d1 d2 d3 j1 j2 j3 j4 : Nat) :
    idx4 d1 d2 d3 j1 j2 j3 j4 = idx2 d1 j1 (idx3 d2 d3 j2 j3 j4) := rfl

theorem idx3_lt {d1 d2 d3 j1 j2 j3 : Nat} (h1 : j1 < d1) (h2 : j2 < d2) (h3 : j3 < d3) :
    idx3 d1 d2 j1 j2 j3 < d1 * d2 * d3 := by
  rw [idx3_eq, Nat.mul_assoc]
  exact idx2_lt h1 (idx2_lt h2 h3)

theorem idx3_inj {d1 d2 j1 j2 j3 i1 i2 i3 : Nat} (h1 : j1 < d1) (h2 : j2 < d2)
    (g1 : i1 < d1) (g2 : i2 < d2)
    (h : idx3 d1 d2 j1 j2 j3 = idx3 d1 d2 i1 i2 i3) : j1 = i1 ∧ j2 = i2 ∧ j3 = i3 := by
  rw [idx3_eq, idx3_eq] at h
  obtain ⟨a, b⟩ := idx2_inj h1 g1 h
  exact ⟨a, idx2_inj h2 g2 b⟩

theorem idx3_surj {d1 d2 d3 k : Nat} (hk : k < d1 * d2 * d3) :
    ∃ j1 j2 j3, j1 < d1 ∧ j2 < d2 ∧ j3 < d3 ∧ idx3 d1 d2 j1 j2 j3 = k := by
  rw [Nat.mul_assoc] at hk
  obtain ⟨j1, q, h1, hq, e⟩ := idx2_surj hk
  obtain ⟨j2, j3, h2, h3, e'⟩ := idx2_surj hq
  exact ⟨j1, j2, j3, h1, h2, h3, by rw [idx3_eq, e', e]⟩

theorem idx4_lt {d1 d2 d3 d4 j1 j2 j3 j4 : Nat} (h1 : j1 < d1) (h2 : j2 < d2) (h3 : j3 < d3)
    (h4 : j4 < d4) : idx4 d1 d2 d3 j1 j2 j3 j4 < d1 * d2 * d3 * d4 := by
  rw [idx4_eq, show d1 * d2 * d3 * d4 = d1 * (d2 * d3 * d4) by ring]
  exact idx2_lt h1 (idx3_lt h2 h3 h4)

theorem idx4_inj {d1 d2 d3 j1 j2 j3 j4 i1 i2 i3 i4 : Nat} (h1 : j1 < d1) (h2 : j2 < d2)
    (h3 : j3 < d3) (g1 : i1 < d1) (g2 : i2 < d2) (g3 : i3 < d3)
    (h : idx4 d1 d2 d3 j1 j2 j3 j4 = idx4 d1 d2 d3 i1 i2 i3 i4) :
    j1 = i1 ∧ j2 = i2 ∧ j3 = i3 ∧ j4 = i4 := by
  rw [idx4_eq, idx4_eq] at h
  obtain ⟨a, b⟩ := idx2_inj h1 g1 h
  exact ⟨a, idx3_inj h2 h3 g2 g3 b⟩

theorem idx4_surj {d1 d2 d3 d4 k : Nat} (hk : k < d1 * d2 * d3 * d4) :
    ∃ j1 j2 j3 j4, j1 < d1 ∧ j2 < d2 ∧ j3 < d3 ∧ j4 < d4 ∧ idx4 d1 d2 d3 j1 j2 j3 j4 = k := by
  rw [show d1 * d2 * d3 * d4 = d1 * (d2 * d3 * d4) by ring] at hk
  obtain ⟨j1, q, h1, hq, e⟩ := idx2_surj hk
  obtain ⟨j2, j3, j4, h2, h3, h4, e'⟩ := idx3_surj hq
  exact ⟨j1, j2, j3, j4, h1, h2, h3, h4, by rw [idx4_eq, e', e]⟩

/-- Row assignment loop for a rank 3 tensor, after `n` iterations. -/
theorem setRow3_loop (t : Rank3 F) (v : List F) (j2 j3 n : Nat)
    (hsz : t.data.length = t.d1 * t.d2 * t.d3) (hv : v.length = t.d1)
    (h2 : j2 < t.d2) (h3 : j3 < t.d3) (hn : n ≤ t.d1) :
    ∃ u, forLoop n (fun j acc => acc.bind fun u => (v[j]?).bind fun x => u.set j j2 j3 x)
        (some t) = some u ∧ u.d1 = t.d1 ∧ u.d2 = t.d2 ∧ u.d3 = t.d3 ∧
      u.data.length = t.data.length ∧
      ∀ i p, i < t.d1 → u.data[idx2 t.d1 i p]? =
        if p = idx2 t.d2 j2 j3 ∧ i < n then v[i]? else t.data[idx2 t.d1 i p]? := by
  induction n with
  | zero => exact ⟨t, rfl, rfl, rfl, rfl, rfl, by simp⟩
  | succ n ih =>
    obtain ⟨u, hu, e1, e2, e3, el, hg⟩ := ih (by omega)
    have hvn : n < v.length := by omega
    have hlt : idx3 u.d1 u.d2 n j2 j3 < u.data.length := by
      rw [e1, e2, el, hsz]; exact idx3_lt (by omega) h2 h3
    refine ⟨{ u with data := u.data.set (idx3 u.d1 u.d2 n j2 j3) v[n] }, ?_, e1, e2, e3, ?_, ?_⟩
    · rw [forLoop_succ, hu]
      simp only [Option.bind_some, List.getElem?_eq_getElem hvn, Rank3.set, if_pos hlt]
    · simp [el]
    · intro i p hi
      rw [List.getElem?_set]
      by_cases hc : p = idx2 t.d2 j2 j3 ∧ i = n
      · obtain ⟨rfl, rfl⟩ := hc
        rw [if_pos (by rw [e1, e2]; rfl), if_pos hlt]
        simp [List.getElem?_eq_getElem hvn]
      · rw [if_neg, hg i p hi]
        · congr 1
          apply propext
          constructor
          · rintro ⟨a, b⟩; exact ⟨a, by omega⟩
          · rintro ⟨a, b⟩
            refine ⟨a, ?_⟩
            rcases Nat.lt_succ_iff_lt_or_eq.mp b with h | h
            · exact h
            · exact absurd ⟨a, h⟩ hc
        · intro h
          rw [e1, e2, idx3_eq] at h
          obtain ⟨a, b⟩ := idx2_inj (show n < t.d1 by omega) hi h
          exact hc ⟨b.symm, a.symm⟩

/-- Row assignment loop for a rank 4 tensor, after `n` iterations. -/
theorem setRow4_loop (t : Rank4 F) (v : List F) (j2 j3 j4 n : Nat)
    (hsz : t.data.length = t.d1 * t.d2 * t.d3 * t.d4) (hv : v.length = t.d1)
    (h2 : j2 < t.d2) (h3 : j3 < t.d3) (h4 : j4 < t.d4) (hn : n ≤ t.d1) :
    ∃ u, forLoop n (fun j acc => acc.bind fun u => (v[j]?).bind fun x => u.set j j2 j3 j4 x)
        (some t) = some u ∧ u.d1 = t.d1 ∧ u.d2 = t.d2 ∧ u.d3 = t.d3 ∧ u.d4 = t.d4 ∧
      u.data.length = t.data.length ∧
      ∀ i p, i < t.d1 → u.data[idx2 t.d1 i p]? =
        if p = idx3 t.d2 t.d3 j2 j3 j4 ∧ i < n then v[i]? else t.data[idx2 t.d1 i p]? := by
  induction n with
  | zero => exact ⟨t, rfl, rfl, rfl, rfl, rfl, rfl, by simp⟩
  | succ n ih =>
    obtain ⟨u, hu, e1, e2, e3, e4, el, hg⟩ := ih (by omega)
    have hvn : n < v.length := by omega
    have hlt : idx4 u.d1 u.d2 u.d3 n j2 j3 j4 < u.data.length := by
      rw [e1, e2, e3, el, hsz]; exact idx4_lt (by omega) h2 h3 h4
    refine ⟨{ u with data := u.data.set (idx4 u.d1 u.d2 u.d3 n j2 j3 j4) v[n] }, ?_, e1, e2, e3,
      e4, ?_, ?_⟩
    · rw [forLoop_succ, hu]
      simp only [Option.bind_some, List.getElem?_eq_getElem hvn, Rank4.set, if_pos hlt]
    · simp [el]
    · intro i p hi
      rw [List.getElem?_set]
      by_cases hc : p = idx3 t.d2 t.d3 j2 j3 j4 ∧ i = n
      · obtain ⟨rfl, rfl⟩ := hc
        rw [if_pos (by rw [e1, e2, e3]; rfl), if_pos hlt]
        simp [List.getElem?_eq_getElem hvn]
      · rw [if_neg, hg i p hi]
        · congr 1
          apply propext
          constructor
          · rintro ⟨a, b⟩; exact ⟨a, by omega⟩
          · rintro ⟨a, b⟩
            refine ⟨a, ?_⟩
            rcases Nat.lt_succ_iff_lt_or_eq.mp b with h | h
            · exact h
            · exact absurd ⟨a, h⟩ hc
        · intro h
          rw [e1, e2, e3, idx4_eq] at h
          obtain ⟨a, b⟩ := idx2_inj (show n < t.d1 by omega) hi h
          exact hc ⟨b.symm, a.symm⟩

theorem dot_loop [CommRing F] (u v : List F) (n : Nat) (hu : n ≤ u.length) (hv : n ≤ v.length) :
    forLoop n
      (fun j acc => acc.bind fun s => (u[j]?).bind fun x => (v[j]?).map fun y => s + x * y)
      (some 0) = some (∑ j ∈ Finset.range n, u.getD j 0 * v.getD j 0) := by
  induction n with
  | zero => simp
  | succ n ih =>
    rw [forLoop_succ, ih (by omega) (by omega), Finset.sum_range_succ]
    simp [List.getElem?_eq_getElem (show n < u.length by omega),
      List.getElem?_eq_getElem (show n < v.length by omega)]

theorem gemv_loop [CommRing F] (a : List F) (lda i : Nat) (x : List F) (n : Nat)
    (hx : n ≤ x.length) (ha : ∀ j < n, i + lda * j < a.length) :
    gemvRow a lda n x i = some (∑ j ∈ Finset.range n, a.getD (i + lda * j) 0 * x.getD j 0) := by
  unfold gemvRow
  induction n with
  | zero => simp
  | succ n ih =>
    rw [forLoop_succ, ih (by omega) (fun j hj => ha j (by omega)), Finset.sum_range_succ]
    simp [List.getElem?_eq_getElem (ha n (by omega)),
      List.getElem?_eq_getElem (show n < x.length by omega)]

theorem mapM_some {α β : Type} (f : α → Option β) (g : α → β) (l : List α)
    (h : ∀ a ∈ l, f a = some (g a)) : l.mapM f = some (l.map g) := by
  induction l with
  | nil => rfl
  | cons a l ih =>
    rw [List.mapM_cons, h a (by simp), ih (fun b hb => h b (by simp [hb]))]
    rfl

end Qsc.VecMat
