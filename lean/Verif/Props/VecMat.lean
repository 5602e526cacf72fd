import Verif.Lemmas.VecMat
import Mathlib.Tactic.NormNum

/-!
# Properties C06, C07: array layout and matrix assignment
-/

namespace Qsc.VecMat

variable {F : Type}

/-! ## C06: layout -/

/-- **C06 (matrix layout).** The flat index is a bijection between in-range index pairs and
cells `0 .. nrows*ncols-1`. -/
theorem matrix_layout (r c : Nat) :
    (∀ m n, m < r → n < c → idx2 r m n < r * c) ∧
    (∀ m n m' n', m < r → n < c → m' < r → n' < c → idx2 r m n = idx2 r m' n' →
      m = m' ∧ n = n') ∧
    (∀ k < r * c, ∃ m n, m < r ∧ n < c ∧ idx2 r m n = k) :=
  ⟨fun _ _ => idx2_lt, fun _ _ _ _ h _ h' _ => idx2_inj h h', fun _ => idx2_surj⟩

/-- **C06 (rank 3 layout).** -/
theorem rank3_layout (d1 d2 d3 : Nat) :
    (∀ a b c, a < d1 → b < d2 → c < d3 → idx3 d1 d2 a b c < d1 * d2 * d3) ∧
    (∀ a b c a' b' c', a < d1 → b < d2 → a' < d1 → b' < d2 →
      idx3 d1 d2 a b c = idx3 d1 d2 a' b' c' → a = a' ∧ b = b' ∧ c = c') ∧
    (∀ k < d1 * d2 * d3, ∃ a b c, a < d1 ∧ b < d2 ∧ c < d3 ∧ idx3 d1 d2 a b c = k) :=
  ⟨fun _ _ _ => idx3_lt, fun _ _ _ _ _ _ h1 h2 g1 g2 => idx3_inj h1 h2 g1 g2,
    fun _ => idx3_surj⟩

/-- **C06 (rank 4 layout).** -/
theorem rank4_layout (d1 d2 d3 d4 : Nat) :
    (∀ a b c d, a < d1 → b < d2 → c < d3 → d < d4 →
      idx4 d1 d2 d3 a b c d < d1 * d2 * d3 * d4) ∧
    (∀ a b c d a' b' c' d', a < d1 → b < d2 → c < d3 → a' < d1 → b' < d2 → c' < d3 →
      idx4 d1 d2 d3 a b c d = idx4 d1 d2 d3 a' b' c' d' →
      a = a' ∧ b = b' ∧ c = c' ∧ d = d') ∧
    (∀ k < d1 * d2 * d3 * d4, ∃ a b c d, a < d1 ∧ b < d2 ∧ c < d3 ∧ d < d4 ∧
      idx4 d1 d2 d3 a b c d = k) :=
  ⟨fun _ _ _ _ => idx4_lt,
    fun _ _ _ _ _ _ _ _ h1 h2 h3 g1 g2 g3 => idx4_inj h1 h2 h3 g1 g2 g3,
    fun _ => idx4_surj⟩

/-- Non-vacuity: element (2,3) of a 4 x 5 matrix, element (1,2,3) of a 2 x 3 x 4 tensor and
element (1,2,3,4) of a 2 x 3 x 4 x 5 tensor. -/
example : idx2 4 2 3 = 14 ∧ idx3 2 3 1 2 3 = 23 ∧ idx4 2 3 4 1 2 3 4 = 119 := by decide

/-- A matrix is allocated when its storage has as many cells as its shape. -/
def Matrix.Allocated (a : Matrix F) : Prop := a.data.length = a.nrows * a.ncols
/-- Same for rank 3. -/
def Rank3.Allocated (t : Rank3 F) : Prop := t.data.length = t.d1 * t.d2 * t.d3
/-- Same for rank 4. -/
def Rank4.Allocated (t : Rank4 F) : Prop := t.data.length = t.d1 * t.d2 * t.d3 * t.d4

/-- **C06 (allocation).** Constructors and `resize` give allocated objects of the requested
shape, every in-range element holding the initial value. -/
theorem resize_spec (m : Matrix F) (r c : Nat) (v : F) :
    let a := m.resize r c v
    a.Allocated ∧ a.nrows = r ∧ a.ncols = c ∧ ∀ i j, i < r → j < c → a.get i j = some v := by
  refine ⟨by simp [Matrix.Allocated, Matrix.resize], rfl, rfl, fun i j hi hj => ?_⟩
  have := idx2_lt hi hj
  simp [Matrix.get, Matrix.resize, List.getElem?_replicate, this]

/-- **C06 (matrix store/load).** Writing an in-range element of an allocated matrix is in
bounds; it can be read back; every other element is unchanged; shape and allocation stay. -/
theorem matrix_set_get (a : Matrix F) (ha : a.Allocated) (i j : Nat) (v : F)
    (hi : i < a.nrows) (hj : j < a.ncols) :
    ∃ a', a.set i j v = some a' ∧ a'.Allocated ∧ a'.nrows = a.nrows ∧ a'.ncols = a.ncols ∧
      ∀ p q, p < a.nrows → q < a.ncols →
        a'.get p q = if p = i ∧ q = j then some v else a.get p q := by
  have hlt : idx2 a.nrows i j < a.data.length := by rw [ha]; exact idx2_lt hi hj
  refine ⟨{ a with data := a.data.set (idx2 a.nrows i j) v }, by simp [Matrix.set, hlt],
    by simpa [Matrix.Allocated] using ha, rfl, rfl, fun p q hp hq => ?_⟩
  simp only [Matrix.get, List.getElem?_set]
  by_cases h : p = i ∧ q = j
  · obtain ⟨rfl, rfl⟩ := h; simp [hlt]
  · rw [if_neg h, if_neg]
    intro e
    obtain ⟨h1, h2⟩ := idx2_inj hi hp e
    exact h ⟨h1.symm, h2.symm⟩

/-- **C06 (rank 3 store/load).** -/
theorem rank3_set_get (t : Rank3 F) (ht : t.Allocated) (i j k : Nat) (v : F)
    (hi : i < t.d1) (hj : j < t.d2) (hk : k < t.d3) :
    ∃ t', t.set i j k v = some t' ∧ t'.Allocated ∧ t'.d1 = t.d1 ∧ t'.d2 = t.d2 ∧ t'.d3 = t.d3 ∧
      ∀ p q r, p < t.d1 → q < t.d2 → r < t.d3 →
        t'.get p q r = if p = i ∧ q = j ∧ r = k then some v else t.get p q r := by
  have hlt : idx3 t.d1 t.d2 i j k < t.data.length := by rw [ht]; exact idx3_lt hi hj hk
  refine ⟨{ t with data := t.data.set (idx3 t.d1 t.d2 i j k) v }, by simp [Rank3.set, hlt],
    by simpa [Rank3.Allocated] using ht, rfl, rfl, rfl, fun p q r hp hq hr => ?_⟩
  simp only [Rank3.get, List.getElem?_set]
  by_cases h : p = i ∧ q = j ∧ r = k
  · obtain ⟨rfl, rfl, rfl⟩ := h; simp [hlt]
  · rw [if_neg h, if_neg]
    intro e
    obtain ⟨h1, h2, h3⟩ := idx3_inj hi hj hp hq e
    exact h ⟨h1.symm, h2.symm, h3.symm⟩

/-- **C06 (rank 4 store/load).** -/
theorem rank4_set_get (t : Rank4 F) (ht : t.Allocated) (i j k l : Nat) (v : F)
    (hi : i < t.d1) (hj : j < t.d2) (hk : k < t.d3) (hl : l < t.d4) :
    ∃ t', t.set i j k l v = some t' ∧ t'.Allocated ∧
      t'.d1 = t.d1 ∧ t'.d2 = t.d2 ∧ t'.d3 = t.d3 ∧ t'.d4 = t.d4 ∧
      ∀ p q r s, p < t.d1 → q < t.d2 → r < t.d3 → s < t.d4 →
        t'.get p q r s
          = if p = i ∧ q = j ∧ r = k ∧ s = l then some v else t.get p q r s := by
  have hlt : idx4 t.d1 t.d2 t.d3 i j k l < t.data.length := by rw [ht]; exact idx4_lt hi hj hk hl
  refine ⟨{ t with data := t.data.set (idx4 t.d1 t.d2 t.d3 i j k l) v },
    by simp [Rank4.set, hlt], by simpa [Rank4.Allocated] using ht, rfl, rfl, rfl, rfl,
    fun p q r s hp hq hr hs => ?_⟩
  simp only [Rank4.get, List.getElem?_set]
  by_cases h : p = i ∧ q = j ∧ r = k ∧ s = l
  · obtain ⟨rfl, rfl, rfl, rfl⟩ := h; simp [hlt]
  · rw [if_neg h, if_neg]
    intro e
    obtain ⟨h1, h2, h3, h4⟩ := idx4_inj hi hj hk hp hq hr e
    exact h ⟨h1.symm, h2.symm, h3.symm, h4.symm⟩

/-- **C06 (`Rank3Tensor::set_row`).** With a vector of the right length and in-range row
indices the row is written and nothing else changes. -/
theorem rank3_setRow (t : Rank3 F) (ht : t.Allocated) (v : List F) (hv : v.length = t.d1)
    (j k : Nat) (hj : j < t.d2) (hk : k < t.d3) :
    ∃ t', t.setRow v j k = some t' ∧ t'.Allocated ∧
      t'.d1 = t.d1 ∧ t'.d2 = t.d2 ∧ t'.d3 = t.d3 ∧
      ∀ p q r, p < t.d1 → q < t.d2 → r < t.d3 →
        t'.get p q r = if q = j ∧ r = k then v[p]? else t.get p q r := by
  obtain ⟨u, hu, e1, e2, e3, el, hg⟩ := setRow3_loop t v j k t.d1 ht hv hj hk le_rfl
  refine ⟨u, by rw [Rank3.setRow, if_pos hv, hu], ?_, e1, e2, e3, fun p q r hp hq hr => ?_⟩
  · simp only [Rank3.Allocated] at ht ⊢; rw [el, ht, e1, e2, e3]
  · simp only [Rank3.get, e1, e2]
    rw [idx3_eq, hg p _ hp]
    by_cases h : q = j ∧ r = k
    · obtain ⟨rfl, rfl⟩ := h; rw [if_pos ⟨rfl, hp⟩, if_pos ⟨rfl, rfl⟩]
    · rw [if_neg h, if_neg]
      rintro ⟨e, _⟩
      exact h (idx2_inj hq hj e)

/-- **C06 (`Rank4Tensor::set_row`).** -/
theorem rank4_setRow (t : Rank4 F) (ht : t.Allocated) (v : List F) (hv : v.length = t.d1)
    (j k l : Nat) (hj : j < t.d2) (hk : k < t.d3) (hl : l < t.d4) :
    ∃ t', t.setRow v j k l = some t' ∧ t'.Allocated ∧
      t'.d1 = t.d1 ∧ t'.d2 = t.d2 ∧ t'.d3 = t.d3 ∧ t'.d4 = t.d4 ∧
      ∀ p q r s, p < t.d1 → q < t.d2 → r < t.d3 → s < t.d4 →
        t'.get p q r s = if q = j ∧ r = k ∧ s = l then v[p]? else t.get p q r s := by
  obtain ⟨u, hu, e1, e2, e3, e4, el, hg⟩ := setRow4_loop t v j k l t.d1 ht hv hj hk hl le_rfl
  refine ⟨u, by rw [Rank4.setRow, if_pos hv, hu], ?_, e1, e2, e3, e4,
    fun p q r s hp hq hr hs => ?_⟩
  · simp only [Rank4.Allocated] at ht ⊢; rw [el, ht, e1, e2, e3, e4]
  · simp only [Rank4.get, e1, e2, e3]
    rw [idx4_eq, hg p _ hp]
    by_cases h : q = j ∧ r = k ∧ s = l
    · obtain ⟨rfl, rfl, rfl⟩ := h; rw [if_pos ⟨rfl, hp⟩, if_pos ⟨rfl, rfl, rfl⟩]
    · rw [if_neg h, if_neg]
      rintro ⟨e, _⟩
      exact h (idx3_inj hq hr hj hk e)

/-- Non-vacuity: writing row (·,1,0) of a 2 x 2 x 2 tensor of zeros. -/
example : ((Rank3.resize 2 2 2 (0 : Int)).setRow [7, 8] 1 0).map Rank3.data
    = some [0, 0, 7, 8, 0, 0, 0, 0] := by decide

/-- Non-vacuity: writing row (·,0,1,1) of a 2 x 2 x 2 x 2 tensor of zeros. -/
example : ((Rank4.resize 2 2 2 2 (0 : Int)).setRow [7, 8] 0 1 1).map Rank4.data
    = some [0, 0, 0, 0, 0, 0, 0, 0, 0, 0, 0, 0, 7, 8, 0, 0] := by decide

/-- **C06 (limits of the check).** There is no bounds check on single indices: the row index
`nrows` silently addresses the first row of the next column. -/
theorem matrix_row_overflow_aliases (a : Matrix F) (j : Nat) :
    a.get a.nrows j = a.get 0 (j + 1) := by
  simp only [Matrix.get, idx2]
  congr 1
  ring

/-- **C06 (matrix-vector product).** With matching shapes, `matrix_vector_product` is the
mathematical product over the elements as read by `operator()` (exact arithmetic). -/
theorem matrixVectorProduct_spec [CommRing F] (m : Matrix F) (hm : m.Allocated) (v : List F)
    (hv : v.length = m.ncols) :
    ∃ y, matrixVectorProduct m v m.nrows = some y ∧ y.length = m.nrows ∧
      ∀ i, i < m.nrows →
        y[i]? = some (∑ j ∈ Finset.range m.ncols, (m.get i j).getD 0 * (v[j]?).getD 0) := by
  refine ⟨(List.range m.nrows).map fun i =>
      ∑ j ∈ Finset.range m.ncols, m.data.getD (i + m.nrows * j) 0 * v.getD j 0, ?_, by simp,
      fun i hi => ?_⟩
  · unfold matrixVectorProduct
    rw [if_pos ⟨hv.symm, rfl⟩]
    apply mapM_some
    intro i hi
    rw [List.mem_range] at hi
    exact gemv_loop _ _ _ _ _ (by omega)
      (fun j hj => by rw [hm]; exact idx2_lt hi hj)
  · simp only [List.getElem?_map, List.getElem?_range hi, Option.map_some, Matrix.get, idx2,
      List.getD_eq_getElem?_getD]

/-- Non-vacuity: [[1,3,5],[2,4,6]] * (1,1,2) = (14, 18). -/
example : matrixVectorProduct (⟨2, 3, [1, 2, 3, 4, 5, 6]⟩ : Matrix Int) [1, 1, 2] 2
    = some [14, 18] := by decide

/-- **C06 (dot product).** -/
theorem dotProduct_spec [CommRing F] (u v : List F) :
    dotProduct u v = if u.length = v.length then
      some (∑ j ∈ Finset.range u.length, u.getD j 0 * v.getD j 0) else none := by
  unfold dotProduct
  split
  · rename_i h
    exact dot_loop u v _ le_rfl h.le
  · rfl

/-! ## C07: matrix assignment -/

/-- **C07 (positive part).** If the target already has the source's row count, every element
reads the same after the assignment. -/
theorem assign_get (a b : Matrix F) (h : a.nrows = b.nrows) (i j : Nat) :
    (a.assign b).get i j = b.get i j := by
  simp [Matrix.get, Matrix.assign, h]

/-- **C07 (exactly when).** For a source with at least one row and two columns whose elements
are pairwise distinct, the assignment is faithful on all in-range elements iff the target
already had the same number of rows. -/
theorem assign_faithful_iff (a b : Matrix F) (hb : b.Allocated) (hd : b.data.Nodup)
    (hr : 0 < b.nrows) (hc : 2 ≤ b.ncols) :
    (∀ i j, i < b.nrows → j < b.ncols → (a.assign b).get i j = b.get i j)
      ↔ a.nrows = b.nrows := by
  constructor
  · intro h
    have h1 := h 0 1 hr (by omega)
    simp only [Matrix.get, Matrix.assign, idx2, Nat.mul_one, Nat.zero_add] at h1
    have hlt : b.nrows < b.data.length := by rw [hb]; nlinarith
    rw [List.getElem?_eq_getElem hlt] at h1
    obtain ⟨hlt', e⟩ := List.getElem?_eq_some_iff.mp h1
    exact (List.Nodup.getElem_inj_iff hd).mp e
  · intro h i j _ _
    exact assign_get a b h i j

/-- **C07 (the expectation is false).** There are allocated matrices for which reading the
target after `A = B` does not give `B`: the shape is not copied. -/
theorem assign_not_faithful :
    ∃ a b : Matrix Int, a.Allocated ∧ b.Allocated ∧
      ∃ i j, i < b.nrows ∧ j < b.ncols ∧ (a.assign b).get i j ≠ b.get i j :=
  ⟨Matrix.default 0, ⟨2, 2, [1, 2, 3, 4]⟩, rfl, rfl, 0, 1, by decide, by decide, by decide⟩

/-- **C07 (shape).** The assignment keeps the target's shape, so the result is an allocated
matrix iff the two shapes have the same number of cells. -/
theorem assign_allocated_iff (a b : Matrix F) (hb : b.Allocated) :
    (a.assign b).Allocated ↔ a.nrows * a.ncols = b.nrows * b.ncols := by
  simp only [Matrix.Allocated, Matrix.assign] at hb ⊢
  rw [hb]
  exact eq_comm

/-- Non-vacuity of `assign_faithful_iff`: a 2 x 2 source with distinct elements. -/
example : let b : Matrix Int := ⟨2, 2, [1, 2, 3, 4]⟩
    b.Allocated ∧ b.data.Nodup ∧ 0 < b.nrows ∧ 2 ≤ b.ncols := by
  refine ⟨rfl, by decide, by decide, by decide⟩

/-- `init_axis.cpp` 19: `d_d_phi = differentiation_matrix(nphi, ...)`.  After
`allocate.cpp` has resized `d_d_phi` to `nphi x nphi` the assignment is faithful. -/
theorem assign_after_resize (m b : Matrix F) (v : F) (c : Nat) (i j : Nat) :
    ((m.resize b.nrows c v).assign b).get i j = b.get i j :=
  assign_get _ _ rfl i j

end Qsc.VecMat
