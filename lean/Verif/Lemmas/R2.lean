import Verif.Model.R2
import Verif.Lemmas.Field
import Mathlib.Tactic.LinearCombination
import Mathlib.Tactic.FieldSimp

/-!
# Entries of the second-order matrix
-/

namespace Qsc.R2

section
variable {K : Type}

/-- The body of the inner loop. -/
def put4 (n j : Nat) (e11 e12 e21 e22 : Nat → K) (k : Nat) (m : Nat → Nat → K) : Nat → Nat → K :=
  setE (setE (setE (setE m j k (e11 k)) j (k + n) (e12 k)) (j + n) k (e21 k)) (j + n) (k + n) (e22 k)

theorem inner_spec {n j : Nat} (hj : j < n) (e11 e12 e21 e22 : Nat → K) (m : Nat → Nat → K) (t : Nat)
    (ht : t ≤ n) (x y : Nat) : forLoop t (put4 n j e11 e12 e21 e22) m x y =
      if x = j ∧ y < t then e11 y else if x = j ∧ n ≤ y ∧ y < t + n then e12 (y - n)
      else if x = j + n ∧ y < t then e21 y else if x = j + n ∧ n ≤ y ∧ y < t + n then e22 (y - n)
      else m x y := by
  induction t with
  | zero =>
    rw [if_neg (by omega), if_neg (by omega), if_neg (by omega), if_neg (by omega)]
    rfl
  | succ t ih =>
    rw [forLoop_succ]
    have ih := ih (by omega)
    generalize forLoop t (put4 n j e11 e12 e21 e22) m = w at ih ⊢
    unfold put4 setE
    by_cases h1 : x = j + n ∧ y = t + n
    · rw [if_pos h1, if_neg (by omega), if_neg (by omega), if_neg (by omega), if_pos (by omega),
        h1.2, Nat.add_sub_cancel]
    rw [if_neg h1]
    by_cases h2 : x = j + n ∧ y = t
    · rw [if_pos h2, if_neg (by omega), if_neg (by omega), if_pos (by omega), h2.2]
    rw [if_neg h2]
    by_cases h3 : x = j ∧ y = t + n
    · rw [if_pos h3, if_neg (by omega), if_pos (by omega), h3.2, Nat.add_sub_cancel]
    rw [if_neg h3]
    by_cases h4 : x = j ∧ y = t
    · rw [if_pos h4, if_pos (by omega), h4.2]
    rw [if_neg h4, ih]
    by_cases g1 : x = j ∧ y < t
    · rw [if_pos g1, if_pos (by omega)]
    rw [if_neg g1, if_neg (c := x = j ∧ y < t + 1) (by omega)]
    by_cases g2 : x = j ∧ n ≤ y ∧ y < t + n
    · rw [if_pos g2, if_pos (by omega)]
    rw [if_neg g2, if_neg (c := x = j ∧ n ≤ y ∧ y < t + 1 + n) (by omega)]
    by_cases g3 : x = j + n ∧ y < t
    · rw [if_pos g3, if_pos (by omega)]
    rw [if_neg g3, if_neg (c := x = j + n ∧ y < t + 1) (by omega)]
    by_cases g4 : x = j + n ∧ n ≤ y ∧ y < t + n
    · rw [if_pos g4, if_pos (by omega)]
    rw [if_neg g4, if_neg (c := x = j + n ∧ n ≤ y ∧ y < t + 1 + n) (by omega)]

/-- A loop whose step `j` fills the rows `j` and `j + n`, whatever they held, and leaves the others. -/
theorem rows_spec {n : Nat} (body : Nat → (Nat → Nat → K) → Nat → Nat → K) (E : Nat → Nat → K)
    (h1 : ∀ j < n, ∀ m y, y < 2 * n → body j m j y = E j y)
    (h2 : ∀ j < n, ∀ m y, y < 2 * n → body j m (j + n) y = E (j + n) y)
    (h3 : ∀ j < n, ∀ m x y, x ≠ j → x ≠ j + n → body j m x y = m x y)
    (old : Nat → Nat → K) (t : Nat) (ht : t ≤ n) :
    ∀ j < t, ∀ y < 2 * n, forLoop t body old j y = E j y ∧ forLoop t body old (j + n) y = E (j + n) y := by
  induction t with
  | zero => intro j hj; omega
  | succ t ih =>
    intro j hj y hy
    rw [forLoop_succ]
    rcases Nat.lt_succ_iff_lt_or_eq.1 hj with h | rfl
    · obtain ⟨a, b⟩ := ih (by omega) j h y hy
      rw [h3 t (by omega) _ j y (by omega) (by omega), h3 t (by omega) _ (j + n) y (by omega) (by omega)]
      exact ⟨a, b⟩
    · exact ⟨h1 j (by omega) _ y hy, h2 j (by omega) _ y hy⟩

theorem rows_all {n : Nat} (body : Nat → (Nat → Nat → K) → Nat → Nat → K) (E : Nat → Nat → K)
    (old : Nat → Nat → K) {x y : Nat} (hx : x < 2 * n) (hy : y < 2 * n)
    (h1 : ∀ j < n, ∀ m y, y < 2 * n → body j m j y = E j y)
    (h2 : ∀ j < n, ∀ m y, y < 2 * n → body j m (j + n) y = E (j + n) y)
    (h3 : ∀ j < n, ∀ m x y, x ≠ j → x ≠ j + n → body j m x y = m x y) :
    forLoop n body old x y = E x y := by
  have key := rows_spec body E h1 h2 h3 old n le_rfl
  by_cases h : x < n
  · exact (key x h y hy).1
  · have := (key (x - n) (by omega) y hy).2
    rwa [Nat.sub_add_cancel (by omega)] at this

/-- One step of the outer loop; `g` is what is done to a diagonal entry. -/
def rowStep (n : Nat) (e11 e12 e21 e22 : Nat → Nat → K) (g11 g12 g21 g22 : Nat → K → K) (j : Nat)
    (m : Nat → Nat → K) : Nat → Nat → K :=
  let m := forLoop n (put4 n j (e11 j) (e12 j) (e21 j) (e22 j)) m
  let m := setE m j j (g11 j (m j j))
  let m := setE m j (j + n) (g12 j (m j (j + n)))
  let m := setE m (j + n) j (g21 j (m (j + n) j))
  setE m (j + n) (j + n) (g22 j (m (j + n) (j + n)))

theorem rowStep_spec {n j : Nat} (hj : j < n) (e11 e12 e21 e22 : Nat → Nat → K)
    (g11 g12 g21 g22 : Nat → K → K) (m : Nat → Nat → K) (k : Nat) (hk : k < n) :
    rowStep n e11 e12 e21 e22 g11 g12 g21 g22 j m j k = (if k = j then g11 j (e11 j k) else e11 j k) ∧
    rowStep n e11 e12 e21 e22 g11 g12 g21 g22 j m j (k + n) = (if k = j then g12 j (e12 j k) else e12 j k) ∧
    rowStep n e11 e12 e21 e22 g11 g12 g21 g22 j m (j + n) k = (if k = j then g21 j (e21 j k) else e21 j k) ∧
    rowStep n e11 e12 e21 e22 g11 g12 g21 g22 j m (j + n) (k + n) =
      (if k = j then g22 j (e22 j k) else e22 j k) := by
  have a11 : ∀ k < n, forLoop n (put4 n j (e11 j) (e12 j) (e21 j) (e22 j)) m j k = e11 j k := by
    intro k hk; rw [inner_spec hj _ _ _ _ m n le_rfl, if_pos (by omega)]
  have a12 : ∀ k < n, forLoop n (put4 n j (e11 j) (e12 j) (e21 j) (e22 j)) m j (k + n) = e12 j k := by
    intro k hk
    rw [inner_spec hj _ _ _ _ m n le_rfl, if_neg (by omega), if_pos (by omega), Nat.add_sub_cancel]
  have a21 : ∀ k < n, forLoop n (put4 n j (e11 j) (e12 j) (e21 j) (e22 j)) m (j + n) k = e21 j k := by
    intro k hk
    rw [inner_spec hj _ _ _ _ m n le_rfl, if_neg (by omega), if_neg (by omega), if_pos (by omega)]
  have a22 : ∀ k < n, forLoop n (put4 n j (e11 j) (e12 j) (e21 j) (e22 j)) m (j + n) (k + n) = e22 j k := by
    intro k hk
    rw [inner_spec hj _ _ _ _ m n le_rfl, if_neg (by omega), if_neg (by omega), if_neg (by omega),
      if_pos (by omega), Nat.add_sub_cancel]
  unfold rowStep
  generalize forLoop n (put4 n j (e11 j) (e12 j) (e21 j) (e22 j)) m = w at *
  simp only [setE]
  refine ⟨?_, ?_, ?_, ?_⟩
  · rw [if_neg (by omega), if_neg (by omega), if_neg (by omega)]
    by_cases h : k = j
    · subst h; rw [if_pos (by simp), if_pos rfl, a11 k hk]
    · rw [if_neg (by omega), if_neg h, a11 k hk]
  · rw [if_neg (by omega), if_neg (by omega)]
    by_cases h : k = j
    · subst h; rw [if_pos (by simp), if_pos rfl, if_neg (by omega), a12 k hk]
    · rw [if_neg (by omega), if_neg (by omega), if_neg h, a12 k hk]
  · rw [if_neg (by omega)]
    by_cases h : k = j
    · subst h; rw [if_pos (by simp), if_pos rfl, if_neg (by omega), if_neg (by omega), a21 k hk]
    · rw [if_neg (by omega), if_neg (by omega), if_neg (by omega), if_neg h, a21 k hk]
  · by_cases h : k = j
    · subst h
      rw [if_pos (by simp), if_pos rfl, if_neg (by omega), if_neg (by omega), if_neg (by omega), a22 k hk]
    · rw [if_neg (by omega), if_neg (by omega), if_neg (by omega), if_neg (by omega), if_neg h, a22 k hk]

theorem rowStep_other {n j : Nat} (hj : j < n) (e11 e12 e21 e22 : Nat → Nat → K)
    (g11 g12 g21 g22 : Nat → K → K) (m : Nat → Nat → K) {x : Nat} (h1 : x ≠ j) (h2 : x ≠ j + n) (y : Nat) :
    rowStep n e11 e12 e21 e22 g11 g12 g21 g22 j m x y = m x y := by
  have := inner_spec hj (e11 j) (e12 j) (e21 j) (e22 j) m n le_rfl x y
  rw [if_neg (by omega), if_neg (by omega), if_neg (by omega), if_neg (by omega)] at this
  unfold rowStep
  generalize forLoop n (put4 n j (e11 j) (e12 j) (e21 j) (e22 j)) m = w at *
  simp only [setE]
  rw [if_neg (by omega), if_neg (by omega), if_neg (by omega), if_neg (by omega), this]

end

section
variable {K : Type} [Field K] (i : In K)

/-- The four blocks: rows of the first and second equation, columns of `X20` and `Y20`. -/
def blk11 (j k : Nat) : K :=
  i.r1.Y1c j * i.cfg.dDvarphi j k * (linOf i).Y2sX20 k - i.r1.Y1s j * i.cfg.dDvarphi j k * (linOf i).Y2cX20 k +
    if k = j then i.r1.X1c j * (fsOf i).fXsX20 j - i.r1.Y1s j * (fsOf i).fY0X20 j +
      i.r1.Y1c j * (fsOf i).fYsX20 j - i.r1.Y1s j * (fsOf i).fYcX20 j else 0
def blk12 (j k : Nat) : K :=
  -2 * i.r1.Y1s j * i.cfg.dDvarphi j k +
    if k = j then i.r1.X1c j * (fsOf i).fXsY20 j - i.r1.Y1s j * (fsOf i).fY0Y20 j +
      i.r1.Y1c j * (fsOf i).fYsY20 j - i.r1.Y1s j * (fsOf i).fYcY20 j else 0
def blk21 (j k : Nat) : K :=
  -i.r1.X1c j * i.cfg.dDvarphi j k + i.r1.Y1s j * i.cfg.dDvarphi j k * (linOf i).Y2sX20 k +
    i.r1.Y1c j * i.cfg.dDvarphi j k * (linOf i).Y2cX20 k +
    if k = j then -i.r1.X1c j * (fsOf i).fX0X20 j + i.r1.X1c j * (fsOf i).fXcX20 j -
      i.r1.Y1c j * (fsOf i).fY0X20 j + i.r1.Y1s j * (fsOf i).fYsX20 j + i.r1.Y1c j * (fsOf i).fYcX20 j else 0
def blk22 (j k : Nat) : K :=
  if k = j then -i.r1.X1c j * (fsOf i).fX0Y20 j + i.r1.X1c j * (fsOf i).fXcY20 j -
      i.r1.Y1c j * (fsOf i).fY0Y20 j + i.r1.Y1s j * (fsOf i).fYsY20 j + i.r1.Y1c j * (fsOf i).fYcY20 j else 0

/-- All entries are overwritten. -/
def ent (x y : Nat) : K :=
  let n := i.cfg.nphi
  if x < n then (if y < n then blk11 i x y else blk12 i x (y - n))
  else (if y < n then blk21 i (x - n) y else blk22 i (x - n) (y - n))

theorem matrix_entry (old : Nat → Nat → K) {x y : Nat} (hx : x < 2 * i.cfg.nphi)
    (hy : y < 2 * i.cfg.nphi) : matrix i old x y = ent i x y := by
  have hm : matrix i old = forLoop i.cfg.nphi (rowStep i.cfg.nphi
      (fun j k => i.r1.Y1c j * i.cfg.dDvarphi j k * (linOf i).Y2sX20 k -
        i.r1.Y1s j * i.cfg.dDvarphi j k * (linOf i).Y2cX20 k)
      (fun j k => -2 * i.r1.Y1s j * i.cfg.dDvarphi j k)
      (fun j k => -i.r1.X1c j * i.cfg.dDvarphi j k + i.r1.Y1s j * i.cfg.dDvarphi j k * (linOf i).Y2sX20 k +
        i.r1.Y1c j * i.cfg.dDvarphi j k * (linOf i).Y2cX20 k) (fun _ _ => 0)
      (fun j v => v + i.r1.X1c j * (fsOf i).fXsX20 j - i.r1.Y1s j * (fsOf i).fY0X20 j +
        i.r1.Y1c j * (fsOf i).fYsX20 j - i.r1.Y1s j * (fsOf i).fYcX20 j)
      (fun j v => v + i.r1.X1c j * (fsOf i).fXsY20 j - i.r1.Y1s j * (fsOf i).fY0Y20 j +
        i.r1.Y1c j * (fsOf i).fYsY20 j - i.r1.Y1s j * (fsOf i).fYcY20 j)
      (fun j v => v - i.r1.X1c j * (fsOf i).fX0X20 j + i.r1.X1c j * (fsOf i).fXcX20 j -
        i.r1.Y1c j * (fsOf i).fY0X20 j + i.r1.Y1s j * (fsOf i).fYsX20 j + i.r1.Y1c j * (fsOf i).fYcX20 j)
      (fun j v => v - i.r1.X1c j * (fsOf i).fX0Y20 j + i.r1.X1c j * (fsOf i).fXcY20 j -
        i.r1.Y1c j * (fsOf i).fY0Y20 j + i.r1.Y1s j * (fsOf i).fYsY20 j + i.r1.Y1c j * (fsOf i).fYcY20 j))
      old := rfl
  rw [hm]
  clear hm
  generalize hn : i.cfg.nphi = n at *
  have hent : ∀ j < n, ∀ k < n, ent i j k = blk11 i j k ∧ ent i j (k + n) = blk12 i j k ∧
      ent i (j + n) k = blk21 i j k ∧ ent i (j + n) (k + n) = blk22 i j k := by
    intro j hj k hk
    have k1 : ¬ k + n < n := by omega
    have k2 : ¬ j + n < n := by omega
    refine ⟨?_, ?_, ?_, ?_⟩ <;> simp only [ent, hn, if_pos hj, if_pos hk, if_neg k1, if_neg k2, Nat.add_sub_cancel]
  refine rows_all _ (ent i) old hx hy ?_ ?_ ?_
  · intro j hj m y hy
    by_cases h : y < n
    · rw [(rowStep_spec hj _ _ _ _ _ _ _ _ m y h).1, (hent j hj y h).1]
      unfold blk11
      by_cases e : y = j
      · rw [if_pos e, if_pos e]; ring
      · rw [if_neg e, if_neg e, add_zero]
    · obtain ⟨k, rfl⟩ : ∃ k, y = k + n := ⟨y - n, by omega⟩
      have hk : k < n := by omega
      rw [(rowStep_spec hj _ _ _ _ _ _ _ _ m k hk).2.1, (hent j hj k hk).2.1]
      unfold blk12
      by_cases e : k = j
      · rw [if_pos e, if_pos e]; ring
      · rw [if_neg e, if_neg e, add_zero]
  · intro j hj m y hy
    by_cases h : y < n
    · rw [(rowStep_spec hj _ _ _ _ _ _ _ _ m y h).2.2.1, (hent j hj y h).2.2.1]
      unfold blk21
      by_cases e : y = j
      · rw [if_pos e, if_pos e]; ring
      · rw [if_neg e, if_neg e, add_zero]
    · obtain ⟨k, rfl⟩ : ∃ k, y = k + n := ⟨y - n, by omega⟩
      have hk : k < n := by omega
      rw [(rowStep_spec hj _ _ _ _ _ _ _ _ m k hk).2.2.2, (hent j hj k hk).2.2.2]
      unfold blk22
      by_cases e : k = j
      · rw [if_pos e, if_pos e]; ring
      · rw [if_neg e, if_neg e]
  · intro j hj m x y h1 h2
    exact rowStep_other hj _ _ _ _ _ _ _ _ m h1 h2 y

/-- Sums along the rows. -/
theorem row_sums (old : Nat → Nat → K) (x : Nat → K) {j : Nat} (hj : j < i.cfg.nphi) :
    (∑ b ∈ Finset.range (2 * i.cfg.nphi), matrix i old j b * x b =
      (∑ k ∈ Finset.range i.cfg.nphi, blk11 i j k * x k) +
        ∑ k ∈ Finset.range i.cfg.nphi, blk12 i j k * x (k + i.cfg.nphi)) ∧
    ∑ b ∈ Finset.range (2 * i.cfg.nphi), matrix i old (j + i.cfg.nphi) b * x b =
      (∑ k ∈ Finset.range i.cfg.nphi, blk21 i j k * x k) +
        ∑ k ∈ Finset.range i.cfg.nphi, blk22 i j k * x (k + i.cfg.nphi) := by
  have hsplit : ∀ f : Nat → K, ∑ b ∈ Finset.range (2 * i.cfg.nphi), f b =
      (∑ k ∈ Finset.range i.cfg.nphi, f k) + ∑ k ∈ Finset.range i.cfg.nphi, f (k + i.cfg.nphi) := by
    intro f
    rw [two_mul, Finset.sum_range_add]
    simp only [Nat.add_comm]
  constructor
  · rw [hsplit]
    congr 1
    · refine Finset.sum_congr rfl fun k hk => ?_
      have hk := Finset.mem_range.1 hk
      rw [matrix_entry i old (by omega) (by omega)]
      simp only [ent, if_pos hj, if_pos hk]
    · refine Finset.sum_congr rfl fun k hk => ?_
      have hk := Finset.mem_range.1 hk
      rw [matrix_entry i old (by omega) (by omega)]
      simp only [ent, if_pos hj, if_neg (show ¬ k + i.cfg.nphi < i.cfg.nphi by omega), Nat.add_sub_cancel]
  · rw [hsplit]
    congr 1
    · refine Finset.sum_congr rfl fun k hk => ?_
      have hk := Finset.mem_range.1 hk
      rw [matrix_entry i old (by omega) (by omega)]
      simp only [ent, if_neg (show ¬ j + i.cfg.nphi < i.cfg.nphi by omega), if_pos hk, Nat.add_sub_cancel]
    · refine Finset.sum_congr rfl fun k hk => ?_
      have hk := Finset.mem_range.1 hk
      rw [matrix_entry i old (by omega) (by omega)]
      simp only [ent, if_neg (show ¬ j + i.cfg.nphi < i.cfg.nphi by omega),
        if_neg (show ¬ k + i.cfg.nphi < i.cfg.nphi by omega), Nat.add_sub_cancel]

end

end Qsc.R2
