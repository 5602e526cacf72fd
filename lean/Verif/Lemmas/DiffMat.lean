import Verif.Model.DiffMat
import Verif.Props.VecMat
import Mathlib.Analysis.SpecialFunctions.Trigonometric.Basic
import Mathlib.Analysis.SpecialFunctions.Complex.Circle
import Mathlib.Tactic.FieldSimp
import Mathlib.Tactic.Ring
import Mathlib.Tactic.LinearCombination

/-!
# Lemmas on the differentiation matrix
-/

namespace Qsc.DiffMat

open Qsc.VecMat

section loops

variable {K : Type}

/-- Each cell `ix j` is updated once, the rest stays. -/
theorem fillLoop_spec (n : Nat) (ix : Nat → Nat) (f : Nat → K → Option K) (g : Nat → K → K)
    (a : List K) (hix : ∀ i j, i < n → j < n → ix i = ix j → i = j) (hlt : ∀ j < n, ix j < a.length)
    (hf : ∀ j x, j < n → f j x = some (g j x)) :
    ∃ b, fillLoop n ix f a = some b ∧ b.length = a.length ∧
      (∀ j < n, b[ix j]? = (a[ix j]?).map (g j)) ∧
      ∀ i, (∀ j < n, ix j ≠ i) → b[i]? = a[i]? := by
  unfold fillLoop
  induction n with
  | zero => exact ⟨a, rfl, rfl, by simp, fun _ _ => rfl⟩
  | succ n ih =>
    obtain ⟨b, h1, h2, h3, h4⟩ := ih (fun i j hi hj => hix i j (by omega) (by omega))
      (fun j hj => hlt j (by omega)) (fun j x hj => hf j x (by omega))
    have hn : b[ix n]? = a[ix n]? := h4 _ fun j hj e => by
      have := hix j n (by omega) (by omega) e
      omega
    have hl : ix n < a.length := hlt n (by omega)
    rw [forLoop_succ, h1]
    simp only [Option.bind_some, hn, List.getElem?_eq_getElem hl, hf n _ (Nat.lt_succ_self n)]
    unfold store
    rw [if_pos (by omega)]
    refine ⟨_, rfl, by simp [h2], fun j hj => ?_, fun i hi => ?_⟩
    · by_cases hjn : j = n
      · subst hjn
        rw [List.getElem?_set_self (by omega), List.getElem?_eq_getElem hl]
        rfl
      · rw [List.getElem?_set_ne (fun e => hjn (hix n j (by omega) (by omega) e).symm)]
        exact h3 j (by omega)
    · rw [List.getElem?_set_ne (hi n (by omega))]
      exact h4 i fun j hj => hi j (by omega)

variable [Field K]

/-- A row of matrix stores. -/
theorem setLoop_spec (m : Matrix K) (hm : m.Allocated) (n j : Nat) (col : Nat → Nat)
    (val : Nat → Option K) (v : Nat → K) (hj : j < m.nrows) (hc : ∀ i < n, col i < m.ncols)
    (hinj : ∀ i k, i < n → k < n → col i = col k → i = k) (hv : ∀ i < n, val i = some (v i)) :
    ∃ m', forLoop n (fun i acc => acc.bind fun m => (val i).bind fun x => m.set j (col i) x)
        (some m) = some m' ∧ m'.Allocated ∧ m'.nrows = m.nrows ∧ m'.ncols = m.ncols ∧
      (∀ i < n, m'.get j (col i) = some (v i)) ∧
      (∀ p q, p < m.nrows → q < m.ncols → (p ≠ j ∨ ∀ i < n, col i ≠ q) →
        m'.get p q = m.get p q) := by
  induction n with
  | zero => exact ⟨m, rfl, hm, rfl, rfl, by simp, fun _ _ _ _ _ => rfl⟩
  | succ n ih =>
    obtain ⟨b, h1, h2, h3, h4, h5, h6⟩ := ih (fun i hi => hc i (by omega))
      (fun i k hi hk => hinj i k (by omega) (by omega)) (fun i hi => hv i (by omega))
    obtain ⟨d, g1, g2, g3, g4, g5⟩ := matrix_set_get b h2 j (col n) (v n) (by omega)
      (by rw [h4]; exact hc n (by omega))
    rw [forLoop_succ, h1]
    refine ⟨d, ?_, g2, g3.trans h3, g4.trans h4, ?_, ?_⟩
    · simp only [Option.bind_some, hv n (Nat.lt_succ_self n)]
      exact g1
    · intro i hi
      rw [g5 _ _ (by omega) (by rw [h4]; exact hc i hi)]
      by_cases hin : i = n
      · subst hin; simp
      · rw [if_neg (fun h => hin (hinj i n hi (by omega) h.2))]
        exact h5 i (by omega)
    · intro p q hp hq hpq
      rw [g5 p q (by omega) (by omega), if_neg, h6 p q hp hq]
      · rcases hpq with h | h
        · exact .inl h
        · exact .inr fun i hi => h i (by omega)
      · rintro ⟨rfl, rfl⟩
        rcases hpq with h | h
        · exact h rfl
        · exact h n (by omega) rfl

theorem toeplitz_spec (N : Nat) (c : List K) (hc : c.length = N) :
    ∃ m, toeplitz N c = some m ∧ m.Allocated ∧ m.nrows = N ∧ m.ncols = N ∧
      ∀ j k, j < N → k < N →
        m.get j k = if j ≤ k then (c[k - j]?).map (fun x => -x) else c[j - k]? := by
  have main : ∀ n ≤ N, ∃ m, forLoop n (fun j acc => acc.bind fun m =>
      (forLoop (N - j) (fun i acc => acc.bind fun m => (c[i]?).bind fun v =>
        m.set j (j + i) (-v)) (some m)).bind fun m =>
      forLoop j (fun k acc => acc.bind fun m => (c[j - k]?).bind fun v => m.set j k v) (some m))
      (some (Matrix.mk' 0 N N)) = some m ∧ m.Allocated ∧ m.nrows = N ∧ m.ncols = N ∧
      ∀ j k, j < n → k < N →
        m.get j k = if j ≤ k then (c[k - j]?).map (fun x => -x) else c[j - k]? := by
    intro n hn
    induction n with
    | zero => exact ⟨_, rfl, by simp [Matrix.Allocated, Matrix.mk'], rfl, rfl, by omega⟩
    | succ n ih =>
      obtain ⟨m, h1, h2, h3, h4, h5⟩ := ih (by omega)
      rw [forLoop_succ, h1]
      simp only [Option.bind_some]
      have e1 : ∀ (m : Matrix K) (i : Nat), ((c[i]?).bind fun v => m.set n (n + i) (-v)) =
          ((c[i]?).map (fun x => -x)).bind fun x => m.set n (n + i) x := by
        intro m i; cases c[i]? <;> rfl
      simp only [e1]
      obtain ⟨d, a1, a2, a3, a4, a5, a6⟩ := setLoop_spec m h2 (N - n) n (fun i => n + i)
        (fun i => (c[i]?).map (fun x => -x)) (fun i => -(c[i]?.getD 0)) (by omega)
        (fun i hi => by omega) (fun i k _ _ h => by omega)
        (fun i hi => by rw [List.getElem?_eq_getElem (by omega)]; rfl)
      rw [a1]
      simp only [Option.bind_some]
      obtain ⟨f, b1, b2, b3, b4, b5, b6⟩ := setLoop_spec d a2 n n (fun i => i)
        (fun i => c[n - i]?) (fun i => c[n - i]?.getD 0) (by omega)
        (fun i hi => by omega) (fun i k _ _ h => h)
        (fun i hi => by rw [List.getElem?_eq_getElem (by omega)]; rfl)
      refine ⟨f, b1, b2, by omega, by omega, fun j k hj hk => ?_⟩
      by_cases hjn : j = n
      · subst hjn
        by_cases hjk : j ≤ k
        · rw [if_pos hjk, b6 j k (by omega) (by omega) (.inr fun i hi => by omega)]
          have := a5 (k - j) (by omega)
          rw [show j + (k - j) = k by omega] at this
          rw [this, List.getElem?_eq_getElem (by omega)]; rfl
        · rw [if_neg hjk, b5 k (by omega), List.getElem?_eq_getElem (by omega)]; rfl
      · rw [b6 j k (by omega) (by omega) (.inl hjn), a6 j k (by omega) (by omega) (.inl hjn)]
        exact h5 j k (by omega) hk
  exact main N (Nat.le_refl N)

end loops

/-- `pi`, `sin`, `tan` of the reals. -/
noncomputable def real : Trig ℝ := ⟨Real.pi, Real.sin, Real.tan⟩

/-- The first column: odd resolution. -/
theorem col1_odd (M : Nat) (c : ℝ) :
    ∃ a, col1 real (2 * M + 1) c = some a ∧ a.length = 2 * M + 1 ∧ a[0]? = some 0 ∧
      ∀ l, 0 < l → l < 2 * M + 1 →
        a[l]? = some (c * ((-1) ^ l * ((1 / 2) / Real.sin (l * Real.pi / (2 * M + 1))))) := by
  have hN : ((2 * M + 1 : Nat) : ℝ) = 2 * M + 1 := by push_cast; ring
  have hN0 : (2 * (M : ℝ) + 1) ≠ 0 := by positivity
  unfold col1
  dsimp only
  rw [show (2 * M + 1 - 1) / 2 = M by omega, show (2 * M + 1) / 2 = M by omega]
  unfold store
  rw [if_pos (by simp)]
  simp only [Option.bind_some]
  -- topc
  obtain ⟨top, t1, t2, t3, -⟩ := fillLoop_spec M (fun j => j) (fun j (_ : ℝ) => some
      (if (2 * M + 1) % 2 = 0 then (1 / 2) / real.tan (((j + 1 : Nat) : ℝ) * (2 * real.pi /
        ((2 * M + 1 : Nat) : ℝ)) / 2)
      else (1 / 2) / real.sin (((j + 1 : Nat) : ℝ) * (2 * real.pi / ((2 * M + 1 : Nat) : ℝ)) / 2)))
    (fun j _ => (1 / 2) / Real.sin ((j + 1 : Nat) * Real.pi / (2 * M + 1)))
    (List.replicate M 0) (fun _ _ _ _ h => h) (by simp) (fun j x hj => by
      rw [if_neg (by omega)]
      congr 2
      change Real.sin _ = _
      congr 1
      change _ * (2 * Real.pi / _) / 2 = _
      rw [hN]; field_simp)
  have ht : topc real (2 * M + 1) M = some top := t1
  rw [ht]
  simp only [Option.bind_some]
  have htop : ∀ j < M, top[j]? = some ((1 / 2) / Real.sin ((j + 1 : Nat) * Real.pi / (2 * M + 1))) := by
    intro j hj
    rw [t3 j hj]
    simp [hj]
  have htl : top.length = M := by rw [t2]; simp
  -- first half
  obtain ⟨a, a1, a2, a3, a4⟩ := fillLoop_spec M (fun j => j + 1) (fun j (_ : ℝ) => top[j]?)
    (fun j _ => (1 / 2) / Real.sin ((j + 1 : Nat) * Real.pi / (2 * M + 1)))
    ((List.replicate (2 * M + 1) (0 : ℝ)).set 0 0) (fun _ _ _ _ h => by simpa using h)
    (fun j hj => by simp; omega) (fun j x hj => htop j hj)
  rw [a1]
  simp only [Option.bind_some]
  -- second half
  obtain ⟨b, b1, b2, b3, b4⟩ := fillLoop_spec M (fun j => M + 1 + j)
    (fun j (_ : ℝ) => (top[M - 1 - j]?).map fun v => if (2 * M + 1) % 2 = 0 then -v else v)
    (fun j _ => (1 / 2) / Real.sin ((M - 1 - j + 1 : Nat) * Real.pi / (2 * M + 1)))
    a (fun _ _ _ _ h => by simpa using h) (fun j hj => by rw [a2]; simp; omega)
    (fun j x hj => by
      rw [htop _ (by omega)]
      simp [show ¬ (2 * M + 1) % 2 = 0 by omega])
  rw [b1]
  simp only [Option.bind_some]
  -- signs
  have hbl : b.length = 2 * M + 1 := by rw [b2, a2]; simp
  obtain ⟨d, d1, d2, d3, d4⟩ := fillLoop_spec M (fun i => 2 * i + 1) (fun _ (x : ℝ) => some (-x))
    (fun _ x => -x) b (fun _ _ _ _ h => by simpa using h) (fun j hj => by omega) (fun _ _ _ => rfl)
  rw [d1]
  refine ⟨_, rfl, by simp [d2, hbl], ?_, ?_⟩
  · rw [List.getElem?_map, d4 0 (fun j _ => by omega), b4 0 (fun j _ => by omega),
      a4 0 (fun j _ => by omega)]
    simp
  · intro l h0 hl
    have hb : b[l]? = some ((1 / 2) / Real.sin (l * Real.pi / (2 * M + 1))) := by
      by_cases hlM : l ≤ M
      · rw [b4 l (fun j _ => by omega)]
        have := a3 (l - 1) (by omega)
        rw [show l - 1 + 1 = l by omega] at this
        rw [this]
        simp [hl]
      · have := b3 (l - (M + 1)) (by omega)
        rw [show M + 1 + (l - (M + 1)) = l by omega,
          show M - 1 - (l - (M + 1)) + 1 = 2 * M + 1 - l by omega] at this
        rw [this, List.getElem?_eq_getElem (by rw [a2]; simp; omega)]
        simp only [Option.map_some, Option.some.injEq]
        rw [Nat.cast_sub (by omega), hN]
        congr 1
        rw [← Real.sin_pi_sub]
        congr 1
        field_simp
        ring
    rw [List.getElem?_map]
    by_cases hp : l % 2 = 1
    · have := d3 (l / 2) (by omega)
      rw [show 2 * (l / 2) + 1 = l by omega] at this
      rw [this, hb]
      simp only [Option.map_some, Option.some.injEq]
      rw [Odd.neg_one_pow (Nat.odd_iff.2 hp)]
      ring
    · rw [d4 l (fun j _ => by omega), hb]
      simp only [Option.map_some, Option.some.injEq]
      rw [Even.neg_one_pow (Nat.even_iff.2 (by omega))]
      ring

/-- The entries; on the diagonal the sine and hence (division by zero being zero) the entry is 0. -/
noncomputable def entry (M : Nat) (c : ℝ) (j k : Nat) : ℝ :=
  c * ((-1) ^ (j + k) * ((1 / 2) / Real.sin (((j : ℝ) - k) * Real.pi / (2 * M + 1))))

theorem entries_odd (M : Nat) (xmin xmax : ℝ) :
    ∃ m, differentiationMatrix real (2 * M + 1) xmin xmax = some m ∧ m.Allocated ∧
      m.nrows = 2 * M + 1 ∧ m.ncols = 2 * M + 1 ∧
      ∀ j k, j < 2 * M + 1 → k < 2 * M + 1 →
        m.get j k = some (entry M (2 * Real.pi / (xmax - xmin)) j k) := by
  obtain ⟨a, a1, a2, a3, a4⟩ := col1_odd M (2 * Real.pi / (xmax - xmin))
  obtain ⟨m, m1, m2, m3, m4, m5⟩ := toeplitz_spec (2 * M + 1) a a2
  refine ⟨m, ?_, m2, m3, m4, fun j k hj hk => ?_⟩
  · unfold differentiationMatrix
    have : real.pi = Real.pi := rfl
    rw [this, a1]; exact m1
  · rw [m5 j k hj hk]
    unfold entry
    split
    · rename_i hjk
      by_cases h : j = k
      · subst h; simp [a3]
      · rw [a4 (k - j) (by omega) (by omega)]
        simp only [Option.map_some, Option.some.injEq]
        rw [Nat.cast_sub hjk]
        have hs : Real.sin (((j : ℝ) - k) * Real.pi / (2 * M + 1)) =
            - Real.sin (((k : ℝ) - j) * Real.pi / (2 * M + 1)) := by
          rw [← Real.sin_neg]; congr 1; ring
        have hp : ((-1 : ℝ)) ^ (j + k) = (-1) ^ (k - j) := by
          rw [show j + k = k - j + 2 * j by omega, pow_add, pow_mul]; simp
        rw [hs, hp, div_neg]
        ring
    · rename_i hjk
      rw [a4 (j - k) (by omega) (by omega), Nat.cast_sub (by omega)]
      have hp : ((-1 : ℝ)) ^ (j + k) = (-1) ^ (j - k) := by
        rw [show j + k = j - k + 2 * k by omega, pow_add, pow_mul]; simp
      rw [hp]

theorem entry_antisymm (M : Nat) (c : ℝ) (j k : Nat) : entry M c j k = - entry M c k j := by
  unfold entry
  have hs : Real.sin (((j : ℝ) - k) * Real.pi / (2 * M + 1)) =
      - Real.sin (((k : ℝ) - j) * Real.pi / (2 * M + 1)) := by
    rw [← Real.sin_neg]; congr 1; ring
  rw [hs, div_neg, add_comm k j]
  ring

theorem entry_shift (M : Nat) (c : ℝ) (j k : Nat) : entry M c (j + 1) (k + 1) = entry M c j k := by
  unfold entry
  rw [show j + 1 + (k + 1) = j + k + 2 by omega, pow_add]
  push_cast
  rw [show ((j : ℝ) + 1 - (k + 1)) = (j : ℝ) - k by ring]
  ring

theorem entry_wrap (M : Nat) (c : ℝ) (j : Nat) : entry M c (j + 1) 0 = entry M c j (2 * M) := by
  unfold entry
  have hN0 : (2 * (M : ℝ) + 1) ≠ 0 := by positivity
  have hs : Real.sin ((((j + 1 : Nat) : ℝ) - (0 : Nat)) * Real.pi / (2 * M + 1)) =
      - Real.sin (((j : ℝ) - (2 * M : Nat)) * Real.pi / (2 * M + 1)) := by
    rw [← Real.sin_add_pi]; congr 1; push_cast; field_simp; ring
  rw [hs, div_neg, pow_add _ j (2 * M), pow_mul]
  simp [pow_succ]

theorem entry_row (M : Nat) (c : ℝ) (j : Nat) :
    ∑ k ∈ Finset.range (2 * M + 1), entry M c j k =
      ∑ k ∈ Finset.range (2 * M + 1), entry M c 0 k := by
  induction j with
  | zero => rfl
  | succ j ih =>
    rw [← ih, Finset.sum_range_succ', Finset.sum_range_succ, entry_wrap]
    simp only [entry_shift]

theorem entry_row_zero (M : Nat) (c : ℝ) (j : Nat) :
    ∑ k ∈ Finset.range (2 * M + 1), entry M c j k = 0 := by
  have h1 : ∑ j ∈ Finset.range (2 * M + 1), ∑ k ∈ Finset.range (2 * M + 1), entry M c j k =
      ∑ j ∈ Finset.range (2 * M + 1), ∑ k ∈ Finset.range (2 * M + 1), entry M c k j :=
    Finset.sum_comm
  have h2 : ∑ j ∈ Finset.range (2 * M + 1), ∑ k ∈ Finset.range (2 * M + 1), entry M c k j =
      - ∑ j ∈ Finset.range (2 * M + 1), ∑ k ∈ Finset.range (2 * M + 1), entry M c j k := by
    rw [← Finset.sum_neg_distrib]
    refine Finset.sum_congr rfl fun j _ => ?_
    rw [← Finset.sum_neg_distrib]
    exact Finset.sum_congr rfl fun k _ => entry_antisymm M c k j
  have h3 : ∑ j ∈ Finset.range (2 * M + 1), ∑ k ∈ Finset.range (2 * M + 1), entry M c j k = 0 := by
    linarith [h1, h2]
  simp only [entry_row M c] at h3
  rw [Finset.sum_const, Finset.card_range, nsmul_eq_mul] at h3
  rw [entry_row]
  rcases mul_eq_zero.1 h3 with h | h
  · have : ((2 * M + 1 : Nat) : ℝ) ≠ 0 := by positivity
    exact absurd h this
  · exact h

theorem sin_ne (M j k : Nat) (hj : j < 2 * M + 1) (hk : k < 2 * M + 1) (h : k ≠ j) :
    Real.sin (((j : ℝ) - k) * Real.pi / (2 * M + 1)) ≠ 0 := by
  have hN0 : (2 * (M : ℝ) + 1) ≠ 0 := by positivity
  intro hs
  obtain ⟨n, hn⟩ := Real.sin_eq_zero_iff.1 hs
  have hpi := Real.pi_ne_zero
  have : (n : ℝ) * (2 * M + 1) = (j : ℝ) - k := by
    field_simp at hn
    linarith
  have h' : n * (2 * M + 1) = (j : ℤ) - k := by exact_mod_cast this
  have hn0 : n = 0 := by
    by_contra hne
    rcases lt_or_gt_of_ne hne with hlt | hgt
    · have : n * (2 * M + 1) ≤ -1 * (2 * M + 1) := by
        apply mul_le_mul_of_nonneg_right <;> omega
      omega
    · have : 1 * (2 * (M : ℤ) + 1) ≤ n * (2 * M + 1) := by
        apply mul_le_mul_of_nonneg_right <;> omega
      omega
  rw [hn0] at h'
  omega

open Complex in
/-- A sum over roots of unity. -/
theorem root_sum (M : Nat) (m : ℤ) (h1 : -(M : ℤ) ≤ m) (h2 : m + 1 ≤ M) :
    ∑ k ∈ Finset.range (2 * M + 1),
      (-exp ((2 * m + 1) * Real.pi / (2 * M + 1) * I)) ^ k = 0 := by
  have hN0 : (2 * (M : ℂ) + 1) ≠ 0 := by
    have : (2 * (M : ℝ) + 1) ≠ 0 := by positivity
    exact_mod_cast this
  have hpi : (Real.pi : ℂ) ≠ 0 := by exact_mod_cast Real.pi_ne_zero
  have hone : (-exp ((2 * m + 1) * Real.pi / (2 * M + 1) * I)) ^ (2 * M + 1) = 1 := by
    rw [neg_pow, ← exp_nat_mul, Odd.neg_one_pow ⟨M, rfl⟩]
    have : ((2 * M + 1 : Nat) : ℂ) * ((2 * m + 1) * Real.pi / (2 * M + 1) * I) =
        Real.pi * I + m * (2 * Real.pi * I) := by
      push_cast; field_simp; ring
    rw [this, exp_add, exp_int_mul_two_pi_mul_I, exp_pi_mul_I]
    ring
  have hne : -exp ((2 * m + 1) * Real.pi / (2 * M + 1) * I) ≠ 1 := by
    intro h
    have h3 : exp ((2 * m + 1) * Real.pi / (2 * M + 1) * I) = exp (Real.pi * I) := by
      rw [exp_pi_mul_I]; linear_combination -h
    obtain ⟨n, hn⟩ := exp_eq_exp_iff_exists_int.1 h3
    have h4 : (2 * (m : ℂ) + 1) = (2 * M + 1) * (1 + 2 * n) := by
      have hI : I ≠ 0 := I_ne_zero
      field_simp at hn
      linear_combination hn
    have h5 : 2 * m + 1 = (2 * (M : ℤ) + 1) * (1 + 2 * n) := by exact_mod_cast h4
    rcases lt_trichotomy n 0 with hlt | rfl | hgt
    · have : (2 * (M : ℤ) + 1) * (1 + 2 * n) ≤ (2 * M + 1) * (-1) := by
        apply mul_le_mul_of_nonneg_left <;> omega
      omega
    · omega
    · have : (2 * (M : ℤ) + 1) * 1 ≤ (2 * M + 1) * (1 + 2 * n) := by
        apply mul_le_mul_of_nonneg_left <;> omega
      omega
  have := geom_sum_mul (-exp ((2 * m + 1) * Real.pi / (2 * M + 1) * I)) (2 * M + 1)
  rw [hone, sub_self] at this
  exact (mul_eq_zero.1 this).resolve_right (sub_ne_zero.2 hne)

open Complex in
/-- Going from mode `m` to `m + 1` adds `i`. -/
theorem mode_step (M : Nat) (j : Nat) (hj : j < 2 * M + 1) (m : ℤ) (h1 : -(M : ℤ) ≤ m)
    (h2 : m + 1 ≤ M) :
    ∑ k ∈ Finset.range (2 * M + 1), (entry M 1 j k : ℂ) *
        exp (2 * Real.pi * ((m + 1 : ℤ) : ℂ) * ((k : ℂ) - j) / (2 * M + 1) * I) =
      ∑ k ∈ Finset.range (2 * M + 1), (entry M 1 j k : ℂ) *
        exp (2 * Real.pi * (m : ℂ) * ((k : ℂ) - j) / (2 * M + 1) * I) + I := by
  have hN0 : (2 * (M : ℂ) + 1) ≠ 0 := by
    have : (2 * (M : ℝ) + 1) ≠ 0 := by positivity
    exact_mod_cast this
  set w : ℂ := -exp ((2 * m + 1) * Real.pi / (2 * M + 1) * I) with hw
  have hw0 : w ≠ 0 := neg_ne_zero.2 (exp_ne_zero _)
  have key : ∀ k ∈ Finset.range (2 * M + 1), (entry M 1 j k : ℂ) *
        exp (2 * Real.pi * ((m + 1 : ℤ) : ℂ) * ((k : ℂ) - j) / (2 * M + 1) * I) =
      (entry M 1 j k : ℂ) * exp (2 * Real.pi * (m : ℂ) * ((k : ℂ) - j) / (2 * M + 1) * I) +
        (-I * (w ^ k * (w ^ j)⁻¹) + if k = j then I else 0) := by
    intro k hk
    by_cases hkj : k = j
    · subst hkj
      have : entry M 1 k k = 0 := by simp [entry]
      rw [this, mul_inv_cancel₀ (pow_ne_zero _ hw0)]
      simp
    · rw [if_neg hkj, add_zero]
      have hs := sin_ne M j k hj (Finset.mem_range.1 hk) hkj
      set θ : ℝ := ((j : ℝ) - k) * Real.pi / (2 * M + 1) with hθ
      have hsc : Complex.sin (θ : ℂ) ≠ 0 := by
        rw [← ofReal_sin]; exact_mod_cast hs
      have he : (entry M 1 j k : ℂ) = (-1) ^ (j + k) * ((1 / 2) / Complex.sin θ) := by
        unfold entry
        push_cast
        rw [hθ]; push_cast; ring
      have ha : (2 * Real.pi * ((m + 1 : ℤ) : ℂ) * ((k : ℂ) - j) / (2 * M + 1) * I) =
          (-(2 * m + 1) * θ) * I + (-θ) * I := by
        rw [hθ]; push_cast; field_simp; ring
      have hb : (2 * Real.pi * (m : ℂ) * ((k : ℂ) - j) / (2 * M + 1) * I) =
          (-(2 * m + 1) * θ) * I + θ * I := by
        rw [hθ]; push_cast; field_simp; ring
      have hwk : w ^ k * (w ^ j)⁻¹ = (-1) ^ (j + k) * exp ((-(2 * m + 1) * θ) * I) := by
        have hj1 : ((-1 : ℂ)) ^ j * (-1) ^ j = 1 := by rw [← mul_pow]; simp
        have e1 : exp ((-(2 * m + 1) * θ) * I) * exp ((2 * m + 1) * Real.pi / (2 * M + 1) * I) ^ j =
            exp ((2 * m + 1) * Real.pi / (2 * M + 1) * I) ^ k := by
          rw [← exp_nat_mul, ← exp_nat_mul, ← exp_add]
          congr 1
          rw [hθ]; push_cast; field_simp; ring
        rw [hw, neg_pow _ k, neg_pow _ j, ← e1, mul_inv, pow_add]
        have hne : exp ((2 * m + 1) * Real.pi / (2 * M + 1) * I) ^ j ≠ 0 :=
          pow_ne_zero _ (exp_ne_zero _)
        have hj2 : ((-1 : ℂ) ^ j)⁻¹ = (-1) ^ j := inv_eq_of_mul_eq_one_left hj1
        rw [hj2]
        field_simp
      have hd : exp (-(θ * I)) - exp (θ * I) = -2 * I * Complex.sin θ := by
        simp only [Complex.sin, neg_mul]
        have : I * I = -1 := I_mul_I
        linear_combination (exp (-(θ * I)) - exp (θ * I)) * this
      rw [he, ha, hb, hwk, exp_add, exp_add]
      field_simp
      linear_combination hd
  rw [Finset.sum_congr rfl key, Finset.sum_add_distrib, Finset.sum_add_distrib, ← Finset.mul_sum,
    ← Finset.sum_mul, root_sum M m h1 h2]
  simp [hj]

open Complex in
/-- The matrix on the exponential with wave number `m`. -/
theorem mode (M : Nat) (j : Nat) (hj : j < 2 * M + 1) (m : ℤ) (hm : |m| ≤ M) :
    ∑ k ∈ Finset.range (2 * M + 1), (entry M 1 j k : ℂ) *
      exp (2 * Real.pi * (m : ℂ) * ((k : ℂ) - j) / (2 * M + 1) * I) = m * I := by
  rw [abs_le] at hm
  have base : ∑ k ∈ Finset.range (2 * M + 1), (entry M 1 j k : ℂ) *
      exp (2 * Real.pi * ((0 : ℤ) : ℂ) * ((k : ℂ) - j) / (2 * M + 1) * I) = (0 : ℤ) * I := by
    have := entry_row_zero M 1 j
    simp only [Int.cast_zero, mul_zero, zero_mul, zero_div, exp_zero, mul_one]
    exact_mod_cast this
  induction m with
  | zero => exact base
  | succ n ih =>
    rw [mode_step M j hj n (by omega) (by omega), ih (by omega)]
    push_cast; ring
  | pred n ih =>
    have h := mode_step M j hj (-n - 1) (by omega) (by omega)
    rw [show -(n : ℤ) - 1 + 1 = -n by ring, ih (by omega)] at h
    have h' := eq_sub_of_add_eq h.symm
    rw [h']; push_cast; ring

theorem mode_real (M : Nat) (j : Nat) (hj : j < 2 * M + 1) (m : Nat) (hm : m ≤ M) :
    (∑ k ∈ Finset.range (2 * M + 1), entry M 1 j k *
        Real.cos (2 * Real.pi * m * ((k : ℝ) - j) / (2 * M + 1)) = 0) ∧
      ∑ k ∈ Finset.range (2 * M + 1), entry M 1 j k *
        Real.sin (2 * Real.pi * m * ((k : ℝ) - j) / (2 * M + 1)) = m := by
  have h := mode M j hj m (by rw [abs_of_nonneg (by omega)]; omega)
  have key : ∀ k : Nat, (entry M 1 j k : ℂ) *
      Complex.exp (2 * Real.pi * ((m : ℤ) : ℂ) * ((k : ℂ) - j) / (2 * M + 1) * Complex.I) =
      ((entry M 1 j k * Real.cos (2 * Real.pi * m * ((k : ℝ) - j) / (2 * M + 1)) : ℝ) : ℂ) +
      ((entry M 1 j k * Real.sin (2 * Real.pi * m * ((k : ℝ) - j) / (2 * M + 1)) : ℝ) : ℂ) *
        Complex.I := by
    intro k
    rw [Complex.exp_mul_I]
    push_cast
    ring
  simp only [key] at h
  rw [Finset.sum_add_distrib, ← Finset.sum_mul, ← Complex.ofReal_sum, ← Complex.ofReal_sum] at h
  have hre := congrArg Complex.re h
  have him := congrArg Complex.im h
  simp only [Complex.add_re, Complex.add_im, Complex.mul_re, Complex.mul_im, Complex.ofReal_re,
    Complex.ofReal_im, Complex.I_re, Complex.I_im, Complex.intCast_re, Complex.intCast_im] at hre him
  refine ⟨?_, ?_⟩
  · linarith
  · have : (((m : ℤ) : ℝ)) = (m : ℝ) := by push_cast; rfl
    linarith

theorem entry_scale (M : Nat) (c : ℝ) (j k : Nat) : entry M c j k = c * entry M 1 j k := by
  unfold entry; ring

end Qsc.DiffMat
