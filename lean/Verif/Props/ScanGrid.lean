import Verif.Model.ScanGrid
import Mathlib.Algebra.BigOperators.Group.List.Basic
import Mathlib.Algebra.Order.BigOperators.Group.List
import Mathlib.Tactic.Ring
import Mathlib.Tactic.FieldSimp
import Mathlib.Tactic.Linarith
import Mathlib.Tactic.Positivity

/-!
# Properties C18, C19: tensor product scans
-/

namespace Qsc.ScanGrid

/-! ## C18 -/

/-- Specification: digits are in range. -/
def InRange (ns ds : List Nat) : Prop := List.Forall₂ (fun n d => d < n) ns ds

/-- Specification: the position of a combination in the row major order (last index fastest). -/
def position : List Nat → List Nat → Nat
  | _ :: ns, d :: ds => d * ns.prod + position ns ds
  | _, _ => 0

theorem sub_mod_div (j a : Nat) (ha : 0 < a) : (j - j % a) / a = j / a := by
  have := Nat.div_add_mod j a
  have h2 : j - j % a = a * (j / a) := by omega
  rw [h2, Nat.mul_div_cancel_left _ ha]

theorem decodeRev_append (as bs : List Nat) (j : Nat) (h : ∀ n ∈ as, 0 < n) :
    decodeRev (as ++ bs) j = decodeRev as j ++ decodeRev bs (j / as.prod) := by
  induction as generalizing j with
  | nil => simp [decodeRev]
  | cons a as ih =>
    have ha := h a (by simp)
    simp only [List.cons_append, decodeRev]
    rw [ih _ (fun n hn => h n (by simp [hn])), List.prod_cons,
      sub_mod_div j a ha,
      Nat.div_div_eq_div_mul]

theorem decode_cons (n : Nat) (ns : List Nat) (j : Nat) (h : ∀ m ∈ ns, 0 < m) :
    decode (n :: ns) j = (j / ns.prod % n) :: decode ns j := by
  unfold decode
  rw [List.reverse_cons, decodeRev_append _ _ _ (by simpa using h), List.reverse_append,
    List.prod_reverse]
  simp [decodeRev]

/-- **C18 (decode).** For positive sizes, every index decodes to in-range digits, and an index
below the product of the sizes is recovered from its digits. -/
theorem decode_spec (ns : List Nat) (h : ∀ n ∈ ns, 0 < n) (j : Nat) :
    InRange ns (decode ns j) ∧ position ns (decode ns j) = j % ns.prod := by
  induction ns with
  | nil => exact ⟨.nil, by simp [decode, decodeRev, position, Nat.mod_one]⟩
  | cons n ns ih =>
    have hn := h n (by simp)
    have hns : ∀ m ∈ ns, 0 < m := fun m hm => h m (by simp [hm])
    obtain ⟨i1, i2⟩ := ih hns
    rw [decode_cons _ _ _ hns]
    refine ⟨.cons (Nat.mod_lt _ hn) i1, ?_⟩
    rw [position, i2, List.prod_cons, Nat.mul_comm n, Nat.mod_mul, Nat.mul_comm (ns.prod)]
    omega

/-- **C18 (encode).** Every in-range combination of digits is produced by exactly one index below
the product of the sizes, namely its row major position. -/
theorem decode_unique (ns ds : List Nat) (h : InRange ns ds) :
    position ns ds < ns.prod ∧ decode ns (position ns ds) = ds ∧
      ∀ j, j < ns.prod → decode ns j = ds → j = position ns ds := by
  have hpos : ∀ n ∈ ns, 0 < n := by
    intro n hn
    obtain ⟨i, hi, rfl⟩ := List.mem_iff_getElem.mp hn
    have hl := h.length_eq
    have := (List.forall₂_iff_get.mp h).2 i hi (by omega)
    simp only [List.get_eq_getElem] at this
    omega
  have key : position ns ds < ns.prod ∧ ∀ q, decode ns (q * ns.prod + position ns ds) = ds := by
    clear hpos
    induction h with
    | nil => simp [position, decode, decodeRev]
    | @cons n d ns ds hd hrest ih =>
      have hpos : ∀ n ∈ ns, 0 < n := by
        intro n hn
        obtain ⟨i, hi, rfl⟩ := List.mem_iff_getElem.mp hn
        have hl := hrest.length_eq
        have := (List.forall₂_iff_get.mp hrest).2 i hi (by omega)
        simp only [List.get_eq_getElem] at this
        omega
      obtain ⟨i1, i2⟩ := ih
      have hp : 0 < ns.prod := List.prod_pos hpos
      refine ⟨?_, fun q => ?_⟩
      · rw [position, List.prod_cons]
        nlinarith
      · rw [decode_cons _ _ _ hpos, position, List.prod_cons]
        have e : q * (n * ns.prod) + (d * ns.prod + position ns ds)
            = (q * n + d) * ns.prod + position ns ds := by ring
        rw [e, i2 (q * n + d)]
        congr 1
        rw [Nat.add_comm, Nat.add_mul_div_right _ _ hp, Nat.div_eq_of_lt i1, Nat.zero_add,
          Nat.add_comm, Nat.add_mul_mod_self_right, Nat.mod_eq_of_lt hd]
  refine ⟨key.1, by simpa using key.2 0, fun j hj hd => ?_⟩
  have := (decode_spec ns hpos j).2
  rw [hd, Nat.mod_eq_of_lt hj] at this
  exact this.symm

/-- Non-vacuity: sizes 3, 2, 4; digits 2, 0, 3 are at position 19. -/
example : InRange [3, 2, 4] [2, 0, 3] ∧ position [3, 2, 4] [2, 0, 3] = 19 ∧
    decode [3, 2, 4] 19 = [2, 0, 3] := by
  refine ⟨.cons (by decide) (.cons (by decide) (.cons (by decide) .nil)), by decide, by decide⟩

/-! ## C19 -/

/-- **C19 (linear).** A linear grid with `n ≥ 2` values starts at min, ends at max and has the
constant step `(max - min)/(n - 1)`. -/
theorem linear_grid (a b : ℝ) (n : Nat) (hn : 2 ≤ n) :
    grid false a b n 0 = a ∧ grid false a b n (n - 1) = b ∧
      ∀ k, grid false a b n (k + 1) - grid false a b n k = (b - a) / ((n : ℝ) - 1) := by
  have h1 : (1 : ℝ) < n := by exact_mod_cast hn
  have h2 : (n : ℝ) - 1 ≠ 0 := by linarith
  refine ⟨by simp [grid], ?_, fun k => ?_⟩
  · simp only [grid, Bool.false_eq_true, if_false]
    rw [Nat.cast_sub (by omega), Nat.cast_one, mul_div_assoc, div_self h2]
    ring
  · simp only [grid, Bool.false_eq_true, if_false]
    push_cast
    ring

/-- **C19 (log).** A logarithmic grid between positive bounds starts at min, ends at max and has
a constant ratio. -/
theorem log_grid (a b : ℝ) (ha : 0 < a) (hb : 0 < b) (n : Nat) (hn : 2 ≤ n) :
    grid true a b n 0 = a ∧ grid true a b n (n - 1) = b ∧
      ∃ q, 0 < q ∧ q ^ (n - 1) = b / a ∧ ∀ k, grid true a b n (k + 1) = q * grid true a b n k := by
  have h1 : (1 : ℝ) < n := by exact_mod_cast hn
  have h2 : (n : ℝ) - 1 ≠ 0 := by linarith
  have hcast : ((n - 1 : Nat) : ℝ) = (n : ℝ) - 1 := by rw [Nat.cast_sub (by omega), Nat.cast_one]
  refine ⟨by simp [grid, Real.exp_log ha], ?_, Real.exp ((Real.log b - Real.log a) / ((n : ℝ) - 1)),
    Real.exp_pos _, ?_, fun k => ?_⟩
  · simp only [grid, if_true]
    rw [hcast, mul_div_assoc, div_self h2, mul_one, add_sub_cancel, Real.exp_log hb]
  · rw [← Real.exp_nat_mul, hcast, mul_div_cancel₀ _ h2, Real.exp_sub, Real.exp_log ha,
      Real.exp_log hb]
  · simp only [grid, if_true]
    rw [← Real.exp_add]
    congr 1
    push_cast
    ring

/-- **C19 (range and order).** When `min < max` (both positive for a logarithmic grid) the values
are strictly increasing and all lie between the bounds. -/
theorem grid_monotone (log : Bool) (a b : ℝ) (hab : a < b) (hlog : log = true → 0 < a) (n : Nat)
    (hn : 2 ≤ n) :
    (∀ j k, j < k → grid log a b n j < grid log a b n k) ∧
      ∀ k, k ≤ n - 1 → a ≤ grid log a b n k ∧ grid log a b n k ≤ b := by
  have h1 : (1 : ℝ) < n := by exact_mod_cast hn
  have h2 : 0 < (n : ℝ) - 1 := by linarith
  have mono : ∀ j k, j < k → grid log a b n j < grid log a b n k := by
    intro j k hjk
    have hjk' : (j : ℝ) < k := by exact_mod_cast hjk
    unfold grid
    cases log with
    | false =>
      simp only [Bool.false_eq_true, if_false]
      have : (b - a) * j / ((n : ℝ) - 1) < (b - a) * k / ((n : ℝ) - 1) :=
        div_lt_div_of_pos_right (mul_lt_mul_of_pos_left hjk' (by linarith)) h2
      linarith
    | true =>
      simp only [if_true]
      have hl := Real.log_lt_log (hlog rfl) hab
      apply Real.exp_lt_exp.mpr
      have : (Real.log b - Real.log a) * j / ((n : ℝ) - 1)
          < (Real.log b - Real.log a) * k / ((n : ℝ) - 1) :=
        div_lt_div_of_pos_right (mul_lt_mul_of_pos_left hjk' (by linarith)) h2
      linarith
  have ends : grid log a b n 0 = a ∧ grid log a b n (n - 1) = b := by
    cases log with
    | false => exact ⟨(linear_grid a b n hn).1, (linear_grid a b n hn).2.1⟩
    | true =>
      have ha := hlog rfl
      exact ⟨(log_grid a b ha (ha.trans hab) n hn).1, (log_grid a b ha (ha.trans hab) n hn).2.1⟩
  refine ⟨mono, fun k hk => ⟨?_, ?_⟩⟩
  · rcases Nat.eq_zero_or_pos k with rfl | h
    · exact ends.1.ge
    · exact (ends.1.symm.trans_lt (mono 0 k h)).le
  · rcases Nat.lt_or_ge k (n - 1) with h | h
    · exact ((mono k (n - 1) h).trans_eq ends.2).le
    · rw [show k = n - 1 by omega]; exact ends.2.le

/-- **C19 (sizes).** Initialisation succeeds exactly when every size is at least 2; then the
number of points is the product of the sizes and each dimension has its grid. -/
theorem init_ok_iff (ds : List Dim) :
    ((∃ r, init ds = .ok r) ↔ ∀ d ∈ ds, 2 ≤ d.n) ∧
    ∀ m vs, init ds = .ok (m, vs) → m = (ds.map fun d => d.n.toNat).prod ∧
      vs = ds.map fun d => (List.range d.n.toNat).map (grid d.log d.min d.max d.n.toNat) := by
  induction ds with
  | nil => simp [init]
  | cons d ds ih =>
    obtain ⟨i1, i2⟩ := ih
    rw [init]
    by_cases hd : d.n < 2
    · rw [if_pos hd]
      refine ⟨⟨fun ⟨r, h⟩ => (by cases h), fun h => ?_⟩, fun m vs h => (by cases h)⟩
      exact absurd (h d (by simp)) (by omega)
    · rw [if_neg hd]
      cases hi : init ds with
      | error e =>
        refine ⟨⟨fun ⟨r, h⟩ => (by cases h), fun h => ?_⟩, fun m vs h => (by cases h)⟩
        obtain ⟨r, hr⟩ := i1.mpr fun x hx => h x (by simp [hx])
        rw [hi] at hr
        cases hr
      | ok r =>
        obtain ⟨m', vs'⟩ := r
        refine ⟨⟨fun _ x hx => ?_, fun _ => ⟨_, rfl⟩⟩, fun m vs h => ?_⟩
        · rcases List.mem_cons.mp hx with rfl | hx
          · omega
          · exact i1.mp ⟨_, hi⟩ x hx
        · injection h with h
          injection h with h1 h2
          obtain ⟨e1, e2⟩ := i2 m' vs' hi
          subst h1 h2
          rw [e1, e2]
          simp

/-- Non-vacuity: a two dimensional scan initialises and has 6 points. -/
example : ∃ vs, init [⟨false, 0, 1, 2⟩, ⟨true, 1, 100, 3⟩] = .ok (6, vs) := by
  obtain ⟨⟨m, vs⟩, h⟩ := (init_ok_iff [⟨false, 0, 1, 2⟩, ⟨true, 1, 100, 3⟩]).1.mpr (by simp)
  refine ⟨vs, ?_⟩
  have := ((init_ok_iff _).2 m vs h).1
  rw [h, this]
  rfl

end Qsc.ScanGrid
