import Verif.Spec.MachineInt
import Mathlib.Tactic.Linarith
import Mathlib.Tactic.Ring
import Mathlib.Tactic.NormNum
import Mathlib.Tactic.Push

/-! # Lemmas on machine integers -/

namespace Qsc.MachineInt

open Qsc.Spec.MachineInt

@[simp] theorem bind_ok {α β : Type} (a : α) (f : α → Out β) : (Out.ok a).bind f = f a := rfl
@[simp] theorem bind_undefined {α β : Type} (f : α → Out β) :
    (Out.undefined : Out α).bind f = .undefined := rfl

theorem chk_nat {x : Nat} (h : x ≤ largest) : chk (x : Int) = .ok (x : Int) := by
  unfold chk intMin intMax
  unfold largest at h
  rw [if_pos]; omega

theorem chk_big {x : Nat} (h : largest < x) : chk (x : Int) = .undefined := by
  unfold chk intMin intMax
  unfold largest at h
  rw [if_neg]; omega

theorem mulI_nat {a b : Nat} (h : a * b ≤ largest) :
    mulI (a : Int) (b : Int) = .ok ((a * b : Nat) : Int) := by
  unfold mulI; rw [← chk_nat h]; push_cast; rfl

theorem mulI_big {a b : Nat} (h : largest < a * b) : mulI (a : Int) (b : Int) = .undefined := by
  unfold mulI; rw [← chk_big h]; push_cast; rfl

theorem addI_nat {a b : Nat} (h : a + b ≤ largest) :
    addI (a : Int) (b : Int) = .ok ((a + b : Nat) : Int) := by
  unfold addI; rw [← chk_nat h]; push_cast; rfl

theorem addI_big {a b : Nat} (h : largest < a + b) : addI (a : Int) (b : Int) = .undefined := by
  unfold addI; rw [← chk_big h]; push_cast; rfl

theorem toSize_nat {x : Nat} (h : x ≤ largest) : toSize (x : Int) = x := by
  unfold toSize; unfold largest at h; omega

theorem alloc_nat {mem : Nat → Bool} (hm : Enough mem) {x : Nat} (h : x ≤ largest) :
    alloc mem x = .ok x := by
  unfold alloc; rw [if_pos (hm x h)]

theorem vec_nat {mem : Nat → Bool} (hm : Enough mem) {x : Nat} (h : x ≤ largest) :
    vec mem (x : Int) = .ok x := by
  unfold vec; rw [toSize_nat h, alloc_nat hm h]

theorem element_nat {size x : Nat} (h : x < size) (hx : x ≤ largest) :
    element size (x : Int) = .ok x := by
  unfold element; rw [toSize_nat hx, if_pos h]

theorem resize_nat {mem : Nat → Bool} (hm : Enough mem) {r c : Nat} (h : r * c ≤ largest) :
    Mat.resize mem (r : Int) (c : Int) = .ok ⟨r, c, r * c⟩ := by
  unfold Mat.resize
  rw [mulI_nat h, bind_ok, toSize_nat h, alloc_nat hm h, bind_ok]

theorem resize_big {mem : Nat → Bool} {r c : Nat} (h : largest < r * c) :
    Mat.resize mem (r : Int) (c : Int) = .undefined := by
  unfold Mat.resize
  rw [mulI_big h, bind_undefined]

/-- An index in range is below the number of elements. -/
theorem flat_lt {r c m n : Nat} (hm : m < r) (hn : n < c) : m + r * n < r * c := by
  have h1 : r * (n + 1) ≤ r * c := Nat.mul_le_mul_left r hn
  rw [Nat.mul_add, Nat.mul_one] at h1
  omega

theorem at_nat {r c m n : Nat} (h : r * c ≤ largest) (hm : m < r) (hn : n < c) :
    Mat.at ⟨r, c, r * c⟩ (m : Int) (n : Int) = .ok (place2 r m n) := by
  have h1 := flat_lt hm hn
  have h2 : r * n ≤ largest := by omega
  have h3 : m + r * n ≤ largest := by omega
  unfold Mat.at place2
  simp only []
  rw [mulI_nat h2, bind_ok, addI_nat h3, bind_ok, element_nat h1 h3]
  congr 1; ring

theorem resize3_nat {mem : Nat → Bool} (hm : Enough mem) {a b c : Nat} (hc : 0 < c)
    (h : a * b * c ≤ largest) :
    Ten3.resize mem (a : Int) (b : Int) (c : Int) = .ok ⟨a, b, c, a * b * c⟩ := by
  have h1 : a * b ≤ largest := le_trans (Nat.le_mul_of_pos_right _ hc) h
  unfold Ten3.resize
  rw [mulI_nat h1, bind_ok, mulI_nat h, bind_ok, toSize_nat h, alloc_nat hm h, bind_ok]

theorem resize3_big {mem : Nat → Bool} {a b c : Nat}
    (h : largest < a * b * c) :
    Ten3.resize mem (a : Int) (b : Int) (c : Int) = .undefined := by
  unfold Ten3.resize
  rcases Nat.lt_or_ge largest (a * b) with h1 | h1
  · rw [mulI_big h1, bind_undefined]
  · rw [mulI_nat h1, bind_ok, mulI_big h, bind_undefined]

theorem at3_nat {a b c i j k : Nat} (h : a * b * c ≤ largest) (hi : i < a) (hj : j < b)
    (hk : k < c) :
    Ten3.at ⟨a, b, c, a * b * c⟩ (i : Int) (j : Int) (k : Int) = .ok (place3 a b i j k) := by
  have h1 : j + b * k < b * c := flat_lt hj hk
  have h2 : i + a * (j + b * k) < a * (b * c) := flat_lt hi h1
  have h3 : a * (b * c) = a * b * c := (Nat.mul_assoc _ _ _).symm
  have ha : 0 < a := by omega
  have h4 : j + b * k ≤ a * (j + b * k) := Nat.le_mul_of_pos_left _ ha
  have h5 : i + a * (j + b * k) ≤ largest := by omega
  unfold Ten3.at place3
  simp only []
  rw [mulI_nat (by omega : b * k ≤ largest), bind_ok,
    addI_nat (by omega : j + b * k ≤ largest), bind_ok,
    mulI_nat (by omega : a * (j + b * k) ≤ largest), bind_ok, addI_nat h5, bind_ok,
    element_nat (by omega) h5]
  congr 1; ring

theorem resize4_nat {mem : Nat → Bool} (hm : Enough mem) {a b c d : Nat} (hc : 0 < c) (hd : 0 < d)
    (h : a * b * c * d ≤ largest) :
    Ten4.resize mem (a : Int) (b : Int) (c : Int) (d : Int) = .ok ⟨a, b, c, d, a * b * c * d⟩ := by
  have h2 : a * b * c ≤ largest := le_trans (Nat.le_mul_of_pos_right _ hd) h
  have h1 : a * b ≤ largest := le_trans (Nat.le_mul_of_pos_right _ hc) h2
  unfold Ten4.resize
  rw [mulI_nat h1, bind_ok, mulI_nat h2, bind_ok, mulI_nat h, bind_ok, toSize_nat h,
    alloc_nat hm h, bind_ok]

theorem resize4_big {mem : Nat → Bool} {a b c d : Nat}
    (h : largest < a * b * c * d) :
    Ten4.resize mem (a : Int) (b : Int) (c : Int) (d : Int) = .undefined := by
  unfold Ten4.resize
  rcases Nat.lt_or_ge largest (a * b) with h1 | h1
  · rw [mulI_big h1, bind_undefined]
  · rw [mulI_nat h1, bind_ok]
    rcases Nat.lt_or_ge largest (a * b * c) with h2 | h2
    · rw [mulI_big h2, bind_undefined]
    · rw [mulI_nat h2, bind_ok, mulI_big h, bind_undefined]

theorem at4_nat {a b c d i j k l : Nat} (h : a * b * c * d ≤ largest) (hi : i < a) (hj : j < b)
    (hk : k < c) (hl : l < d) :
    Ten4.at ⟨a, b, c, d, a * b * c * d⟩ (i : Int) (j : Int) (k : Int) (l : Int)
      = .ok (place4 a b c i j k l) := by
  have h1 : k + c * l < c * d := flat_lt hk hl
  have h2 : j + b * (k + c * l) < b * (c * d) := flat_lt hj h1
  have h3 : i + a * (j + b * (k + c * l)) < a * (b * (c * d)) := flat_lt hi h2
  have h4 : a * (b * (c * d)) = a * b * c * d := by ring
  have ha : 0 < a := by omega
  have hb : 0 < b := by omega
  have h5 : k + c * l ≤ b * (k + c * l) := Nat.le_mul_of_pos_left _ hb
  have h6 : j + b * (k + c * l) ≤ a * (j + b * (k + c * l)) := Nat.le_mul_of_pos_left _ ha
  have h7 : i + a * (j + b * (k + c * l)) ≤ largest := by omega
  unfold Ten4.at place4
  simp only []
  rw [mulI_nat (by omega : c * l ≤ largest), bind_ok,
    addI_nat (by omega : k + c * l ≤ largest), bind_ok,
    mulI_nat (by omega : b * (k + c * l) ≤ largest), bind_ok,
    addI_nat (by omega : j + b * (k + c * l) ≤ largest), bind_ok,
    mulI_nat (by omega : a * (j + b * (k + c * l)) ≤ largest), bind_ok,
    addI_nat h7, bind_ok, element_nat (by omega) h7]
  congr 1; ring

/-! ## A single configuration -/

theorem makeOdd_nat {n : Nat} (h : n ≤ largest) :
    makeOdd (n : Int) = .ok ((if n % 2 = 0 then n + 1 else n : Nat) : Int) := by
  unfold makeOdd
  have e : Int.tmod (n : Int) 2 = ((n % 2 : Nat) : Int) := by
    rw [Int.tmod_eq_emod_of_nonneg (by omega)]; omega
  rw [e]
  by_cases hn : n % 2 = 0
  · have h1 : n + 1 ≤ largest := by unfold largest at *; omega
    rw [if_pos (by omega), if_pos hn]
    exact addI_nat (b := 1) h1
  · rw [if_neg (by omega), if_neg hn]

theorem square_le {n : Nat} (h : n ≤ 46340) : n * n ≤ largest :=
  le_trans (Nat.mul_le_mul h h) (by unfold largest; norm_num)

theorem square_gt {n : Nat} (h : 46341 ≤ n) : largest < n * n :=
  lt_of_lt_of_le (by unfold largest; norm_num) (Nat.mul_le_mul h h)

/-! ## The scan of multi-stage optimizations -/

theorem nScanAll_nat (ns : List Nat) (h2 : ∀ n ∈ ns, 2 ≤ n) :
    ∀ acc : Nat, 1 ≤ acc →
      (acc * ns.prod ≤ largest →
        nScanAll (ns.map fun n : Nat => (n : Int)) acc = .ok ((acc * ns.prod : Nat) : Int)) ∧
      (largest < acc * ns.prod → acc ≤ largest →
        nScanAll (ns.map fun n : Nat => (n : Int)) acc = .undefined) := by
  induction ns with
  | nil =>
    intro acc _
    simp only [List.prod_nil, Nat.mul_one, List.map_nil]
    exact ⟨fun _ => rfl, fun h1 h2 => absurd h1 (by omega)⟩
  | cons n ns ih =>
    intro acc ha
    have hn : 2 ≤ n := h2 n (by simp)
    have hp : 1 ≤ ns.prod := by
      have : ∀ l : List Nat, (∀ m ∈ l, 2 ≤ m) → 1 ≤ l.prod := by
        intro l hl
        induction l with
        | nil => simp
        | cons m l ih =>
          rw [List.prod_cons]
          exact Nat.mul_pos (by have := hl m (by simp); omega)
            (ih fun k hk => hl k (by simp [hk]))
      exact this ns fun m hm => h2 m (by simp [hm])
    have hstep := ih (fun m hm => h2 m (by simp [hm])) (acc * n) (Nat.mul_pos ha (by omega))
    rw [List.prod_cons, ← Nat.mul_assoc]
    have hlt : ¬ ((n : Int) < 2) := by omega
    refine ⟨fun h => ?_, fun h hacc => ?_⟩
    · have h1 : acc * n ≤ largest := le_trans (Nat.le_mul_of_pos_right _ hp) h
      rw [List.map_cons, nScanAll, if_neg hlt, mulI_nat h1, bind_ok]
      exact hstep.1 h
    · rw [List.map_cons, nScanAll, if_neg hlt]
      rcases Nat.lt_or_ge largest (acc * n) with h1 | h1
      · rw [mulI_big h1, bind_undefined]
      · rw [mulI_nat h1, bind_ok]
        exact hstep.2 h h1

theorem intLoop_nat (k : Nat) : ∀ j : Nat, j + k ≤ largest →
    intLoop k (j : Int) = .ok ((List.range k).map fun i => ((j + i : Nat) : Int)) := by
  induction k with
  | zero => intro j _; rfl
  | succ k ih =>
    intro j h
    have e : addI (j : Int) 1 = .ok ((j + 1 : Nat) : Int) :=
      addI_nat (a := j) (b := 1) (by omega)
    have e2 : ((List.range (k + 1)).map fun i => ((j + i : Nat) : Int))
        = (j : Int) :: ((List.range k).map fun i => ((j + 1 + i : Nat) : Int)) := by
      rw [List.range_succ_eq_map, List.map_cons, List.map_map]
      refine congrArg₂ List.cons rfl (List.map_congr_left fun i _ => ?_)
      simp only [Function.comp]
      push_cast; ring
    rw [intLoop, e, bind_ok, ih (j + 1) (by omega), bind_ok, e2]

theorem column_nat (place : Int → Out Nat) (f : Nat → Nat) (k : Nat) : ∀ j : Nat,
    (∀ i, i < k → place ((j + i : Nat) : Int) = .ok (f (j + i))) →
    column place k (j : Int) = .ok ((List.range k).map fun i => f (j + i)) := by
  induction k with
  | zero => intro j _; rfl
  | succ k ih =>
    intro j h
    have h0 := h 0 (by omega)
    rw [Nat.add_zero] at h0
    have e : ((j : Int) + 1) = ((j + 1 : Nat) : Int) := by push_cast; rfl
    rw [column, h0, bind_ok, e, ih (j + 1) (fun i hi => by
      have := h (i + 1) (by omega)
      rwa [show j + (i + 1) = j + 1 + i from by omega] at this), bind_ok]
    congr 1
    rw [List.range_succ_eq_map, List.map_cons, List.map_map]
    congr 1
    apply List.map_congr_left
    intro i _
    simp only [Function.comp]
    congr 1; omega

theorem storeAll_nat (store : Int → Out (List Nat × List Nat)) (f : Nat → List Nat × List Nat)
    (js : List Nat) (h : ∀ j ∈ js, store (j : Int) = .ok (f j)) :
    storeAll store (js.map fun j : Nat => (j : Int)) = .ok (js.map fun j : Nat => ((j : Int), f j)) := by
  induction js with
  | nil => rfl
  | cons j js ih =>
    rw [List.map_cons, storeAll, h j (by simp), bind_ok, ih fun k hk => h k (by simp [hk]), bind_ok,
      List.map_cons]

theorem range_split (p n : Nat) (h : p ≤ n) :
    ((List.range p).map fun i => ((0 + i : Nat) : Int))
      ++ ((List.range (n - p)).map fun i => ((p + i : Nat) : Int))
      = (List.range n).map fun i : Nat => (i : Int) := by
  obtain ⟨m, rfl⟩ : ∃ m, n = p + m := ⟨n - p, by omega⟩
  rw [List.range_add, List.map_append, List.map_map, show p + m - p = m from by omega]
  congr 1
  apply List.map_congr_left
  intro i _
  rw [Nat.zero_add]

end Qsc.MachineInt
