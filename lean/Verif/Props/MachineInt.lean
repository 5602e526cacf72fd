import Verif.Lemmas.MachineInt

/-!
# C99: for which sizes the integer arithmetic of the arrays is right

Sizes and indices are computed in 32-bit `int`, where overflow is undefined behaviour.  The theorems
give the exact limits, for arrays of two, three and four dimensions, for a single configuration, for
a scan of multi-stage optimizations and for a random scan.
-/

namespace Qsc.MachineInt

open Qsc.Spec.MachineInt

/-- **C99**, arrays: an array of two, three or four dimensions can be made exactly if its number of
elements is at most `INT_MAX`; otherwise making it is undefined behaviour.  In an array that was
made, every element with indices in range is found without overflow at its own place. -/
theorem arrays_fit (mem : Nat → Bool) (hm : Enough mem) :
    (∀ r c : Nat, if r * c ≤ largest
      then ∃ a, Mat.resize mem r c = .ok a ∧ a.size = r * c ∧
        ∀ m n : Nat, m < r → n < c → a.at m n = .ok (place2 r m n)
      else Mat.resize mem r c = .undefined) ∧
    (∀ d1 d2 d3 : Nat, 0 < d3 → if d1 * d2 * d3 ≤ largest
      then ∃ a, Ten3.resize mem d1 d2 d3 = .ok a ∧ a.size = d1 * d2 * d3 ∧
        ∀ i j k : Nat, i < d1 → j < d2 → k < d3 → a.at i j k = .ok (place3 d1 d2 i j k)
      else Ten3.resize mem d1 d2 d3 = .undefined) ∧
    (∀ d1 d2 d3 d4 : Nat, 0 < d3 → 0 < d4 → if d1 * d2 * d3 * d4 ≤ largest
      then ∃ a, Ten4.resize mem d1 d2 d3 d4 = .ok a ∧ a.size = d1 * d2 * d3 * d4 ∧
        ∀ i j k l : Nat, i < d1 → j < d2 → k < d3 → l < d4 →
          a.at i j k l = .ok (place4 d1 d2 d3 i j k l)
      else Ten4.resize mem d1 d2 d3 d4 = .undefined) := by
  refine ⟨fun r c => ?_, fun d1 d2 d3 h3 => ?_, fun d1 d2 d3 d4 h3 h4 => ?_⟩
  · split
    · rename_i h
      exact ⟨_, resize_nat hm h, rfl, fun m n h1 h2 => at_nat h h1 h2⟩
    · exact resize_big (by omega)
  · split
    · rename_i h
      exact ⟨_, resize3_nat hm h3 h, rfl, fun i j k h1 h2 h3 => at3_nat h h1 h2 h3⟩
    · exact resize3_big (by omega)
  · split
    · rename_i h
      exact ⟨_, resize4_nat hm h3 h4 h, rfl, fun i j k l h1 h2 h3 h4 => at4_nat h h1 h2 h3 h4⟩
    · exact resize4_big (by omega)

/-- The places are different for different elements, and below the number of elements. -/
theorem places_distinct (r c m n m' n' : Nat) (h : m < r) (h' : m' < r) (hn : n < c) :
    place2 r m n < r * c ∧ (place2 r m n = place2 r m' n' → m = m' ∧ n = n') := by
  unfold place2
  refine ⟨by have := flat_lt h hn; rw [Nat.mul_comm n r]; omega, fun e => ?_⟩
  have hr : 0 < r := by omega
  have e1 : (n * r + m) % r = (n' * r + m') % r := by rw [e]
  rw [Nat.mul_comm, Nat.mul_add_mod, Nat.mod_eq_of_lt h, Nat.mul_comm n' r, Nat.mul_add_mod,
    Nat.mod_eq_of_lt h'] at e1
  subst e1
  exact ⟨rfl, Nat.eq_of_mul_eq_mul_right hr (by omega)⟩

/-- **C99**, single configuration: for every `nphi` that an `int` can hold, the arrays of a run at
first order can be made exactly if `nphi` ≤ 46339, at second order exactly if `nphi` ≤ 23169; above
that, `allocate` has undefined behaviour.  The increment that makes `nphi` odd never overflows. -/
theorem allocate_fits (mem : Nat → Bool) (hm : Enough mem) (nphi : Nat) (h : nphi ≤ largest)
    (r2 : Bool) :
    allocate mem nphi r2 =
      if nphi ≤ (if r2 then 23169 else 46339)
      then .ok (((if nphi % 2 = 0 then nphi + 1 else nphi) : Nat) : Int) else .undefined := by
  have hL : largest = 2147483647 := rfl
  unfold allocate
  rw [makeOdd_nat h, bind_ok]
  obtain ⟨n, hn⟩ : ∃ n, n = (if nphi % 2 = 0 then nphi + 1 else nphi) := ⟨_, rfl⟩
  rw [← hn]
  have hodd : n % 2 = 1 ∧ nphi ≤ n ∧ n ≤ nphi + 1 ∧ n ≤ largest := by
    rw [hn]
    split <;> omega
  rw [vec_nat hm hodd.2.2.2, bind_ok]
  rcases Nat.lt_or_ge 46339 n with h1 | h1
  · rw [resize_big (square_gt (by omega)), bind_undefined, if_neg]
    split <;> omega
  rw [resize_nat hm (square_le (by omega)), bind_ok]
  rw [show addI (n : Int) 1 = .ok ((n + 1 : Nat) : Int) from addI_nat (a := n) (b := 1) (by omega),
    bind_ok, vec_nat hm (by omega), bind_ok]
  rw [show Ten3.resize mem (n : Int) 3 3 = .ok _ from
    resize3_nat (b := 3) (c := 3) hm (by norm_num) (by omega), bind_ok]
  cases r2 with
  | false =>
    rw [if_neg (by simp), if_pos]
    simp only [Bool.false_eq_true, if_false]
    omega
  | true =>
    rw [if_pos rfl, show mulI 2 (n : Int) = .ok ((2 * n : Nat) : Int) from
      mulI_nat (a := 2) (by omega), bind_ok, bind_ok]
    simp only [if_true]
    rcases Nat.lt_or_ge 23169 n with h2 | h2
    · rw [resize_big (square_gt (by omega)), bind_undefined, if_neg (by omega)]
    · rw [resize_nat hm (square_le (by omega)), bind_ok, bind_ok, vec_nat hm (by omega), bind_ok,
        show Ten4.resize mem (n : Int) 3 3 3 = .ok _ from
          resize4_nat (b := 3) (c := 3) (d := 3) hm (by norm_num) (by norm_num) (by omega), bind_ok,
        if_pos (by omega)]

/-- **C99**, scan of multi-stage optimizations: with `k` + 1 processes and at least as many points
as workers, the scan stores every number of every point at its own place exactly if the number of
points times the number of values per point (58 + 8 for each Fourier mode) is at most `INT_MAX`;
otherwise it has undefined behaviour. -/
theorem multi_scan_fits (mem : Nat → Bool) (hm : Enough mem) (ns : List Nat) (h2 : ∀ n ∈ ns, 2 ≤ n)
    (k modes : Nat) (hk : 1 ≤ k) (hk' : k ≤ ns.prod) :
    multiScan mem (k + 1) (ns.map fun n : Nat => (n : Int)) modes =
      if (58 + 8 * modes) * ns.prod ≤ largest then .ok (stored (58 + 8 * modes) ns.prod)
      else .undefined := by
  have hL : largest = 2147483647 := rfl
  obtain ⟨N, hN⟩ : ∃ N, N = ns.prod := ⟨_, rfl⟩
  have hS := nScanAll_nat ns h2 1 (by omega)
  rw [Nat.one_mul, ← hN] at hS
  rw [← hN] at hk' ⊢
  obtain ⟨P, hP⟩ : ∃ P, P = 58 + 8 * modes := ⟨_, rfl⟩
  have hPN : N ≤ P * N := Nat.le_mul_of_pos_left _ (by omega)
  have hPP : P ≤ P * N := Nat.le_mul_of_pos_right _ (by omega)
  have h4 : 4 * N ≤ P * N := Nat.mul_le_mul_right N (by omega)
  unfold multiScan
  rw [← hP]
  rcases Nat.lt_or_ge largest N with hbig | hbig
  · rw [show nScanAll (ns.map fun n : Nat => (n : Int)) 1 = .undefined from
      hS.2 hbig (by omega), bind_undefined, if_neg (by omega)]
  rw [show nScanAll (ns.map fun n : Nat => (n : Int)) 1 = .ok (N : Int) from hS.1 hbig, bind_ok]
  have hpar : nParameters (modes : Int) = if P ≤ largest then .ok (P : Int) else .undefined := by
    unfold nParameters
    rcases Nat.lt_or_ge largest (modes * 8) with h8 | h8
    · rw [show mulI (modes : Int) 8 = .undefined from mulI_big (b := 8) h8, bind_undefined,
        if_neg (by omega)]
    · rw [show mulI (modes : Int) 8 = .ok ((modes * 8 : Nat) : Int) from mulI_nat (b := 8) h8,
        bind_ok]
      split
      · rw [show addI 58 ((modes * 8 : Nat) : Int) = .ok ((58 + modes * 8 : Nat) : Int) from
          addI_nat (a := 58) (by omega), hP, Nat.mul_comm]
      · exact addI_big (a := 58) (by omega)
  rw [hpar]
  rcases Nat.lt_or_ge largest P with hPb | hPb
  · rw [if_neg (by omega), bind_undefined, if_neg (by omega)]
  rw [if_pos hPb, bind_ok, if_neg (by omega), if_neg (by omega)]
  rcases Nat.lt_or_ge largest (P * N) with hb | hb
  · rw [resize_big hb, bind_undefined, if_neg (by omega)]
  have e1 : ((k : Int) + 1 - 1).toNat = k := by omega
  have e2 : ((N : Int) - ((k : Int) + 1 - 1)).toNat = N - k := by omega
  have e3 : (k : Int) + 1 - 1 = (k : Int) := by omega
  rw [if_pos hb, resize_nat hm hb, bind_ok,
    show mulI 4 (N : Int) = .ok ((4 * N : Nat) : Int) from mulI_nat (a := 4) (by omega), bind_ok,
    vec_nat hm (by omega), bind_ok, e1, e2, e3,
    show intLoop k 0 = .ok _ from intLoop_nat k 0 (by omega), bind_ok,
    intLoop_nat (N - k) k (by omega), bind_ok, range_split k N hk',
    storeAll_nat (f := fun s => ((List.range P).map (fun j => place2 P j s),
      (List.range 4).map (fun j => place2 4 j s)))]
  · rfl
  · intro s hs
    rw [List.mem_range] at hs
    have c1 : column (fun j => Mat.at ⟨P, N, P * N⟩ j (s : Int)) P 0
        = .ok ((List.range P).map fun j => place2 P (0 + j) s) :=
      column_nat _ (fun j => place2 P j s) P 0 fun i hi => by
        rw [Nat.zero_add]; exact at_nat hb hi hs
    have c2 : column (fun j => (mulI 4 (s : Int)).bind fun x => (addI j x).bind fun i =>
          element (4 * N) i) 4 0
        = .ok ((List.range 4).map fun j => place2 4 (0 + j) s) :=
      column_nat _ (fun j => place2 4 j s) 4 0 fun i hi => by
        rw [Nat.zero_add, show mulI 4 (s : Int) = .ok ((4 * s : Nat) : Int) from
          mulI_nat (a := 4) (by omega), bind_ok, addI_nat (by omega), bind_ok,
          element_nat (by omega) (by omega)]
        unfold place2; congr 1; ring
    simp only [Nat.zero_add] at c1 c2
    simp only [Int.toNat_natCast]
    rw [c1, bind_ok, c2, bind_ok]

/-- **C99**, random scan, beginning: process `rank` sets up its arrays and its random sequences
exactly if the arrays for the configurations it may keep and its first position in the sequences
(plus 7) are at most `INT_MAX`; otherwise it has undefined behaviour. -/
theorem random_start_fits (mem : Nat → Bool) (hm : Enough mem)
    (rank attempts keep modes : Nat) (hk : keep ≤ largest) :
    if 4 * modes ≤ largest ∧ 20 * keep ≤ largest ∧ 4 * modes * keep ≤ largest ∧
        rank * attempts + 7 ≤ largest
    then ∃ a b, randomStart mem rank attempts keep modes = .ok (a, b, keep) ∧
      (∀ m n : Nat, m < 20 → n < keep → a.at m n = .ok (place2 20 m n)) ∧
      (∀ m n : Nat, m < 4 * modes → n < keep → b.at m n = .ok (place2 (4 * modes) m n))
    else randomStart mem rank attempts keep modes = .undefined := by
  have hL : largest = 2147483647 := rfl
  unfold randomStart
  rw [Nat.mul_comm 4 modes]
  rcases Nat.lt_or_ge largest (modes * 4) with h1 | h1
  · rw [if_neg (by omega), show mulI (modes : Int) 4 = .undefined from mulI_big (b := 4) h1,
      bind_undefined]
  rw [show mulI (modes : Int) 4 = .ok ((modes * 4 : Nat) : Int) from mulI_nat (b := 4) h1, bind_ok]
  rcases Nat.lt_or_ge largest (20 * keep) with h2 | h2
  · rw [if_neg (by omega), show Mat.resize mem 20 (keep : Int) = .undefined from
      resize_big (r := 20) h2, bind_undefined]
  rw [show Mat.resize mem 20 (keep : Int) = .ok ⟨(20 : Nat), keep, 20 * keep⟩ from
    resize_nat (r := 20) hm h2, bind_ok]
  rcases Nat.lt_or_ge largest (modes * 4 * keep) with h3 | h3
  · rw [if_neg (by omega), resize_big h3, bind_undefined]
  rw [resize_nat hm h3, bind_ok, show mulI 1 (keep : Int) = .ok ((1 * keep : Nat) : Int) from
    mulI_nat (a := 1) (by omega), bind_ok, Nat.one_mul, vec_nat hm hk, bind_ok]
  rcases Nat.lt_or_ge largest (rank * attempts) with h4 | h4
  · rw [if_neg (by omega), mulI_big h4, bind_undefined]
  rw [mulI_nat h4, bind_ok]
  rcases Nat.lt_or_ge largest (rank * attempts + 7) with h5 | h5
  · rw [if_neg (by omega), show addI ((rank * attempts : Nat) : Int) 7 = .undefined from
      addI_big (b := 7) h5, bind_undefined]
  rw [if_pos ⟨h1, h2, h3, h5⟩, show addI ((rank * attempts : Nat) : Int) 7 = .ok _ from
    addI_nat (b := 7) h5, bind_ok]
  exact ⟨_, _, rfl, fun m n a b => at_nat h2 a b, fun m n a b => at_nat h3 a b⟩

/-- **C99**, random scan, end: for every total number of configurations kept by all processes (a
64-bit number), process 0 has arrays in which every number of every configuration can be found
exactly if the numbers in each of the two arrays are at most `INT_MAX`. -/
theorem collect_fits (mem : Nat → Bool) (hm : Enough mem) (total fourier : Nat)
    (hf : 4 ≤ fourier) :
    (∃ a b c, collectArrays mem total fourier = .ok (a, b, c) ∧
      (∀ m n : Nat, m < 20 → n < total → ∃ i, a.at m n = .ok i) ∧
      (∀ m n : Nat, m < fourier → n < total → ∃ i, b.at m n = .ok i)) ↔
    20 * total ≤ largest ∧ fourier * total ≤ largest := by
  have hL : largest = 2147483647 := rfl
  have small : total ≤ largest → toInt total = (total : Int) := by
    intro h
    unfold toInt
    rw [Nat.mod_eq_of_lt (by omega), if_pos (by omega)]
  constructor
  · rintro ⟨a, b, c, he, ha, hb⟩
    rcases Nat.eq_zero_or_pos total with h0 | h0
    · subst h0; omega
    -- the last element of each array
    have key : ∀ (r : Nat) (x : Mat), 4 ≤ r → x.nrows = r →
        (∀ m n : Nat, m < r → n < total → ∃ i, x.at m n = .ok i) → r * (total - 1) ≤ largest := by
      intro r x hr hx hall
      obtain ⟨i, hi⟩ := hall (r - 1) (total - 1) (by omega) (by omega)
      by_contra hc
      unfold Mat.at at hi
      rw [hx, mulI_big (by omega), bind_undefined] at hi
      cases hi
    have rows : ∀ (r : Int) (x : Mat) (cols : Int), Mat.resize mem r cols = .ok x → x.nrows = r := by
      intro r x cols h
      unfold Mat.resize at h
      cases h1 : mulI r cols with
      | ok l =>
        rw [h1, bind_ok] at h
        cases h2 : alloc mem (toSize l) with
        | ok s => rw [h2, bind_ok] at h; cases h; rfl
        | undefined => rw [h2] at h; cases h
        | badAlloc => rw [h2] at h; cases h
        | error m => rw [h2] at h; cases h
      | undefined => rw [h1] at h; cases h
      | badAlloc => rw [h1] at h; cases h
      | error m => rw [h1] at h; cases h
    unfold collectArrays at he
    cases h1 : Mat.resize mem 20 (toInt total) with
    | undefined => rw [h1] at he; cases he
    | badAlloc => rw [h1] at he; cases he
    | error m => rw [h1] at he; cases he
    | ok a' =>
    rw [h1, bind_ok] at he
    cases h2 : Mat.resize mem (fourier : Int) (toInt total) with
    | undefined => rw [h2] at he; cases he
    | badAlloc => rw [h2] at he; cases he
    | error m => rw [h2] at he; cases he
    | ok b' =>
    rw [h2, bind_ok] at he
    have hab : a' = a ∧ b' = b := by
      cases h3 : alloc mem (1 * total % 18446744073709551616) with
      | ok s => rw [h3, bind_ok] at he; cases he; exact ⟨rfl, rfl⟩
      | undefined => rw [h3] at he; cases he
      | badAlloc => rw [h3] at he; cases he
      | error m => rw [h3] at he; cases he
    obtain ⟨rfl, rfl⟩ := hab
    have ka := key 20 a' (by omega) (rows _ _ _ h1) ha
    have kb := key fourier b' hf (rows _ _ _ h2) hb
    have ht : total ≤ largest := by omega
    rw [small ht] at h1 h2
    constructor
    · by_contra hc
      rw [show Mat.resize mem 20 (total : Int) = .undefined from
        resize_big (r := 20) (by omega)] at h1
      cases h1
    · by_contra hc
      rw [resize_big (by omega)] at h2
      cases h2
  · rintro ⟨h1, h2⟩
    have ht : total ≤ largest := by omega
    unfold collectArrays
    rw [small ht, show Mat.resize mem 20 (total : Int) = .ok ⟨(20 : Nat), total, 20 * total⟩ from
      resize_nat (r := 20) hm h1, bind_ok, resize_nat hm h2, bind_ok, Nat.one_mul,
      Nat.mod_eq_of_lt (by omega), alloc_nat hm ht, bind_ok]
    exact ⟨_, _, _, rfl, fun m n a b => ⟨_, at_nat h1 a b⟩, fun m n a b => ⟨_, at_nat h2 a b⟩⟩

/-- **C99.** A negative `nphi` is turned into a huge size, which no machine can provide: the run ends with the
exception of the allocation. -/
theorem negative_refused (mem : Nat → Bool) (hm : ∀ s, 2 ^ 63 ≤ s → mem s = false) (nphi : Int) (h : nphi < 0)
    (h' : -(largest : Int) - 1 ≤ nphi) (r2 : Bool) : allocate mem nphi r2 = .badAlloc := by
  have hL : (largest : Int) = 2147483647 := rfl
  have ho : ∃ n : Int, makeOdd nphi = .ok n ∧ n < 0 ∧ -2147483648 ≤ n := by
    unfold makeOdd
    split
    · rename_i e
      have hne : nphi ≠ -1 := by rintro rfl; exact absurd e (by decide)
      refine ⟨nphi + 1, ?_, by omega, by omega⟩
      unfold addI chk
      rw [if_pos ⟨by unfold intMin; omega, by unfold intMax; omega⟩]
    · exact ⟨nphi, rfl, h, by omega⟩
  obtain ⟨n, h1, h2, h3⟩ := ho
  have hs : mem (toSize n) = false := by
    apply hm
    unfold toSize
    have : n % 18446744073709551616 = n + 18446744073709551616 := by omega
    rw [this]
    omega
  simp only [allocate, h1, Out.bind, vec, alloc, hs, Bool.false_eq_true, if_false]

/-- **C99.** Conversions: a `big` becomes the `int`, and an `int` the `size_t`, that differs from it by a multiple of
the number of values of the new type. -/
theorem conversions (u : Nat) (x : Int) :
    (-(largest : Int) - 1 ≤ toInt u ∧ toInt u ≤ largest ∧ (2 ^ 32 : Int) ∣ u - toInt u) ∧
    (toSize x < 2 ^ 64 ∧ (2 ^ 64 : Int) ∣ x - toSize x) := by
  have hL : (largest : Int) = 2147483647 := rfl
  unfold toInt toSize
  refine ⟨?_, by omega, by omega⟩
  split <;> refine ⟨by omega, by omega, by omega⟩

/-! ## Examples -/

/-- Three thousand million configurations become a negative number of columns. -/
example : toInt 3000000000 = -1294967296 := by
  have h := (conversions 3000000000 0).1
  have hL : (largest : Int) = 2147483647 := rfl
  omega

/-- A machine with room for every array that an `int` can count. -/
def room : Nat → Bool := fun s => decide (s ≤ largest)

theorem room_enough : Enough room := fun s h => by unfold room; exact decide_eq_true h

/-- With `nphi` = -8 nothing is calculated. -/
example : allocate (fun s => decide (s < 2 ^ 40)) (-8) false = .badAlloc :=
  negative_refused _ (fun s h => decide_eq_false (by omega)) (-8) (by decide) (by decide) false

/-- A run at second order with `nphi` = 61 has room; with `nphi` = 30000 only at first order. -/
example : allocate room 61 true = .ok 61 := allocate_fits room room_enough 61 (by decide) true

example : allocate room 30000 false = .ok 30001 :=
  allocate_fits room room_enough 30000 (by decide) false

example : allocate room 30000 true = .undefined :=
  allocate_fits room room_enough 30000 (by decide) true

/-- A scan over five parameters with 20 values each (3.2 million points, 8 modes, 390.4 million
numbers) fits. -/
example : multiScan room 129 [20, 20, 20, 20, 20] 8 = .ok (stored 122 3200000) :=
  multi_scan_fits room room_enough [20, 20, 20, 20, 20] (by decide) 128 8 (by decide) (by decide)

/-- With 30 values each (24.3 million points) the array would have 2.96 thousand million numbers:
undefined behaviour, although the machine may have the memory. -/
example : multiScan (fun _ => true) 129 [30, 30, 30, 30, 30] 8 = .undefined :=
  multi_scan_fits (fun _ => true) (fun _ _ => rfl) [30, 30, 30, 30, 30] (by decide) 128 8
    (by decide) (by decide)

/-- A random scan on 400 processes with ten million attempts each: process 215 overflows at the very
beginning, although every number in the input file is small. -/
example : randomStart room 215 10000000 1000 4 = .undefined :=
  random_start_fits room room_enough 215 10000000 1000 4 (by decide)

example : ∃ a b, randomStart room 214 10000000 1000 4 = .ok (a, b, 1000) := by
  obtain ⟨a, b, h, -⟩ := random_start_fits room room_enough 214 10000000 1000 4 (by decide)
  exact ⟨a, b, h⟩

/-- Two hundred million configurations kept in all do not fit, one hundred million do. -/
example : (¬ ∃ a b c, collectArrays room 200000000 16 = .ok (a, b, c) ∧
      (∀ m n : Nat, m < 20 → n < 200000000 → ∃ i, a.at m n = .ok i) ∧
      (∀ m n : Nat, m < 16 → n < 200000000 → ∃ i, b.at m n = .ok i)) ∧
    (∃ a b c, collectArrays room 100000000 16 = .ok (a, b, c) ∧
      (∀ m n : Nat, m < 20 → n < 100000000 → ∃ i, a.at m n = .ok i) ∧
      (∀ m n : Nat, m < 16 → n < 100000000 → ∃ i, b.at m n = .ok i)) :=
  ⟨fun h => absurd ((collect_fits room room_enough 200000000 16 (by decide)).1 h) (by decide),
    (collect_fits room room_enough 100000000 16 (by decide)).2 (by decide)⟩

/-- A total of 2^32 configurations is converted to 0: the array is empty, and storing the first
number in it is undefined behaviour. -/
example : Mat.resize room 20 (toInt 4294967296) = .ok ⟨20, 0, 0⟩ ∧
    Mat.at ⟨20, 0, 0⟩ 0 0 = .undefined := by decide

end Qsc.MachineInt
