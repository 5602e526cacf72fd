import Verif.Lemmas.OptResid
import Std.Data.String.ToNat
import Mathlib.Algebra.BigOperators.Group.List.Basic
import Mathlib.Algebra.Order.BigOperators.Group.List
import Mathlib.Algebra.BigOperators.Ring.List
import Mathlib.Analysis.Real.Sqrt
import Mathlib.Tactic.Ring
import Mathlib.Tactic.Linarith
import Mathlib.Tactic.FieldSimp
import Mathlib.Tactic.Positivity
import Mathlib.Algebra.BigOperators.Field
import Mathlib.Algebra.Order.Ring.Rat

/-!
# Properties C29 and C30: the optimizer's residual vector and objective

`Entries o w nphi es` says that `es` lists the entries `(target, m)` of the targets with positive
weight in the documented order; there is exactly one such list.
-/

namespace Qsc.OptResid

open Qsc.OptState (Err)
open Qsc.Spec.OptResid

section
variable {K : Type}

theorem name_injective (a b : Block) (h : a.name = b.name) : a = b := by
  cases a <;> cases b <;> first | rfl | exact absurd h (by decide)

theorem label_prefix (b : Block) (m : Nat) :
    (b.label m).toList.takeWhile (· != '[') = b.name.toList := by
  cases b <;> simp [Block.label, Block.name, Block.single]

/-- Different entries have different names. -/
theorem label_injective (nphi : Nat) (a b : Block) (m k : Nat) (hm : m < a.size nphi)
    (hk : k < b.size nphi) (h : a.label m = b.label k) : a = b ∧ m = k := by
  have hab : a = b := by
    refine name_injective a b (String.toList_inj.1 ?_)
    rw [← label_prefix a m, ← label_prefix b k, h]
  subst hab
  refine ⟨rfl, ?_⟩
  unfold Block.label at h
  cases hs : a.single with
  | true => simp [Block.size, hs] at hm hk; omega
  | false =>
    simp only [hs, Bool.false_eq_true, if_false, String.append_left_inj, String.append_right_inj]
      at h
    exact Nat.repr_injective h

/-- The number of terms and their names: exactly the entries of the targets with positive weight, in
order, under different names; refused if there is none. -/
theorem names_entries [Zero K] (o : Ops K) (w : Weights K) (nphi : Nat) :
    ∃ es, Entries o w nphi es ∧ (es.map fun e => e.1.label e.2).Nodup ∧
      initResiduals o w nphi = if es = [] then
        .error (.throw "There must be at least 1 residual term.")
        else .ok (es.length, es.map fun e => e.1.label e.2) := by
  have hok := entries_ok o w nphi
  refine ⟨_, hok, ?_, ?_⟩
  · have hp : (entries o w nphi).Pairwise fun x y => x ≠ y := hok.sorted.imp (by
      rintro x y h rfl; exact Before.asymm h h)
    refine List.pairwise_map.2 (hp.imp_of_mem ?_)
    rintro ⟨a, m⟩ ⟨b, k⟩ ha hb hne he
    obtain ⟨rfl, rfl⟩ := label_injective nphi a b m k ((hok.mem ..).1 ha).2
      ((hok.mem ..).1 hb).2 he
    exact hne rfl
  · rw [initResiduals_eq]
    cases entries o w nphi <;> simp

theorem entries_determined [Zero K] {o : Ops K} {w : Weights K} {nphi : Nat}
    {es fs : List (Block × Nat)} (h : Entries o w nphi es) (h' : Entries o w nphi fs) :
    es = fs := entries_unique h h'

/-- On a grid with at least one point the optimizer refuses exactly if no weight is positive. -/
theorem refused_iff [Zero K] (o : Ops K) (w : Weights K) (nphi : Nat) (hn : 0 < nphi) :
    initResiduals o w nphi = .error (.throw "There must be at least 1 residual term.") ↔
      ∀ b : Block, o.lt 0 (b.weight w) = false := by
  obtain ⟨es, h1, -, h3⟩ := names_entries o w nphi
  have hpos : ∀ b : Block, 0 < b.size nphi := by
    intro b
    cases b <;> simp [Block.size, Block.single, Block.comps] <;> omega
  rw [h3]
  constructor
  · intro h b
    by_contra hc
    have hm : (b, 0) ∈ es := (h1.mem b 0).2 ⟨by simpa using hc, hpos b⟩
    rw [if_neg (List.ne_nil_of_mem hm)] at h
    exact absurd h (by simp)
  · intro h
    have : es = [] := by
      refine List.eq_nil_iff_forall_not_mem.2 ?_
      rintro ⟨b, m⟩ hm
      have := ((h1.mem b m).1 hm).1
      rw [h b] at this
      exact absurd this (by simp)
    rw [if_pos this]

/-- With the declared number of terms every access is in bounds, every entry is written, and entry
`i` is the weighted value of the target that has name `i`. -/
theorem residual_entries [Zero K] [Add K] [Sub K] [Mul K] [Div K] (o : Ops K) (w : Weights K)
    (t : Targets K) (q : Phys K) {es : List (Block × Nat)} (h : Entries o w q.nphi es)
    (res : List K) (hr : res.length = es.length) :
    ∃ obj terms, setResiduals o es.length w t q res =
      .ok (obj, terms, es.map fun e => e.1.weight w * value o t q e.1 e.2) := by
  obtain rfl := entries_unique h (entries_ok o w q.nphi)
  exact ⟨_, _, setResiduals_eq o w t q res _ rfl hr⟩

end

/-! ## The objective, in exact arithmetic -/

section
variable {K : Type} [Field K] [LinearOrder K] [IsStrictOrderedRing K]

/-- Comparison and constants are exact; the square root stays arbitrary. -/
structure Exact (o : Ops K) : Prop where
  lt : ∀ a b, o.lt a b = true ↔ a < b
  half : o.half = 1 / 2

theorem sq_eq (ts : List K) (acc : K) : sq ts acc = acc + (ts.map fun x => x ^ 2).sum := by
  induction ts generalizing acc with
  | nil => simp [sq]
  | cons t ts ih =>
    have : sq (t :: ts) acc = sq ts (acc + t * t) := rfl
    rw [this, ih]
    simp only [List.map_cons, List.sum_cons]
    ring

theorem term_eq (o : Ops K) (t : Targets K) (q : Phys K) (b : Block) :
    term o t q b = ((List.range (b.size q.nphi)).map fun m => value o t q b m ^ 2).sum := by
  unfold term
  cases hs : b.single with
  | true => simp [Block.size, hs, pow_two]
  | false =>
    simp only [Bool.false_eq_true, if_false, sq_eq, zero_add, vals, List.map_map]
    rfl

theorem objLoop_eq (o : Ops K) (w : Weights K) (t : Targets K) (q : Phys K) (he : Exact o)
    (l : List Block) (acc : K) :
    objLoop o ((l.map (Block.weight w)).zip (l.map (term o t q))) acc = acc + 1 / 2 *
      ((l.flatMap (part o w q.nphi)).map fun e =>
        (e.1.weight w * value o t q e.1 e.2) ^ 2).sum := by
  induction l generalizing acc with
  | nil => simp [objLoop]
  | cons b l ih =>
    simp only [List.map_cons, List.zip_cons_cons, objLoop, ih, List.flatMap_cons, List.map_append,
      List.sum_append, he.half]
    unfold part
    split
    · rw [term_eq, List.map_map]
      have hsum : ∀ (c : K) (f : Nat → K) (ms : List Nat),
          (ms.map fun m => (c * f m) ^ 2).sum = c * c * (ms.map fun m => f m ^ 2).sum := by
        intro c f ms
        induction ms with
        | nil => simp
        | cons m ms ih => simp only [List.map_cons, List.sum_cons, ih]; ring
      have := hsum (b.weight w) (value o t q b) (List.range (b.size q.nphi))
      simp only [Function.comp_def, this]
      ring
    · simp

/-- The objective is half the sum of the squares of the residual vector. -/
theorem objective_half (o : Ops K) (he : Exact o) (w : Weights K) (t : Targets K) (q : Phys K)
    {es : List (Block × Nat)} (h : Entries o w q.nphi es) (res : List K)
    (hr : res.length = es.length) :
    ∃ obj terms res', setResiduals o es.length w t q res = .ok (obj, terms, res') ∧
      obj = 1 / 2 * (res'.map fun r => r ^ 2).sum ∧ 0 ≤ obj ∧
      (∀ b : Block, terms[b.rank]? =
        some ((List.range (b.size q.nphi)).map fun m => value o t q b m ^ 2).sum) := by
  obtain rfl := entries_unique h (entries_ok o w q.nphi)
  have hobj : objLoop o ((blocks.map (Block.weight w)).zip (blocks.map (term o t q))) 0 = 1 / 2 *
      (((entries o w q.nphi).map fun e => e.1.weight w * value o t q e.1 e.2).map
        fun r => r ^ 2).sum := by
    rw [objLoop_eq o w t q he, zero_add, List.map_map]
    rfl
  refine ⟨_, _, _, setResiduals_eq o w t q res _ rfl hr, hobj, ?_, fun b => ?_⟩
  · rw [hobj]
    refine mul_nonneg (by positivity) (List.sum_nonneg ?_)
    intro x hx
    obtain ⟨y, -, rfl⟩ := List.mem_map.1 hx
    positivity
  · rw [← term_eq]
    have hb : blocks[b.rank]? = some b := by cases b <;> rfl
    rw [List.getElem?_map, hb]
    rfl

/-- The bounds are one-sided: the entry is zero exactly if the bound is met. -/
theorem bounds_one_sided (o : Ops K) (he : Exact o) (t : Targets K) (q : Phys K) :
    (∀ m, 0 < frac o q m → (value o t q .R0 m = 0 ↔ t.min_R0 ≤ q.R0 m)) ∧
    (value o t q .d2_volume_d_psi2 0 = 0 ↔ q.d2_volume_d_psi2 ≤ t.max_d2_volume_d_psi2) ∧
    (value o t q .DMerc_times_r2 0 = 0 ↔ t.min_DMerc_times_r2 ≤ q.DMerc_times_r2) := by
  have key : ∀ a b c : K, 0 < c → ((if o.lt a b then c * (b - a) else 0) = 0 ↔ b ≤ a) := by
    intro a b c hc
    by_cases h : a < b
    · rw [if_pos ((he.lt a b).2 h)]
      have : c * (b - a) ≠ 0 := mul_ne_zero hc.ne' (sub_ne_zero.2 h.ne')
      simp [this, h]
    · rw [if_neg fun hc => h ((he.lt a b).1 hc)]
      simp [not_lt.1 h]
  refine ⟨fun m hm => key _ _ _ hm, ?_, ?_⟩
  · have := key t.max_d2_volume_d_psi2 q.d2_volume_d_psi2 1 one_pos
    simp only [one_mul] at this
    exact this
  · have := key q.DMerc_times_r2 t.min_DMerc_times_r2 1 one_pos
    simp only [one_mul] at this
    exact this

/-- The two-sided targets vanish exactly on target. -/
theorem target_zero_iff (o : Ops K) (t : Targets K) (q : Phys K) :
    (value o t q .iota 0 = 0 ↔ q.iota = t.target_iota) ∧
    (value o t q .axis_length 0 = 0 ↔ q.axis_length = t.target_axis_length) :=
  ⟨sub_eq_zero, sub_eq_zero⟩

end

/-- A configuration for the examples: a grid of three points, elongation 0, 1, 2, iota 5. -/
def exPhys : Phys ℚ :=
  { nphi := 3, nfp := 1, d_phi := 1, axis_length := 1, iota := 5, d2_volume_d_psi2 := 0,
    DMerc_times_r2 := 0, mean_R := 0, d_l_d_phi := fun _ => 1, B20_anomaly := fun _ => 0,
    elongation := fun k => k, curvature := fun _ => 0, R0 := fun _ => 0, B20 := fun _ => 0,
    r_hat_singularity_robust := fun _ => 0, X20 := fun _ => 0, X2s := fun _ => 0,
    X2c := fun _ => 0, Y20 := fun _ => 0, Y2s := fun _ => 0, Y2c := fun _ => 0,
    d_X20_d_varphi := fun _ => 0, d_X2s_d_varphi := fun _ => 0, d_X2c_d_varphi := fun _ => 0,
    d_Y20_d_varphi := fun _ => 0, d_Y2s_d_varphi := fun _ => 0, d_Y2c_d_varphi := fun _ => 0,
    d2_X20_d_varphi2 := fun _ => 0, d2_X2s_d_varphi2 := fun _ => 0,
    d2_X2c_d_varphi2 := fun _ => 0, d2_Y20_d_varphi2 := fun _ => 0,
    d2_Y2s_d_varphi2 := fun _ => 0, d2_Y2c_d_varphi2 := fun _ => 0, Z20 := fun _ => 0,
    Z2s := fun _ => 0, Z2c := fun _ => 0, d_Z20_d_varphi := fun _ => 0,
    d_Z2s_d_varphi := fun _ => 0, d_Z2c_d_varphi := fun _ => 0, X3c1 := fun _ => 0,
    Y3c1 := fun _ => 0, Y3s1 := fun _ => 0, d_X3c1_d_varphi := fun _ => 0,
    d_Y3c1_d_varphi := fun _ => 0, d_Y3s1_d_varphi := fun _ => 0,
    d2_X3c1_d_varphi2 := fun _ => 0, d2_Y3c1_d_varphi2 := fun _ => 0,
    d2_Y3s1_d_varphi2 := fun _ => 0, grad_B_tensor := fun _ => 0,
    grad_grad_B_tensor := fun _ => 0 }

/-- Weight 2 for the elongation and 3 for iota. -/
def exWeights : Weights ℚ := ⟨0, 3, 2, 0, 0, 0, 0, 0, 0, 0, 0, 0, 0, 0, 0, 0, 0, 0, 0, 0, 0⟩

def exOps : Ops ℚ := ⟨fun a b => decide (a < b), id, 1 / 2, fun n => n⟩

example : Exact exOps := ⟨fun _ _ => decide_eq_true_iff, rfl⟩

example : Entries exOps exWeights 3 [(.iota, 0), (.elongation, 0), (.elongation, 1),
    (.elongation, 2)] := by
  have h := entries_ok exOps exWeights 3
  rwa [show entries exOps exWeights 3 = [(.iota, 0), (.elongation, 0), (.elongation, 1),
    (.elongation, 2)] by decide +kernel] at h

example : (setResiduals exOps 4 exWeights ⟨1, 0, 0, 0, 0⟩ exPhys [0, 0, 0, 0]).toOption.map
    (fun r => (r.1, r.2.2)) = some (82, [12, 0, 2, 4]) := by decide +kernel

/-- A residual array allocated for another grid: writing outside it. -/
example : setResiduals exOps 2 exWeights ⟨1, 0, 0, 0, 0⟩ exPhys [0, 0] =
    .error (.undefined "residuals") := by rfl

/-- The square roots of the arclength fractions have squares that add up to one, if the axis length
is the sum computed in init_axis.cpp: sums over the grid are averages over the axis. -/
theorem fractions_sum (o : Ops ℝ) (hs : o.sqrt = Real.sqrt) (hN : ∀ n, o.ofNat n = (n : ℝ))
    (q : Phys ℝ) (hl : ∀ k, 0 < q.d_l_d_phi k) (hd : 0 < q.d_phi) (hf : 0 < q.nfp)
    (hn : 0 < q.nphi)
    (ha : q.axis_length = ((List.range q.nphi).map q.d_l_d_phi).sum * q.d_phi * q.nfp) :
    ((List.range q.nphi).map fun k => frac o q k ^ 2).sum = 1 := by
  have hfp : (0 : ℝ) < q.nfp := by exact_mod_cast hf
  have hsum : 0 < ((List.range q.nphi).map q.d_l_d_phi).sum := by
    refine List.sum_pos _ ?_ ?_
    · intro x hx
      obtain ⟨k, -, rfl⟩ := List.mem_map.1 hx
      exact hl k
    · simp; omega
  have hax : 0 < q.axis_length := by rw [ha]; positivity
  have h1 : ∀ k, frac o q k ^ 2 = q.d_l_d_phi k * (q.d_phi * q.nfp / q.axis_length) := by
    intro k
    rw [frac, hs, hN, Real.sq_sqrt]
    have := hl k
    positivity
  simp only [h1]
  rw [List.sum_map_mul_right, ha]
  field_simp

end Qsc.OptResid
