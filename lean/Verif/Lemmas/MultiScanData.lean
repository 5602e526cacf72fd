import Verif.Model.MultiScan
import Mathlib.Data.List.Induction
import Mathlib.Data.List.Count
import Mathlib.Data.List.Nodup
import Mathlib.Algebra.BigOperators.Group.List.Basic
import Mathlib.Tactic.Common

/-!
The global arrays of process 0 as a function of the list of results received so far.
-/

namespace Qsc.MultiScan

variable {F : Type} {W : Nat}

/-- What a report of index `i` looks like: index, pass flag, evaluations, helicity, then 17
counters of which the first is 1 and the second the pass flag. -/
structure RepOk (nPar : Nat) (i : Nat) (r : Report F) (passed : Bool) : Prop where
  len : r.ints.length = 21
  index : r.ints.getD 0 0 = (i : Int)
  flag : r.ints.getD 1 0 = if passed then 1 else 0
  attempts : r.ints.getD 4 0 = 1
  kept : r.ints.getD 5 0 = if passed then 1 else 0
  flts : r.flts.length = nPar

/-- The effect of storing the result of index `i` from worker `w`. -/
def Master.add (rep : Nat → Report F) (m : Master F) (x : Fin W × Nat) : Master F where
  params := m.params.set x.2 (rep x.2).flts
  ints := m.ints.set x.2 ((rep x.2).ints.take 4)
  filters := List.zipWith (· + ·) m.filters ((rep x.2).ints.drop 4)
  attemptsPerProc := m.attemptsPerProc.modify (x.1.succ : Fin (W + 1)) (· + 1)
  nSolvesKept := if 0 < ((rep x.2).ints.drop 4).getD 1 0
    then m.nSolvesKept.modify (x.1.succ : Fin (W + 1)) (· + 1) else m.nSolvesKept
  nEvals := m.nEvals + (rep x.2).ints.getD 2 0

/-- The arrays after the results in `log` arrived, in this order. -/
def stored (zero : F) (nPar n : Nat) (rep : Nat → Report F) (log : List (Fin W × Nat)) : Master F :=
  log.foldl (Master.add rep) (Master.init zero nPar n W)

theorem stored_append (zero : F) (nPar n : Nat) (rep : Nat → Report F) (log : List (Fin W × Nat))
    (x : Fin W × Nat) :
    stored zero nPar n rep (log ++ [x]) = (stored zero nPar n rep log).add rep x := by
  simp [stored]

/-- Rows of the stored arrays. -/
theorem stored_params (zero : F) (nPar n : Nat) (rep : Nat → Report F)
    (log : List (Fin W × Nat)) :
    (stored zero nPar n rep log).params = (List.range n).map fun i =>
      if i ∈ log.map Prod.snd then (rep i).flts else List.replicate nPar zero := by
  induction log using List.reverseRecOn with
  | nil => simp [stored, Master.init, List.map_const']
  | append_singleton l x ih =>
    rw [stored_append]
    show (stored zero nPar n rep l).params.set x.2 _ = _
    rw [ih]
    apply List.ext_getElem?
    intro i
    rw [List.getElem?_set, List.length_map, List.length_range]
    by_cases hi : i < n
    · rw [List.getElem?_map, List.getElem?_map, List.getElem?_range hi]
      simp only [Option.map_some, List.map_append, List.map_cons, List.map_nil, List.mem_append,
        List.mem_singleton]
      by_cases hx : x.2 = i
      · subst hx; simp [hi]
      · rw [if_neg hx]
        have : ¬ i = x.2 := fun h => hx h.symm
        simp [this]
    · rw [List.getElem?_eq_none (by simpa using hi), List.getElem?_eq_none (by simpa using hi)]
      split
      · rename_i h; subst h; rw [if_neg hi]
      · rfl

theorem stored_ints (zero : F) (nPar n : Nat) (rep : Nat → Report F)
    (log : List (Fin W × Nat)) :
    (stored zero nPar n rep log).ints = (List.range n).map fun i =>
      if i ∈ log.map Prod.snd then (rep i).ints.take 4 else List.replicate 4 0 := by
  induction log using List.reverseRecOn with
  | nil => simp [stored, Master.init, List.map_const']
  | append_singleton l x ih =>
    rw [stored_append]
    show (stored zero nPar n rep l).ints.set x.2 _ = _
    rw [ih]
    apply List.ext_getElem?
    intro i
    rw [List.getElem?_set, List.length_map, List.length_range]
    by_cases hi : i < n
    · rw [List.getElem?_map, List.getElem?_map, List.getElem?_range hi]
      simp only [Option.map_some, List.map_append, List.map_cons, List.map_nil, List.mem_append,
        List.mem_singleton]
      by_cases hx : x.2 = i
      · subst hx; simp [hi]
      · rw [if_neg hx]
        have : ¬ i = x.2 := fun h => hx h.symm
        simp [this]
    · rw [List.getElem?_eq_none (by simpa using hi), List.getElem?_eq_none (by simpa using hi)]
      split
      · rename_i h; subst h; rw [if_neg hi]
      · rfl

theorem stored_filters (zero : F) (nPar n : Nat) (rep : Nat → Report F)
    (log : List (Fin W × Nat)) (h : ∀ x ∈ log, (rep x.2).ints.length = 21) :
    (stored zero nPar n rep log).filters = (List.range 17).map fun s =>
      (log.map fun x => (rep x.2).ints.getD (4 + s) 0).sum := by
  induction log using List.reverseRecOn with
  | nil => rfl
  | append_singleton l x ih =>
    rw [stored_append]
    show List.zipWith (· + ·) (stored zero nPar n rep l).filters _ = _
    rw [ih fun y hy => h y (by simp [hy])]
    have hx := h x (by simp)
    apply List.ext_getElem?
    intro i
    by_cases hi : i < 17
    · rw [List.getElem?_zipWith, List.getElem?_map, List.getElem?_map, List.getElem?_range hi]
      have h1 : 4 + i < (rep x.2).ints.length := by omega
      simp only [Option.map_some, List.getElem?_drop, List.getElem?_eq_getElem h1, List.map_append,
        List.map_cons, List.map_nil, List.sum_append, List.sum_cons, List.sum_nil,
        List.getD_eq_getElem?_getD, Option.getD_some, add_zero]
    · rw [List.getElem?_eq_none (by simp; omega), List.getElem?_eq_none (by simp; omega)]

theorem modify_map_range (f : Nat → Nat) (N i : Nat) (hi : i < N) :
    ((List.range N).map f).modify i (· + 1) =
      (List.range N).map fun r => f r + if r = i then 1 else 0 := by
  apply List.ext_getElem?
  intro j
  rw [List.getElem?_modify]
  by_cases hj : j < N
  · rw [List.getElem?_map, List.getElem?_map, List.getElem?_range hj]
    by_cases e : i = j
    · subst e; simp
    · have : ¬ j = i := fun h => e h.symm
      simp [e, this]
  · rw [List.getElem?_eq_none (by simpa using hj), List.getElem?_eq_none (by simpa using hj)]
    rfl

theorem stored_attempts (zero : F) (nPar n : Nat) (rep : Nat → Report F)
    (log : List (Fin W × Nat)) :
    (stored zero nPar n rep log).attemptsPerProc = (List.range (W + 1)).map fun r =>
      log.countP fun x => decide (x.1.val + 1 = r) := by
  induction log using List.reverseRecOn with
  | nil => simp [stored, Master.init, List.map_const']
  | append_singleton l x ih =>
    rw [stored_append]
    show (stored zero nPar n rep l).attemptsPerProc.modify _ _ = _
    rw [ih, modify_map_range _ _ _ (by exact x.1.succ.isLt)]
    apply List.map_congr_left
    intro r _
    rw [List.countP_append, List.countP_singleton]
    simp only [Fin.val_succ, decide_eq_true_eq, @eq_comm Nat r]

theorem stored_kept (zero : F) (nPar n : Nat) (rep : Nat → Report F) (passed : Nat → Bool)
    (log : List (Fin W × Nat)) (h : ∀ x ∈ log, RepOk nPar x.2 (rep x.2) (passed x.2)) :
    (stored zero nPar n rep log).nSolvesKept = (List.range (W + 1)).map fun r =>
      log.countP fun x => decide (x.1.val + 1 = r) && passed x.2 := by
  induction log using List.reverseRecOn with
  | nil => simp [stored, Master.init, List.map_const']
  | append_singleton l x ih =>
    rw [stored_append]
    have hx := h x (by simp)
    have h1 : ((rep x.2).ints.drop 4).getD 1 0 = if passed x.2 then 1 else 0 := by
      rw [← hx.kept]; simp
    show (if 0 < ((rep x.2).ints.drop 4).getD 1 0 then _ else _) = _
    rw [ih fun y hy => h y (by simp [hy]), h1]
    cases hp : passed x.2 with
    | true =>
      rw [if_pos (by simp), modify_map_range _ _ _ (by exact x.1.succ.isLt)]
      apply List.map_congr_left
      intro r _
      rw [List.countP_append, List.countP_singleton]
      simp only [Fin.val_succ, decide_eq_true_eq, @eq_comm Nat r, hp, Bool.and_true]
    | false =>
      rw [if_neg (by simp)]
      apply List.map_congr_left
      intro r _
      rw [List.countP_append, List.countP_singleton]
      simp [hp]

theorem stored_nEvals (zero : F) (nPar n : Nat) (rep : Nat → Report F)
    (log : List (Fin W × Nat)) :
    (stored zero nPar n rep log).nEvals = (log.map fun x => (rep x.2).ints.getD 2 0).sum := by
  induction log using List.reverseRecOn with
  | nil => rfl
  | append_singleton l x ih =>
    rw [stored_append]
    show (stored zero nPar n rep l).nEvals + _ = _
    rw [ih]
    simp

/-- Storing a well formed report never leaves the arrays. -/
theorem store_ok (zero : F) (nPar n : Nat) (rep : Nat → Report F) (log : List (Fin W × Nat))
    (w : Fin W) (i : Nat) (hi : i < n) (p : Bool) (h : RepOk nPar i (rep i) p) :
    store nPar (stored zero nPar n rep log) (w.succ : Fin (W + 1)) (rep i).ints (rep i).flts
      = some (stored zero nPar n rep (log ++ [(w, i)])) := by
  unfold store
  have h0 := h.index
  dsimp only
  rw [h0, if_pos ⟨h.len, h.flts, by omega, by rw [stored_params]; simpa using hi⟩, stored_append]
  rfl

/-- The columns kept, given which indices have arrived. -/
def keptColumns (n : Nat) (rep : Nat → Report F) (passed : Nat → Bool) (arrived : List Nat) :
    Saved F :=
  ((List.range n).filter fun i => decide (i ∈ arrived) && passed i).map fun i =>
    ((rep i).ints.take 4, (rep i).flts)

theorem filterLoop_ok (nScan : Int) (l : List (List Int × List F)) (acc : Saved F)
    (h : ((acc ++ l.filter fun x => decide (1 ≤ x.1.getD 1 0)).length : Int) ≤ nScan) :
    filterLoop nScan l acc = .ok (acc ++ l.filter fun x => decide (1 ≤ x.1.getD 1 0)) := by
  induction l generalizing acc with
  | nil => simp [filterLoop]
  | cons a l ih =>
    obtain ⟨iv, pv⟩ := a
    rw [filterLoop]
    by_cases hc : iv.getD 1 0 < 1
    · rw [if_pos hc]
      have e : ((iv, pv) :: l).filter (fun x => decide (1 ≤ x.1.getD 1 0))
          = l.filter fun x => decide (1 ≤ x.1.getD 1 0) := by
        rw [List.filter_cons_of_neg]; simp only [decide_eq_true_eq]; omega
      rw [e] at h ⊢
      exact ih acc h
    · have e : ((iv, pv) :: l).filter (fun x => decide (1 ≤ x.1.getD 1 0))
          = (iv, pv) :: l.filter fun x => decide (1 ≤ x.1.getD 1 0) := by
        rw [List.filter_cons_of_pos]; simp only [decide_eq_true_eq]; omega
      rw [e] at h ⊢
      rw [if_neg hc, if_pos (by simp only [List.length_append, List.length_cons] at h; omega)]
      rw [ih (acc ++ [(iv, pv)]) (by simpa using h)]
      simp

theorem sum_flags (passed : Nat → Bool) (l : List Nat) :
    (l.map fun i => if passed i then (1 : Int) else 0).sum = ((l.filter passed).length : Int) := by
  induction l with
  | nil => rfl
  | cons a l ih =>
    rw [List.map_cons, List.sum_cons, ih]
    cases h : passed a <;> simp [h]
    omega

theorem zip_self {α : Type} (l : List α) : l.zip l = l.map fun a => (a, a) := by
  induction l with
  | nil => rfl
  | cons a l ih => simp [ih]

/-- Whatever has arrived, in whatever order, filtering succeeds and yields the passing columns in
increasing order of the index. -/
theorem filterGlobal_stored (zero : F) (nPar n : Nat) (rep : Nat → Report F) (passed : Nat → Bool)
    (log : List (Fin W × Nat)) (hnd : (log.map Prod.snd).Nodup) (hlt : ∀ x ∈ log, x.2 < n)
    (hok : ∀ i, i < n → RepOk nPar i (rep i) (passed i)) :
    filterGlobal (stored zero nPar n rep log)
      = .ok (keptColumns n rep passed (log.map Prod.snd)) := by
  have hz : ((stored zero nPar n rep log).ints.zip (stored zero nPar n rep log).params).filter
      (fun x => decide (1 ≤ x.1.getD 1 0)) = keptColumns n rep passed (log.map Prod.snd) := by
    rw [stored_ints, stored_params, List.zip_map, zip_self]
    unfold keptColumns
    rw [List.map_map, List.filter_map]
    have h1 : (List.range n).filter ((fun x : List Int × List F => decide (1 ≤ x.1.getD 1 0)) ∘
        (Prod.map (fun i => if i ∈ log.map Prod.snd then (rep i).ints.take 4 else
          List.replicate 4 0) (fun i => if i ∈ log.map Prod.snd then (rep i).flts else
          List.replicate nPar zero)) ∘ fun a => (a, a))
        = (List.range n).filter fun i => decide (i ∈ log.map Prod.snd) && passed i := by
      apply List.filter_congr
      intro i hi
      have hi' : i < n := List.mem_range.mp hi
      have hr := hok i hi'
      show decide (1 ≤ (if i ∈ log.map Prod.snd then (rep i).ints.take 4 else
          List.replicate 4 0).getD 1 0) = _
      by_cases hm : i ∈ log.map Prod.snd
      · have hl := hr.len
        have : ((rep i).ints.take 4).getD 1 0 = (rep i).ints.getD 1 0 := by
          simp [List.getD_eq_getElem?_getD, List.getElem?_take]
        rw [if_pos hm, this, hr.flag]
        cases passed i <;> simp [hm]
      · rw [if_neg hm]
        simp [hm]
    rw [h1]
    apply List.map_congr_left
    intro i hi
    have := (List.mem_filter.mp hi).2
    simp only [Bool.and_eq_true, decide_eq_true_eq] at this
    simp [Function.comp, Prod.map, this.1]
  have hk : (stored zero nPar n rep log).filters.getD 1 0
      = ((keptColumns n rep passed (log.map Prod.snd)).length : Int) := by
    rw [stored_filters _ _ _ _ _ (fun x hx => (hok x.2 (hlt x hx)).len)]
    have : ((List.range 17).map fun s => (log.map fun x => (rep x.2).ints.getD (4 + s) 0).sum).getD
        1 0 = (log.map fun x => (rep x.2).ints.getD 5 0).sum := rfl
    rw [this, List.map_congr_left (g := fun x => if passed x.2 then (1 : Int) else 0)
      (fun x hx => (hok x.2 (hlt x hx)).kept)]
    have h2 : (log.map fun x => if passed x.2 then (1 : Int) else 0)
        = (log.map Prod.snd).map fun i => if passed i then (1 : Int) else 0 := by simp
    rw [h2, sum_flags]
    unfold keptColumns
    rw [List.length_map]
    have hp : List.Perm ((log.map Prod.snd).filter passed) <|
        (List.range n).filter fun i => decide (i ∈ log.map Prod.snd) && passed i := by
      apply (List.perm_ext_iff_of_nodup (hnd.filter _) (List.nodup_range.filter _)).mpr
      intro i
      simp only [List.mem_filter, List.mem_range, Bool.and_eq_true, decide_eq_true_eq]
      constructor
      · rintro ⟨h1, h2⟩
        obtain ⟨x, hx, rfl⟩ := List.mem_map.mp h1
        exact ⟨hlt x hx, h1, h2⟩
      · rintro ⟨_, h1, h2⟩
        exact ⟨h1, h2⟩
    rw [hp.length_eq]
  unfold filterGlobal
  dsimp only
  rw [hk, filterLoop_ok _ _ _ (by rw [List.nil_append, hz]; exact Int.le_refl _),
    List.nil_append, hz]
  simp

end Qsc.MultiScan
