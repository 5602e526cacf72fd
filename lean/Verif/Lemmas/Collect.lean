import Verif.Spec.Collect
import Verif.Lemmas.Mpi
import Mathlib.Data.List.FinRange
import Mathlib.Algebra.BigOperators.Group.List.Basic
import Mathlib.Tactic.Linarith
import Mathlib.Tactic.Ring

/-! Helper lemmas for `Verif.Props.Collect`. -/

namespace Qsc.Collect
open Qsc.Mpi Function Qsc.Spec.Collect

variable {F : Type} {n : Nat}

/-- The state with all channels empty. -/
abbrev quiet (p : Fin (n + 1) → P n F) : St (Fin (n + 1)) (Msg F) (Option (List (Gathered F))) :=
  ⟨p, fun _ => []⟩

/-- One direct hand-over from `r` to process 0. -/
theorem handover {p : Fin (n + 1) → P n F} {r : Fin (n + 1)} {m : Msg F} {k : P n F}
    {k' : Msg F → P n F} (h1 : p r = .send 0 r m k) (h2 : p 0 = .recv r r k') :
    Steps noBuf 2 (quiet p) (quiet (update (update p r k) 0 (k' m))) :=
  .single (.sync h1 h2 rfl)

/-- After each rank of `rs` has handed over, as a function of the rank. -/
def after (p : Fin (n + 1) → P n F) (p0 : P n F) (rs : List (Fin (n + 1)))
    (rest : Fin (n + 1) → P n F) : Fin (n + 1) → P n F :=
  fun i => if i = 0 then p0 else if i ∈ rs then rest i else p i

theorem counts_phase (f : Fin (n + 1) → List Nat) (t : Fin (n + 1) → List F)
    (rest : Fin (n + 1) → P n F) (hf : ∀ r, (f r).length = 17)
    (rs : List (Fin (n + 1))) :
    ∀ (p : Fin (n + 1) → P n F) (acc : List (List Nat)) (k : List (List Nat) → P n F),
      rs.Nodup → 0 ∉ rs → p 0 = gatherCounts rs acc k →
      (∀ r ∈ rs, p r = .send 0 r (.big (f r)) (.send 0 r (.flt (t r)) (rest r))) →
      ∃ w, Steps noBuf w (quiet p) (quiet (after p (k (acc ++ rs.map f)) rs rest)) := by
  induction rs with
  | nil =>
    intro p acc k _ _ h0 _
    refine ⟨0, ?_⟩
    have : after p (k (acc ++ [].map f)) [] rest = p := by
      funext i
      unfold after
      split
      · rename_i hi; rw [hi, h0]; simp [gatherCounts]
      · simp
    rw [this]
    exact .refl
  | cons r rs ih =>
    intro p acc k hnd h0r h0 hr
    have hr0 : r ≠ 0 := fun h => h0r (by simp [h])
    have hp := hr r (by simp)
    have s1 := handover hp (by rw [h0, gatherCounts])
    dsimp only at s1
    rw [if_pos (hf r).le] at s1
    set p1 := update (update p r (.send 0 r (.flt (t r)) (rest r))) 0
      (.recv r r fun m' => match m' with
        | .flt _ => gatherCounts rs (acc ++ [f r]) k
        | _ => .done none) with hp1
    have e1 : p1 r = .send 0 r (.flt (t r)) (rest r) := by
      rw [hp1, update_of_ne hr0, update_self]
    have e2 : p1 0 = .recv r r fun m' => match m' with
        | .flt _ => gatherCounts rs (acc ++ [f r]) k
        | _ => .done none := by rw [hp1, update_self]
    have s2 := handover e1 e2
    dsimp only at s2
    set p2 := update (update p1 r (rest r)) 0 (gatherCounts rs (acc ++ [f r]) k) with hp2
    have hoff : ∀ i, i ≠ 0 → i ≠ r → p2 i = p i := by
      intro i hi hir
      rw [hp2, update_of_ne hi, update_of_ne hir, hp1, update_of_ne hi, update_of_ne hir]
    obtain ⟨w, s3⟩ := ih p2 (acc ++ [f r]) k (List.nodup_cons.mp hnd).2
      (fun h => h0r (by simp [h])) (by rw [hp2, update_self])
      (fun x hx => by
        have hx0 : x ≠ 0 := by rintro rfl; exact h0r (by simp [hx])
        have hxr : x ≠ r := by rintro rfl; exact (List.nodup_cons.mp hnd).1 hx
        rw [hoff x hx0 hxr]
        exact hr x (by simp [hx]))
    refine ⟨2 + (2 + w), s1.trans (s2.trans ?_)⟩
    have : after p2 (k (acc ++ [f r] ++ rs.map f)) rs rest
        = after p (k (acc ++ (r :: rs).map f)) (r :: rs) rest := by
      funext i
      unfold after
      by_cases hi : i = 0
      · rw [if_pos hi, if_pos hi]; simp
      · rw [if_neg hi, if_neg hi]
        by_cases hir : i = r
        · subst hir
          rw [if_neg (List.nodup_cons.mp hnd).1, if_pos (by simp), hp2, update_of_ne hi, update_self]
        · by_cases him : i ∈ rs
          · rw [if_pos him, if_pos (by simp [him])]
          · rw [if_neg him, if_neg (by simp [hir, him]), hoff i hi hir]
    rw [← this]
    exact s3

theorem writeAt_fill {α : Type} (W xs : List α) (z : α) (off m : Nat) (hW : W.length = off)
    (hx : xs.length ≤ m) :
    writeAt (W ++ List.replicate m z) off xs
      = some (W ++ xs ++ List.replicate (m - xs.length) z) := by
  unfold writeAt
  subst hW
  rw [if_pos (by simp; omega)]
  simp [List.drop_append]

theorem data_phase (zero : F) (nf : Nat) (kept : Nat → Nat)
    (mp mf : Fin (n + 1) → List F) (mi : Fin (n + 1) → List Int) (rest : Fin (n + 1) → P n F)
    (rs : List (Fin (n + 1)))
    (hlp : ∀ r ∈ rs, (mp r).length = 20 * kept r) (hlf : ∀ r ∈ rs, (mf r).length = nf * kept r)
    (hli : ∀ r ∈ rs, (mi r).length = 1 * kept r) :
    ∀ (p : Fin (n + 1) → P n F) (off : Nat) (Wp Wf : List F) (Wi : List Int)
      (k : List F → List F → List Int → P n F),
      rs.Nodup → 0 ∉ rs → Wp.length = 20 * off → Wf.length = nf * off → Wi.length = off * 1 →
      p 0 = gatherData nf kept rs off
        (Wp ++ List.replicate (20 * (rs.map fun r => kept r.val).sum) zero)
        (Wf ++ List.replicate (nf * (rs.map fun r => kept r.val).sum) zero)
        (Wi ++ List.replicate (1 * (rs.map fun r => kept r.val).sum) 0) k →
      (∀ r ∈ rs, p r = .send 0 r (.flt (mp r)) (.send 0 r (.flt (mf r))
        (.send 0 r (.int (mi r)) (rest r)))) →
      ∃ w, Steps noBuf w (quiet p) (quiet (after p
        (k (Wp ++ rs.flatMap mp) (Wf ++ rs.flatMap mf) (Wi ++ rs.flatMap mi)) rs rest)) := by
  induction rs with
  | nil =>
    intro p off Wp Wf Wi k _ _ _ _ _ h0 _
    refine ⟨0, ?_⟩
    have : after p (k (Wp ++ [].flatMap mp) (Wf ++ [].flatMap mf) (Wi ++ [].flatMap mi)) [] rest
        = p := by
      funext i
      unfold after
      split
      · rename_i hi; rw [hi, h0]; simp [gatherData]
      · simp
    rw [this]
    exact .refl
  | cons r rs ih =>
    intro p off Wp Wf Wi k hnd h0r hWp hWf hWi h0 hr
    have hr0 : r ≠ 0 := fun h => h0r (by simp [h])
    have hp := hr r (by simp)
    have l1 := hlp r (by simp)
    have l2 := hlf r (by simp)
    have l3 := hli r (by simp)
    rw [gatherData] at h0
    simp only [List.map_cons, List.sum_cons] at h0
    set S := (rs.map fun r => kept r.val).sum with hS
    -- first message
    have s1 := handover hp h0
    dsimp only at s1
    rw [if_pos l1.le, writeAt_fill _ _ _ _ _ hWp (by rw [l1]; nlinarith)] at s1
    dsimp only at s1
    have a1 : 20 * (kept r + S) - (mp r).length = 20 * S := by
      rw [l1, Nat.mul_add]; omega
    rw [a1] at s1
    generalize hq : (Proc.recv r (↑r) _ : P n F) = q1 at s1
    set p1 := update (update p r (.send 0 r (.flt (mf r)) (.send 0 r (.int (mi r)) (rest r)))) 0 q1
      with hp1
    have e1 : p1 r = .send 0 r (.flt (mf r)) (.send 0 r (.int (mi r)) (rest r)) := by
      rw [hp1, update_of_ne hr0, update_self]
    have s2 := handover e1 (by rw [hp1, update_self, ← hq])
    dsimp only at s2
    rw [if_pos l2.le, writeAt_fill _ _ _ _ _ hWf (by rw [l2]; nlinarith)] at s2
    dsimp only at s2
    have a2 : nf * (kept r + S) - (mf r).length = nf * S := by
      rw [l2, Nat.mul_add]; omega
    rw [a2] at s2
    generalize hq2 : (Proc.recv r (↑r) _ : P n F) = q2 at s2
    set p2 := update (update p1 r (.send 0 r (.int (mi r)) (rest r))) 0 q2 with hp2
    have e2 : p2 r = .send 0 r (.int (mi r)) (rest r) := by
      rw [hp2, update_of_ne hr0, update_self]
    have s3 := handover e2 (by rw [hp2, update_self, ← hq2])
    dsimp only at s3
    rw [if_pos l3.le, writeAt_fill _ _ _ _ _ hWi (by rw [l3]; nlinarith)] at s3
    dsimp only at s3
    have a3 : 1 * (kept r + S) - (mi r).length = 1 * S := by
      rw [l3, Nat.mul_add]; omega
    rw [a3] at s3
    generalize hq3 : gatherData nf kept rs (off + kept r) _ _ _ k = q3 at s3
    set p3 := update (update p2 r (rest r)) 0 q3 with hp3
    have hoff : ∀ i, i ≠ 0 → i ≠ r → p3 i = p i := by
      intro i hi hir
      rw [hp3, update_of_ne hi, update_of_ne hir, hp2, update_of_ne hi, update_of_ne hir, hp1,
        update_of_ne hi, update_of_ne hir]
    obtain ⟨w, s4⟩ := ih (fun x hx => hlp x (by simp [hx])) (fun x hx => hlf x (by simp [hx]))
      (fun x hx => hli x (by simp [hx])) p3 (off + kept r) (Wp ++ mp r) (Wf ++ mf r) (Wi ++ mi r) k
      (List.nodup_cons.mp hnd).2
      (fun h => h0r (by simp [h])) (by rw [List.length_append, hWp, l1]; ring)
      (by rw [List.length_append, hWf, l2]; ring) (by rw [List.length_append, hWi, l3]; ring)
      (by rw [hp3, update_self, ← hq3])
      (fun x hx => by
        have hx0 : x ≠ 0 := by rintro rfl; exact h0r (by simp [hx])
        have hxr : x ≠ r := by rintro rfl; exact (List.nodup_cons.mp hnd).1 hx
        rw [hoff x hx0 hxr]
        exact hr x (by simp [hx]))
    refine ⟨2 + (2 + (2 + w)), s1.trans (s2.trans (s3.trans ?_))⟩
    have : after p3 (k (Wp ++ mp r ++ rs.flatMap mp) (Wf ++ mf r ++ rs.flatMap mf)
          (Wi ++ mi r ++ rs.flatMap mi)) rs rest
        = after p (k (Wp ++ (r :: rs).flatMap mp) (Wf ++ (r :: rs).flatMap mf)
          (Wi ++ (r :: rs).flatMap mi)) (r :: rs) rest := by
      funext i
      unfold after
      by_cases hi : i = 0
      · rw [if_pos hi, if_pos hi]; simp
      · rw [if_neg hi, if_neg hi]
        by_cases hir : i = r
        · subst hir
          rw [if_neg (List.nodup_cons.mp hnd).1, if_pos (by simp), hp3, update_of_ne hi, update_self]
        · by_cases him : i ∈ rs
          · rw [if_pos him, if_pos (by simp [him])]
          · rw [if_neg him, if_neg (by simp [hir, him]), hoff i hi hir]
    rw [← this]
    exact s4

theorem workers_nodup (n : Nat) : (workers n).Nodup :=
  (List.nodup_finRange n).map (Fin.succ_injective n)

theorem zero_not_mem_workers (n : Nat) : (0 : Fin (n + 1)) ∉ workers n := by
  unfold workers
  rw [List.mem_map]
  rintro ⟨x, _, hx⟩
  exact Fin.succ_ne_zero x hx

theorem mem_workers {n : Nat} {i : Fin (n + 1)} (h : i ≠ 0) : i ∈ workers n := by
  unfold workers
  rw [List.mem_map]
  exact ⟨i.pred h, List.mem_finRange _, Fin.succ_pred i h⟩

theorem zero_cons_workers (n : Nat) : (0 : Fin (n + 1)) :: workers n = List.finRange (n + 1) := by
  rw [List.finRange_succ]
  rfl

theorem setKept_getD {L : Local F} (h : L.filters.length = 17) (j : Nat) :
    L.setKept.getD j 0 = if j = 1 then L.jScan else L.filters.getD j 0 := by
  unfold Local.setKept
  by_cases hj : j = 1
  · subst hj
    simp [List.getD, h]
  · rw [if_neg hj]
    simp [List.getD, List.getElem?_set_ne (Ne.symm hj)]

/-- One collection, executed with direct hand-overs only. -/
theorem round (zero : F) (nf : Nat) (l : Fin (n + 1) → Local F) (hok : ∀ i, Ok nf (l i))
    (k : Gathered F → P n F) (kw : Fin (n + 1) → P n F) :
    ∃ w, Steps noBuf w
      (quiet fun i => if i = 0 then rootCollect zero nf (l 0) k else workerCollect nf i (l i) (kw i))
      (quiet fun i => if i = 0 then k (combine nf l) else kw i) := by
  -- first barrier
  obtain ⟨root1, hroot1⟩ : ∃ q, rootCollect zero nf (l 0) k = .barrier q := ⟨_, rfl⟩
  set rest2 : Fin (n + 1) → P n F := fun i => .barrier (kw i)
  set rest1 : Fin (n + 1) → P n F := fun i =>
    .send 0 i (.flt ((l i).params.take (20 * (l i).jScan))) <|
    .send 0 i (.flt ((l i).fourier.take (nf * (l i).jScan))) <|
    .send 0 i (.int ((l i).ints.take (1 * (l i).jScan))) (rest2 i) with hrest1
  set p1 : Fin (n + 1) → P n F := fun i => if i = 0 then root1 else
    .send 0 i (.big (l i).setKept) (.send 0 i (.flt (l i).timing) (rest1 i)) with hp1
  have b1 : Step noBuf 1
      (quiet fun i => if i = 0 then rootCollect zero nf (l 0) k else workerCollect nf i (l i) (kw i))
      (quiet p1) := by
    refine Step.barrier p1 fun i => ?_
    dsimp only [p1]
    split
    · exact hroot1
    · rfl
  -- counters
  have hlen : ∀ r, ((l r).setKept).length = 17 := by
    intro r; unfold Local.setKept; rw [List.length_set]; exact (hok r).filters
  unfold rootCollect at hroot1
  injection hroot1 with hroot1
  generalize hK : (fun blocks : List (List Nat) => _ : List (List Nat) → P n F) = K at hroot1
  obtain ⟨w1, c1⟩ := counts_phase (fun r => (l r).setKept) (fun r => (l r).timing) rest1 hlen
    (workers n) p1 [(l 0).setKept] K (workers_nodup n) (zero_not_mem_workers n)
    (by rw [hp1]; dsimp only; rw [if_pos rfl, hroot1])
    (fun r hr => by
      have : r ≠ 0 := by rintro rfl; exact zero_not_mem_workers n hr
      dsimp only [p1]; rw [if_neg this])
  have hblocks : [(l 0).setKept] ++ (workers n).map (fun r => (l r).setKept)
      = (List.finRange (n + 1)).map fun r => (l r).setKept := by
    rw [← zero_cons_workers]; rfl
  rw [hblocks] at c1
  set blocks := (List.finRange (n + 1)).map fun r => (l r).setKept with hbl
  have hfil : sumFilters blocks = (combine nf l).filters := by
    unfold sumFilters combine
    dsimp only
    apply List.map_congr_left
    intro j _
    rw [hbl, List.map_map]
    congr 1
    apply List.map_congr_left
    intro i _
    exact setKept_getD (hok i).filters j
  have hscan : (sumFilters blocks).getD 1 0 = (combine nf l).nScan := by
    rw [hfil]
    simp [combine, List.getD]
  have hkept : ∀ r : Fin (n + 1), (blocks.getD r.val []).getD 1 0 = (l r).jScan := by
    intro r
    have : blocks.getD r.val [] = (l r).setKept := by
      rw [hbl, List.getD, List.getElem?_map,
        List.getElem?_eq_getElem (by simpa using r.isLt)]
      simp
    rw [this, setKept_getD (hok r).filters]
    simp
  set S := ((workers n).map fun r => (l r).jScan).sum with hS
  have hns : (combine nf l).nScan = (l 0).jScan + S := by
    unfold combine
    dsimp only
    rw [← zero_cons_workers, List.map_cons, List.sum_cons]
  have hK1 : K blocks = gatherData nf (fun j => (blocks.getD j []).getD 1 0) (workers n)
      (l 0).jScan
      ((l 0).params.take (20 * (l 0).jScan) ++ List.replicate (20 * S) zero)
      ((l 0).fourier.take (nf * (l 0).jScan) ++ List.replicate (nf * S) zero)
      ((l 0).ints.take (1 * (l 0).jScan) ++ List.replicate (1 * S) 0)
      (fun p f i => .barrier (k ⟨(combine nf l).nScan, (combine nf l).filters, p, f, i⟩)) := by
    rw [← hK]
    dsimp only
    rw [hscan, hfil]
    have L1 : ((l 0).params.take (20 * (l 0).jScan)).length = 20 * (l 0).jScan := by
      rw [List.length_take]; exact min_eq_left (hok 0).params
    have L2 : ((l 0).fourier.take (nf * (l 0).jScan)).length = nf * (l 0).jScan := by
      rw [List.length_take]; exact min_eq_left (hok 0).fourier
    have L3 : ((l 0).ints.take (1 * (l 0).jScan)).length = 1 * (l 0).jScan := by
      rw [List.length_take]; exact min_eq_left (by rw [one_mul]; exact (hok 0).ints)
    have W1 := writeAt_fill [] ((l 0).params.take (20 * (l 0).jScan)) zero 0
      (20 * (combine nf l).nScan) rfl (by rw [L1, hns]; nlinarith)
    have W2 := writeAt_fill [] ((l 0).fourier.take (nf * (l 0).jScan)) zero 0
      (nf * (combine nf l).nScan) rfl (by rw [L2, hns]; nlinarith)
    have W3 := writeAt_fill [] ((l 0).ints.take (1 * (l 0).jScan)) (0 : Int) 0
      (1 * (combine nf l).nScan) rfl (by rw [L3, hns]; nlinarith)
    rw [List.nil_append, List.nil_append] at W1 W2 W3
    rw [W1, W2, W3]
    dsimp only
    rw [L1, L2, L3, hns]
    have a1 : 20 * ((l 0).jScan + S) - 20 * (l 0).jScan = 20 * S := by omega
    have a2 : nf * ((l 0).jScan + S) - nf * (l 0).jScan = nf * S := by
      rw [Nat.mul_add]; omega
    have a3 : 1 * ((l 0).jScan + S) - 1 * (l 0).jScan = 1 * S := by omega
    rw [a1, a2, a3]
  have hS' : ((workers n).map fun r => (fun j => (blocks.getD j []).getD 1 0) r.val).sum = S := by
    rw [hS]
    congr 1
    apply List.map_congr_left
    intro r _
    exact hkept r
  set p2 := after p1 (K blocks) (workers n) rest1 with hp2
  obtain ⟨w2, c2⟩ := data_phase zero nf (fun j => (blocks.getD j []).getD 1 0)
    (fun r => (l r).params.take (20 * (l r).jScan)) (fun r => (l r).fourier.take (nf * (l r).jScan))
    (fun r => (l r).ints.take (1 * (l r).jScan)) rest2 (workers n)
    (fun r _ => by rw [hkept, List.length_take]; exact min_eq_left (hok r).params)
    (fun r _ => by rw [hkept, List.length_take]; exact min_eq_left (hok r).fourier)
    (fun r _ => by rw [hkept, List.length_take]; exact min_eq_left (by rw [one_mul]; exact (hok r).ints))
    p2 (l 0).jScan ((l 0).params.take (20 * (l 0).jScan)) ((l 0).fourier.take (nf * (l 0).jScan))
    ((l 0).ints.take (1 * (l 0).jScan))
    (fun p f i => .barrier (k ⟨(combine nf l).nScan, (combine nf l).filters, p, f, i⟩))
    (workers_nodup n) (zero_not_mem_workers n)
    (by rw [List.length_take]; exact min_eq_left (hok 0).params)
    (by rw [List.length_take]; exact min_eq_left (hok 0).fourier)
    (by rw [List.length_take, one_mul, mul_one]; exact min_eq_left (hok 0).ints)
    (by rw [hp2, hS']; unfold after; rw [if_pos rfl]; exact hK1)
    (fun r hr => by
      have : r ≠ 0 := by rintro rfl; exact zero_not_mem_workers n hr
      rw [hp2]; unfold after; rw [if_neg this, if_pos hr])
  -- final barrier
  generalize hfin : after p2 _ (workers n) rest2 = p3 at c2
  have b2 : Step noBuf 1 (quiet p3) (quiet fun i => if i = 0 then k (combine nf l) else kw i) := by
    refine Step.barrier _ fun i => ?_
    show p3 i = _
    rw [← hfin]
    unfold after
    by_cases hi : i = 0
    · rw [if_pos hi, if_pos hi]
      congr 2
      unfold combine
      rw [← zero_cons_workers]
      simp only [List.flatMap_cons, one_mul]
    · rw [if_neg hi, if_neg hi, if_pos (mem_workers hi)]
  exact ⟨_, (Steps.single b1).trans (c1.trans (c2.trans (Steps.single b2)))⟩

theorem det_gatherCounts (rs : List (Fin (n + 1))) :
    ∀ (acc : List (List Nat)) (k : List (List Nat) → P n F), (∀ b, Det (k b)) →
      Det (gatherCounts rs acc k) := by
  induction rs with
  | nil => intro acc k hk; exact hk acc
  | cons r rs ih =>
    intro acc k hk
    rw [gatherCounts]
    refine .recv fun m => ?_
    cases m with
    | big f =>
      dsimp only
      split
      · refine .recv fun m' => ?_
        cases m' with
        | flt t => exact ih _ _ hk
        | big _ => exact .done
        | int _ => exact .done
      · exact .done
    | flt _ => exact .done
    | int _ => exact .done

theorem det_gatherData (nf : Nat) (kept : Nat → Nat) (rs : List (Fin (n + 1))) :
    ∀ (off : Nat) (p f : List F) (i : List Int) (k : List F → List F → List Int → P n F),
      (∀ p f i, Det (k p f i)) → Det (gatherData nf kept rs off p f i k) := by
  induction rs with
  | nil => intro off p f i k hk; exact hk _ _ _
  | cons r rs ih =>
    intro off p f i k hk
    rw [gatherData]
    refine .recv fun m => ?_
    cases m with
    | big f => exact .done
    | int _ => exact .done
    | flt xs =>
      dsimp only
      split
      · split
        · refine .recv fun m' => ?_
          cases m' with
          | big _ => exact .done
          | int _ => exact .done
          | flt ys =>
            dsimp only
            split
            · split
              · refine .recv fun m'' => ?_
                cases m'' with
                | big _ => exact .done
                | flt _ => exact .done
                | int zs =>
                  dsimp only
                  split
                  · split
                    · exact ih _ _ _ _ _ hk
                    · exact .done
                  · exact .done
              · exact .done
            · exact .done
        · exact .done
      · exact .done

theorem det_rootRun (zero : F) (nf : Nat) (Ls : List (Local F)) :
    ∀ acc, Det (rootRun (n := n) zero nf Ls acc) := by
  induction Ls with
  | nil => intro acc; exact .done
  | cons L Ls ih =>
    intro acc
    rw [rootRun, rootCollect]
    refine .barrier (det_gatherCounts _ _ _ fun b => ?_)
    dsimp only
    split
    · exact det_gatherData _ _ _ _ _ _ _ _ fun p f i => .barrier (ih _)
    · exact .done

theorem det_workerRun (nf : Nat) (r : Fin (n + 1)) (Ls : List (Local F)) :
    Det (workerRun nf r Ls) := by
  induction Ls with
  | nil => exact .done
  | cons L Ls ih =>
    rw [workerRun, workerCollect]
    exact .barrier (.send (.send (.send (.send (.send (.barrier ih))))))

theorem det_system (zero : F) (nf : Nat) (Ls : Fin (n + 1) → List (Local F)) :
    (St.start (system zero nf Ls)).Det := by
  intro i
  show Det (system zero nf Ls i)
  unfold system
  split
  · exact det_rootRun _ _ _ _
  · exact det_workerRun _ _ _

/-- A complete execution without buffering, when all processes collect `c` times. -/
theorem complete (zero : F) (nf c : Nat) :
    ∀ (Ls : Fin (n + 1) → List (Local F)) (acc : List (Gathered F)),
      (∀ i, (Ls i).length = c) → (∀ i, ∀ L ∈ Ls i, Ok nf L) →
      ∃ w, ∃ gs : List (Gathered F),
        Steps noBuf w
          (quiet fun i => if i = 0 then rootRun zero nf (Ls 0) acc else workerRun nf i (Ls i))
          (quiet fun i => if i = 0 then .done (some (acc ++ gs)) else .done (some [])) ∧
        gs.length = c ∧
        ∀ j, j < c → ∃ l : Fin (n + 1) → Local F, (∀ i, (Ls i)[j]? = some (l i)) ∧
          gs[j]? = some (combine nf l) := by
  induction c with
  | zero =>
    intro Ls acc hlen _
    have h : ∀ i, Ls i = [] := fun i => List.length_eq_zero_iff.mp (hlen i)
    refine ⟨0, [], ?_, rfl, fun j hj => absurd hj (Nat.not_lt_zero j)⟩
    simp only [h, rootRun, workerRun, List.append_nil]
    exact .refl
  | succ c ih =>
    intro Ls acc hlen hok
    have hd : ∀ i, ∃ L T, Ls i = L :: T := by
      intro i
      cases h : Ls i with
      | nil => have := hlen i; rw [h] at this; cases this
      | cons L T => exact ⟨L, T, rfl⟩
    choose l T hl using hd
    obtain ⟨w1, s1⟩ := round zero nf l (fun i => hok i (l i) (by rw [hl]; simp))
      (fun g => rootRun zero nf (T 0) (acc ++ [g])) (fun i => workerRun nf i (T i))
    obtain ⟨w2, gs, s2, hg, hgs⟩ := ih T (acc ++ [combine nf l])
      (fun i => by have := hlen i; rw [hl] at this; simpa using this)
      (fun i L hL => hok i L (by rw [hl]; simp [hL]))
    refine ⟨w1 + w2, combine nf l :: gs, ?_, by simp [hg], ?_⟩
    · have e : (fun i => if i = 0 then rootRun zero nf (Ls 0) acc else workerRun nf i (Ls i))
          = fun i => if i = 0 then rootCollect (n := n) zero nf (l 0)
              (fun g => rootRun zero nf (T 0) (acc ++ [g]))
            else workerCollect nf i (l i) (workerRun nf i (T i)) := by
        funext i
        simp only [hl, rootRun, workerRun]
      rw [e]
      refine s1.trans ?_
      simpa using s2
    · intro j hj
      cases j with
      | zero => exact ⟨l, fun i => by rw [hl]; simp, by simp⟩
      | succ j =>
        obtain ⟨l', h1, h2⟩ := hgs j (by omega)
        exact ⟨l', fun i => by rw [hl]; simpa using h1 i, by simpa using h2⟩

/-! ## Counting barriers -/

/-- The process passes exactly `b` barriers on every path on which it does not fail; failing
paths (`none`) may pass fewer. -/
inductive Bars : Nat → P n F → Prop
  | done {r} : Bars 0 (.done (some r))
  | fail {b} : Bars b (.done none)
  | send {b dst tag m k} : Bars b k → Bars b (.send dst tag m k)
  | recv {b src tag} {k : Msg F → P n F} : (∀ m, Bars b (k m)) → Bars b (.recv src tag k)
  | barrier {b k} : Bars b k → Bars (b + 1) (.barrier k)

/-- Barriers left, process by process, all reduced by the same amount since the start. -/
def BarInv (b : Fin (n + 1) → Nat) (s : St (Fin (n + 1)) (Msg F) (Option (List (Gathered F)))) :
    Prop := ∃ d : Nat, ∀ i, ∃ b', Bars b' (s.procs i) ∧ (b' + d = b i)

theorem barInv_step {cb : Fin (n + 1) → Fin (n + 1) → Msg F → Prop} {w : Nat}
    {s t : St (Fin (n + 1)) (Msg F) (Option (List (Gathered F)))} {b : Fin (n + 1) → Nat}
    (h : Step cb w s t) (hi : BarInv b s) : BarInv b t := by
  obtain ⟨d, hd⟩ := hi
  have upd : ∀ {f : Fin (n + 1) → P n F} {i : Fin (n + 1)} {p : P n F},
      (∀ i, ∃ b', Bars b' (f i) ∧ b' + d = b i) → (∃ b', Bars b' p ∧ b' + d = b i) →
      ∀ j, ∃ b', Bars b' (update f i p j) ∧ b' + d = b j := by
    intro f i p hf hp j
    by_cases hj : j = i
    · subst hj; rw [update_self]; exact hp
    · rw [update_of_ne hj]; exact hf j
  cases h with
  | @sendBuf _ i dst tag m k h1 h2 =>
    obtain ⟨b', hb, e⟩ := hd i
    rw [h1] at hb
    cases hb with
    | send hk => exact ⟨d, upd hd ⟨b', hk, e⟩⟩
  | @recv _ i src tag k m rest h1 h2 =>
    obtain ⟨b', hb, e⟩ := hd i
    rw [h1] at hb
    cases hb with
    | recv hk => exact ⟨d, upd hd ⟨b', hk m, e⟩⟩
  | @recvAny _ i src tag k m rest h1 h2 =>
    obtain ⟨b', hb, e⟩ := hd i
    rw [h1] at hb
    cases hb
  | @sync _ i j tag m k k' h1 h2 h3 =>
    obtain ⟨b1, hb1, e1⟩ := hd i
    obtain ⟨b2, hb2, e2⟩ := hd j
    rw [h1] at hb1
    rw [h2] at hb2
    cases hb1 with
    | send hk => cases hb2 with
      | recv hk' => exact ⟨d, upd (upd hd ⟨b1, hk, e1⟩) ⟨b2, hk' m, e2⟩⟩
  | @syncAny _ i j tag m k k' h1 h2 h3 =>
    obtain ⟨b2, hb2, e2⟩ := hd j
    rw [h2] at hb2
    cases hb2
  | @barrier _ k h =>
    refine ⟨d + 1, fun i => ?_⟩
    obtain ⟨b', hb, e⟩ := hd i
    rw [h i] at hb
    cases hb with
    | barrier hk => exact ⟨_, hk, by omega⟩

theorem bars_gatherCounts {b : Nat} (rs : List (Fin (n + 1))) :
    ∀ (acc : List (List Nat)) (k : List (List Nat) → P n F), (∀ x, Bars b (k x)) →
      Bars b (gatherCounts rs acc k) := by
  induction rs with
  | nil => intro acc k hk; exact hk acc
  | cons r rs ih =>
    intro acc k hk
    rw [gatherCounts]
    refine .recv fun m => ?_
    cases m with
    | big f =>
      dsimp only
      split
      · refine .recv fun m' => ?_
        cases m' with
        | flt t => exact ih _ _ hk
        | big _ => exact .fail
        | int _ => exact .fail
      · exact .fail
    | flt _ => exact .fail
    | int _ => exact .fail

theorem bars_gatherData {b : Nat} (nf : Nat) (kept : Nat → Nat) (rs : List (Fin (n + 1))) :
    ∀ (off : Nat) (p f : List F) (i : List Int) (k : List F → List F → List Int → P n F),
      (∀ p f i, Bars b (k p f i)) → Bars b (gatherData nf kept rs off p f i k) := by
  induction rs with
  | nil => intro off p f i k hk; exact hk _ _ _
  | cons r rs ih =>
    intro off p f i k hk
    rw [gatherData]
    refine .recv fun m => ?_
    cases m with
    | big f => exact .fail
    | int _ => exact .fail
    | flt xs =>
      dsimp only
      split
      · split
        · refine .recv fun m' => ?_
          cases m' with
          | big _ => exact .fail
          | int _ => exact .fail
          | flt ys =>
            dsimp only
            split
            · split
              · refine .recv fun m'' => ?_
                cases m'' with
                | big _ => exact .fail
                | flt _ => exact .fail
                | int zs =>
                  dsimp only
                  split
                  · split
                    · exact ih _ _ _ _ _ hk
                    · exact .fail
                  · exact .fail
              · exact .fail
            · exact .fail
        · exact .fail
      · exact .fail

theorem bars_rootRun (zero : F) (nf : Nat) (Ls : List (Local F)) :
    ∀ acc, Bars (2 * Ls.length) (rootRun (n := n) zero nf Ls acc) := by
  induction Ls with
  | nil => intro acc; exact .done
  | cons L Ls ih =>
    intro acc
    rw [rootRun, rootCollect]
    refine Bars.barrier (b := 2 * Ls.length + 1) (bars_gatherCounts _ _ _ fun b => ?_)
    dsimp only
    split
    · exact bars_gatherData _ _ _ _ _ _ _ _ fun p f i => .barrier (ih _)
    · exact .fail

theorem bars_workerRun (nf : Nat) (r : Fin (n + 1)) (Ls : List (Local F)) :
    Bars (2 * Ls.length) (workerRun nf r Ls) := by
  induction Ls with
  | nil => exact .done
  | cons L Ls ih =>
    rw [workerRun, workerCollect]
    exact Bars.barrier (b := 2 * Ls.length + 1)
      (.send (.send (.send (.send (.send (.barrier ih))))))

theorem barInv_system (zero : F) (nf : Nat) (Ls : Fin (n + 1) → List (Local F)) :
    BarInv (fun i => 2 * (Ls i).length) (St.start (system zero nf Ls)) := by
  refine ⟨0, fun i => ⟨2 * (Ls i).length, ?_, rfl⟩⟩
  show Bars _ (system zero nf Ls i)
  unfold system
  split
  · rename_i hi; subst hi; exact bars_rootRun _ _ _ _
  · exact bars_workerRun _ _ _

end Qsc.Collect
