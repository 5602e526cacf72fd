import Verif.Spec.MultiScan
import Verif.Lemmas.MultiScanData

/-!
Filters and packing of one evaluation.
-/

namespace Qsc.MultiScan
open Qsc.Spec.MultiScan

variable {F : Type} (o : Ops F) (cfg : Cfg F) (r : Final F)

theorem fold_tests (ts : List (Nat × String × Test × String)) (f : List Int) (b : Bool)
    (hlt : ∀ t ∈ ts, t.1 < f.length) :
    (ts.foldl (applyTest o cfg r) (f, b)).1.length = f.length ∧
    (ts.foldl (applyTest o cfg r) (f, b)).2 =
      (b && ts.all fun t => !rejects o cfg r t.2.1 t.2.2.1 t.2.2.2) ∧
    ∀ s, (ts.foldl (applyTest o cfg r) (f, b)).1.getD s 0 = f.getD s 0 +
      (ts.countP fun t => decide (t.1 = s) && rejects o cfg r t.2.1 t.2.2.1 t.2.2.2 : Nat) := by
  induction ts generalizing f b with
  | nil => simp
  | cons t ts ih =>
    rw [List.foldl_cons]
    have ht := hlt t (by simp)
    cases hr : rejects o cfg r t.2.1 t.2.2.1 t.2.2.2 with
    | false =>
      have : applyTest o cfg r (f, b) t = (f, b) := by simp [applyTest, hr]
      rw [this]
      obtain ⟨h1, h2, h3⟩ := ih f b fun t ht => hlt t (by simp [ht])
      refine ⟨h1, ?_, fun s => ?_⟩
      · rw [h2]; simp [hr]
      · rw [h3]; simp [hr]
    | true =>
      have : applyTest o cfg r (f, b) t = (f.modify t.1 (· + 1), false) := by simp [applyTest, hr]
      rw [this]
      obtain ⟨h1, h2, h3⟩ := ih (f.modify t.1 (· + 1)) false fun t ht => by
        rw [List.length_modify]; exact hlt t (by simp [ht])
      refine ⟨by rw [h1, List.length_modify], ?_, fun s => ?_⟩
      · rw [h2]; simp [hr]
      · rw [h3, List.countP_cons]
        simp only [hr, Bool.and_true, decide_eq_true_eq, List.getD_eq_getElem?_getD,
          List.getElem?_modify]
        by_cases e : t.1 = s
        · subst e
          simp [List.getElem?_eq_getElem ht]
          omega
        · simp [e]

/-- Number of tests with a given slot that reject. -/
theorem runFilters_spec :
    (runFilters o cfg r).1.length = 17 ∧
    ((runFilters o cfg r).2 = true ↔ Keep o cfg r) ∧
    (runFilters o cfg r).1.getD 0 0 = 1 ∧
    (runFilters o cfg r).1.getD 1 0 = (if (runFilters o cfg r).2 then 1 else 0) ∧
    ∀ c ∈ counterMeaning o cfg, (runFilters o cfg r).1.getD c.1 0 =
      if !cfg.keepAll && c.2 r then 1 else 0 := by
  by_cases hk : cfg.keepAll = true
  · have e : runFilters o cfg r = ([1, 1, 0, 0, 0, 0, 0, 0, 0, 0, 0, 0, 0, 0, 0, 0, 0], true) := by
      simp only [runFilters, hk, if_true]
      rfl
    rw [e]
    refine ⟨rfl, ⟨fun _ => .inl hk, fun _ => rfl⟩, rfl, rfl, fun c hc => ?_⟩
    rw [hk]
    simp only [counterMeaning, List.mem_cons, List.not_mem_nil, or_false] at hc
    rcases hc with rfl | rfl | rfl | rfl | rfl | rfl | rfl | rfl | rfl | rfl | rfl | rfl | rfl |
      rfl | rfl <;> rfl
  · have hk' : cfg.keepAll = false := by simpa using hk
    have hf0 : ((List.replicate 17 (0 : Int)).modify 0 (· + 1)).length = 17 := by simp
    obtain ⟨h1, h2, h3⟩ := fold_tests o cfg r tests
      ((List.replicate 17 (0 : Int)).modify 0 (· + 1)) true (by rw [hf0]; decide)
    generalize hst : tests.foldl (applyTest o cfg r)
      ((List.replicate 17 (0 : Int)).modify 0 (· + 1), true) = st at h1 h2 h3
    have hrun : runFilters o cfg r = if st.2 then (st.1.modify 1 (· + 1), st.2) else st := by
      simp only [runFilters, hk', Bool.false_eq_true, if_false, hst]
    rw [hf0] at h1
    have h30 : st.1.getD 0 0 = 1 := by rw [h3]; rfl
    have h31 : st.1.getD 1 0 = 0 := by rw [h3]; rfl
    have hlen : (runFilters o cfg r).1.length = 17 := by
      rw [hrun]; split
      · simpa using h1
      · exact h1
    have hflag : (runFilters o cfg r).2 = st.2 := by rw [hrun]; split <;> rfl
    have hslot : ∀ s, s ≠ 1 → (runFilters o cfg r).1.getD s 0 = st.1.getD s 0 := by
      intro s hs
      rw [hrun]; split
      · simp [List.getD_eq_getElem?_getD, List.getElem?_modify, Ne.symm hs]
      · rfl
    refine ⟨hlen, ?_, ?_, ?_, fun c hc => ?_⟩
    · rw [hflag, h2]
      simp only [tests, rejects, List.all_cons, List.all_nil, Bool.and_eq_true, Bool.not_eq_true',
        Bool.true_and, and_true]
      constructor
      · rintro ⟨a1, a2, a3, a4, a5, a6, a7, a8, a9, a10, a11, a12, a13, a14, a15⟩
        exact .inr ⟨a1, a2, a3, a4, a8, a5, a6, a7, a9, a10, a11, a12, a13, a14, a15⟩
      · rintro (h | ⟨a1, a2, a3, a4, a8, a5, a6, a7, a9, a10, a11, a12, a13, a14, a15⟩)
        · exact absurd h hk
        · exact ⟨a1, a2, a3, a4, a5, a6, a7, a8, a9, a10, a11, a12, a13, a14, a15⟩
    · rw [hslot 0 (by omega)]; exact h30
    · rw [hflag, hrun]
      cases hs : st.2 with
      | true =>
        rw [if_pos rfl, if_pos rfl]
        have hl1 : 1 < st.1.length := by omega
        simp only [List.getD_eq_getElem?_getD, List.getElem?_modify,
          List.getElem?_eq_getElem hl1] at h31 ⊢
        simp only [Option.getD_some] at h31
        simp [h31]
      | false =>
        rw [if_neg (by simp), if_neg (by simp)]
        exact h31
    · rw [hk']
      simp only [counterMeaning, List.mem_cons, List.not_mem_nil, or_false] at hc
      have key : ∀ s, 2 ≤ s → s < 17 → (runFilters o cfg r).1.getD s 0 =
          (tests.countP fun t => decide (t.1 = s) && rejects o cfg r t.2.1 t.2.2.1 t.2.2.2 : Nat) := by
        intro s h2s hs
        rw [hslot s (by omega), h3]
        have : ((List.replicate 17 (0 : Int)).modify 0 (· + 1)).getD s 0 = 0 := by
          simp only [List.getD_eq_getElem?_getD, List.getElem?_modify, List.getElem?_replicate, hs,
            if_true]
          have : ¬ 0 = s := by omega
          simp [this]
        rw [this]; simp
      rcases hc with rfl | rfl | rfl | rfl | rfl | rfl | rfl | rfl | rfl | rfl | rfl | rfl | rfl |
        rfl | rfl <;> rw [key _ (by simp) (by simp)] <;>
        simp [tests, List.countP_cons, rejects] <;> split <;> rfl

/-- The report of an evaluation has the expected form. -/
theorem report_ok (zero : F) (nm : Nat) (time : F) (j : Nat) (hlen : (packFloats zero nm time r).length = 58 + 8 * nm) :
    RepOk (58 + 8 * nm) j (report o cfg zero nm time j r) (runFilters o cfg r).2 := by
  obtain ⟨h1, _, h3, h4, _⟩ := runFilters_spec o cfg r
  refine ⟨?_, rfl, rfl, ?_, ?_, hlen⟩
  · show ([(j : Int), _, r.nEvals, r.helicity] ++ (runFilters o cfg r).1).length = 21
    rw [List.length_append, h1]; rfl
  · exact h3
  · exact h4

/-! ## Floats -/

theorem writeBlock_length (buf xs : List F) (off : Nat) (h : off + xs.length ≤ buf.length) :
    (writeBlock buf off xs).length = buf.length := by
  simp [writeBlock]; omega

theorem writeBlock_in (buf xs : List F) (off k : Nat) (h : off + xs.length ≤ buf.length)
    (hk : k < xs.length) : (writeBlock buf off xs)[off + k]? = xs[k]? := by
  unfold writeBlock
  rw [List.append_assoc, List.getElem?_append_right (by simp; omega),
    List.getElem?_append_left (by simp; omega)]
  congr 1
  simp; omega

theorem writeBlock_out (buf xs : List F) (off i : Nat) (h : off + xs.length ≤ buf.length)
    (hi : i < off ∨ off + xs.length ≤ i) : (writeBlock buf off xs)[i]? = buf[i]? := by
  unfold writeBlock
  rcases hi with hi | hi
  · rw [List.append_assoc, List.getElem?_append_left (by simp; omega), List.getElem?_take_of_lt hi]
  · rw [List.getElem?_append_right (by simp; omega), List.getElem?_drop]
    congr 1
    simp; omega

/-- Writing several blocks. -/
def writeBlocks (nm : Nat) (l : List (String × Nat)) (buf : List F) : List F :=
  l.foldl (fun buf (s, b) => writeBlock buf (b * nm + 58) (r.vec s)) buf

theorem writeBlocks_length (nm : Nat) (l : List (String × Nat)) (buf : List F)
    (h : ∀ x ∈ l, x.2 * nm + 58 + (r.vec x.1).length ≤ buf.length) :
    (writeBlocks r nm l buf).length = buf.length := by
  induction l generalizing buf with
  | nil => rfl
  | cons x l ih =>
    have hx := writeBlock_length buf (r.vec x.1) (x.2 * nm + 58) (h x (by simp))
    show (writeBlocks r nm l (writeBlock buf (x.2 * nm + 58) (r.vec x.1))).length = _
    rw [ih _ (fun y hy => by rw [hx]; exact h y (by simp [hy])), hx]

theorem writeBlocks_out (nm : Nat) (l : List (String × Nat)) (buf : List F) (i : Nat)
    (h : ∀ x ∈ l, x.2 * nm + 58 + (r.vec x.1).length ≤ buf.length)
    (hi : ∀ x ∈ l, i < x.2 * nm + 58 ∨ x.2 * nm + 58 + (r.vec x.1).length ≤ i) :
    (writeBlocks r nm l buf)[i]? = buf[i]? := by
  induction l generalizing buf with
  | nil => rfl
  | cons x l ih =>
    have hx := writeBlock_length buf (r.vec x.1) (x.2 * nm + 58) (h x (by simp))
    show (writeBlocks r nm l (writeBlock buf (x.2 * nm + 58) (r.vec x.1)))[i]? = _
    rw [ih _ (fun y hy => by rw [hx]; exact h y (by simp [hy])) (fun y hy => hi y (by simp [hy])),
      writeBlock_out _ _ _ _ (h x (by simp)) (hi x (by simp))]

theorem block_before {nm a b k : Nat} (hk : k < nm) (h : a < b) : a * nm + 58 + k < b * nm + 58 := by
  have : (a + 1) * nm ≤ b * nm := Nat.mul_le_mul_right nm h
  rw [Nat.succ_mul] at this
  omega

theorem writeBlocks_in (nm : Nat) (l : List (String × Nat)) (buf : List F) (s : String) (b k : Nat)
    (h : ∀ x ∈ l, x.2 * nm + 58 + nm ≤ buf.length) (hl : ∀ x ∈ l, (r.vec x.1).length ≤ nm)
    (hnd : (l.map Prod.snd).Nodup) (hm : (s, b) ∈ l) (hk : k < nm) :
    (writeBlocks r nm l buf)[b * nm + 58 + k]? =
      if k < (r.vec s).length then (r.vec s)[k]? else buf[b * nm + 58 + k]? := by
  obtain ⟨l1, l2, rfl⟩ := List.append_of_mem hm
  have h' : ∀ x ∈ l1 ++ (s, b) :: l2, x.2 * nm + 58 + (r.vec x.1).length ≤ buf.length :=
    fun x hx => Nat.le_trans (Nat.add_le_add_left (hl x hx) _) (h x hx)
  have out : ∀ x ∈ l1 ++ (s, b) :: l2, x.2 ≠ b →
      b * nm + 58 + k < x.2 * nm + 58 ∨ x.2 * nm + 58 + (r.vec x.1).length ≤ b * nm + 58 + k := by
    intro x hx hne
    rcases Nat.lt_or_gt_of_ne hne with hlt | hlt
    · right
      have := hl x hx
      have h2 : (x.2 + 1) * nm ≤ b * nm := Nat.mul_le_mul_right nm hlt
      rw [Nat.succ_mul] at h2
      omega
    · exact .inl (block_before hk hlt)
  rw [List.map_append, List.map_cons, List.nodup_append] at hnd
  obtain ⟨n1, n2, n3⟩ := hnd
  rw [List.nodup_cons] at n2
  have hne1 : ∀ x ∈ l1, x.2 ≠ b := fun x hx e =>
    n3 x.2 (List.mem_map.mpr ⟨x, hx, rfl⟩) b (by simp) e
  have hne2 : ∀ x ∈ l2, x.2 ≠ b := fun x hx e => n2.1 (List.mem_map.mpr ⟨x, hx, e⟩)
  have e1 : writeBlocks r nm (l1 ++ (s, b) :: l2) buf = writeBlocks r nm l2
      (writeBlock (writeBlocks r nm l1 buf) (b * nm + 58) (r.vec s)) := by
    simp [writeBlocks, List.foldl_append]
  have hl1 := writeBlocks_length r nm l1 buf fun x hx => h' x (by simp [hx])
  have hb := h' (s, b) (by simp)
  have hl2 := writeBlock_length (writeBlocks r nm l1 buf) (r.vec s) (b * nm + 58) (by rw [hl1]; exact hb)
  rw [e1, writeBlocks_out r nm l2 _ _ (fun x hx => by rw [hl2, hl1]; exact h' x (by simp [hx]))
    (fun x hx => out x (by simp [hx]) (hne2 x hx))]
  by_cases hk' : k < (r.vec s).length
  · rw [if_pos hk', writeBlock_in _ _ _ _ (by rw [hl1]; exact hb) hk']
  · rw [if_neg hk', writeBlock_out _ _ _ _ (by rw [hl1]; exact hb) (.inr (by dsimp only at hb ⊢; omega)),
      writeBlocks_out r nm l1 buf _ (fun x hx => h' x (by simp [hx]))
        (fun x hx => out x (by simp [hx]) (hne1 x hx))]

variable (zero time : F) (nm : Nat)

/-- The buffer before the Fourier blocks are written. -/
def startBuf : List F := [time] ++ rowSources.map r.get ++ List.replicate (8 * nm) zero

theorem startBuf_length : (startBuf r zero time nm).length = 58 + 8 * nm := by
  simp [startBuf, rowSources]; omega

theorem packFloats_eq :
    packFloats zero nm time r = writeBlocks r nm blockSources.zipIdx (startBuf r zero time nm) := rfl

theorem blocks_len (h : Sized nm r) : ∀ x ∈ blockSources.zipIdx, (r.vec x.1).length ≤ nm := by
  intro x hx
  have : x.1 ∈ blockSources := by
    have := List.mem_zipIdx' hx
    exact this.2 ▸ List.getElem_mem _
  simp only [blockSources, List.mem_cons, List.not_mem_nil, or_false] at this
  rcases this with e | e | e | e | e | e | e | e <;> rw [e]
  · exact Nat.le_of_eq (h.last "q.R0c" (by simp))
  · exact Nat.le_of_eq (h.last "q.R0s" (by simp))
  · exact Nat.le_of_eq (h.last "q.Z0c" (by simp))
  · exact Nat.le_of_eq (h.last "q.Z0s" (by simp))
  · exact h.first "iter_R0c" (by simp)
  · exact h.first "iter_R0s" (by simp)
  · exact h.first "iter_Z0c" (by simp)
  · exact h.first "iter_Z0s" (by simp)

theorem blocks_fit : ∀ x ∈ blockSources.zipIdx, x.2 * nm + 58 + nm ≤ (startBuf r zero time nm).length := by
  intro x hx
  rw [startBuf_length]
  have : x.2 < 8 := (List.mem_zipIdx' hx).1
  have h2 : (x.2 + 1) * nm ≤ 8 * nm := Nat.mul_le_mul_right nm this
  rw [Nat.succ_mul] at h2
  omega

theorem packFloats_length (h : Sized nm r) : (packFloats zero nm time r).length = 58 + 8 * nm := by
  rw [packFloats_eq, writeBlocks_length, startBuf_length]
  intro x hx
  exact Nat.le_trans (Nat.add_le_add_left (blocks_len r nm h x hx) _) (blocks_fit r zero time nm x hx)

theorem packFloats_row (h : Sized nm r) (k : Nat) (hk : k < 57) :
    (packFloats zero nm time r)[k + 1]? = (rowSources[k]?).map r.get := by
  rw [packFloats_eq, writeBlocks_out]
  · have hl : rowSources.length = 57 := rfl
    simp only [startBuf, List.cons_append, List.nil_append, List.getElem?_cons_succ]
    rw [List.getElem?_append_left (by rw [List.length_map, hl]; exact hk), List.getElem?_map]
  · intro x hx
    exact Nat.le_trans (Nat.add_le_add_left (blocks_len r nm h x hx) _) (blocks_fit r zero time nm x hx)
  · intro x hx; left; omega

theorem packFloats_mode (h : Sized nm r) (s : String) (b k : Nat) (hm : (s, b) ∈ blockSources.zipIdx)
    (hk : k < nm) :
    (packFloats zero nm time r)[k + b * nm + 58]? = some ((r.vec s).getD k zero) := by
  rw [packFloats_eq, show k + b * nm + 58 = b * nm + 58 + k by omega,
    writeBlocks_in r nm _ _ s b k (blocks_fit r zero time nm) (blocks_len r nm h) (by decide) hm hk]
  by_cases hk' : k < (r.vec s).length
  · rw [if_pos hk', List.getD_eq_getElem?_getD, List.getElem?_eq_getElem hk', Option.getD_some]
  · rw [if_neg hk', List.getD_eq_getElem?_getD, List.getElem?_eq_none (l := r.vec s) (by omega), Option.getD_none]
    have hb : b < 8 := (List.mem_zipIdx' hm).1
    have h2 : (b + 1) * nm ≤ 8 * nm := Nat.mul_le_mul_right nm hb
    rw [Nat.succ_mul] at h2
    have hl : ([time] ++ rowSources.map r.get).length = 58 := by simp [rowSources]
    unfold startBuf
    rw [List.getElem?_append_right (by rw [hl]; omega), hl, List.getElem?_replicate, if_pos (by omega)]

end Qsc.MultiScan
