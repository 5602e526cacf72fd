import Verif.Spec.OptState
import Std.Data.String.ToNat

/-!
# Lemmas about the loops over the parameters
-/

namespace Qsc.OptState

open Qsc.Spec.OptState

variable {K : Type}

/-- Indices of the set flags, counted from `k`. -/
def on : List Bool → Nat → List Nat
  | [], _ => []
  | b :: bs, k => if b then k :: on bs (k + 1) else on bs (k + 1)

theorem on_ge (bs : List Bool) (k : Nat) : ∀ i ∈ on bs k, k ≤ i := by
  induction bs generalizing k with
  | nil => simp [on]
  | cons b bs ih =>
    intro i hi
    rw [on] at hi
    split at hi
    · rcases List.mem_cons.1 hi with rfl | hi
      · exact Nat.le_refl _
      · exact Nat.le_of_succ_le (ih _ _ hi)
    · exact Nat.le_of_succ_le (ih _ _ hi)

theorem mem_on (bs : List Bool) (k i : Nat) : i ∈ on bs k ↔ k ≤ i ∧ bs[i - k]? = some true := by
  induction bs generalizing k with
  | nil => simp [on]
  | cons b bs ih =>
    have hrec : (i ∈ on bs (k + 1)) ↔ (k < i ∧ (b :: bs)[i - k]? = some true) := by
      rw [ih]
      constructor
      · rintro ⟨h, e⟩
        refine ⟨h, ?_⟩
        rw [show i - k = (i - (k + 1)) + 1 by omega]; exact e
      · rintro ⟨h, e⟩
        refine ⟨h, ?_⟩
        rw [show i - k = (i - (k + 1)) + 1 by omega] at e; exact e
    rw [on]
    cases b with
    | true =>
      simp only [if_true, List.mem_cons, hrec]
      constructor
      · rintro (rfl | h)
        · simp
        · exact ⟨Nat.le_of_lt h.1, h.2⟩
      · rintro ⟨h, e⟩
        rcases Nat.eq_or_lt_of_le h with rfl | h
        · exact .inl rfl
        · exact .inr ⟨h, e⟩
    | false =>
      simp only [Bool.false_eq_true, if_false, hrec]
      constructor
      · rintro ⟨h, e⟩; exact ⟨Nat.le_of_lt h, e⟩
      · rintro ⟨h, e⟩
        rcases Nat.eq_or_lt_of_le h with rfl | h
        · simp at e
        · exact ⟨h, e⟩

theorem on_sorted (bs : List Bool) (k : Nat) : (on bs k).Pairwise (· < ·) := by
  induction bs generalizing k with
  | nil => simp [on]
  | cons b bs ih =>
    rw [on]
    split
    · exact List.pairwise_cons.2 ⟨fun i hi => on_ge _ _ _ hi, ih _⟩
    · exact ih _

theorem on_lt (bs : List Bool) (k i : Nat) (h : i ∈ on bs k) : i < k + bs.length := by
  obtain ⟨h1, h2⟩ := (mem_on _ _ _).1 h
  obtain ⟨h3, _⟩ := List.getElem?_eq_some_iff.1 h2
  omega

/-- The parameters in the order of the code. -/
def layout (fl : Flags) : List Param :=
  (if fl.etaBar then [.etaBar] else []) ++ ((if fl.sigma0 then [.sigma0] else []) ++
  ((if fl.B2c then [.B2c] else []) ++ ((if fl.B2s then [.B2s] else []) ++
  ((on fl.R0c 0).map .R0c ++ ((on fl.R0s 0).map .R0s ++
  ((on fl.Z0c 0).map .Z0c ++ (on fl.Z0s 0).map .Z0s))))))

theorem mem_ite_single {α : Type} (b : Bool) (a p : α) :
    p ∈ (if b then [a] else []) ↔ p = a ∧ b = true := by cases b <;> simp

/-- Adding a block of one kind in front keeps the order. -/
theorem block_sorted (l rest : List Param) (c : Nat) (hl : l.Pairwise Before)
    (hc : ∀ p ∈ l, p.kind = c) (hr : rest.Pairwise Before ∧ ∀ p ∈ rest, c + 1 ≤ p.kind) :
    (l ++ rest).Pairwise Before ∧ ∀ p ∈ l ++ rest, c ≤ p.kind := by
  refine ⟨List.pairwise_append.2 ⟨hl, hr.1, fun a ha b hb => .inl ?_⟩, fun p hp => ?_⟩
  · have := hc a ha; have := hr.2 b hb; omega
  · rcases List.mem_append.1 hp with h | h
    · exact Nat.le_of_eq (hc p h).symm
    · exact Nat.le_of_succ_le (hr.2 p h)

theorem single_sorted (b : Bool) (a : Param) : (if b then [a] else []).Pairwise Before ∧
    ∀ p ∈ (if b then [a] else []), p.kind = a.kind := by cases b <;> simp

theorem modes_sorted (f : Nat → Param) (bs : List Bool) (c : Nat) (hc : ∀ i, (f i).kind = c)
    (hmo : ∀ i, (f i).mode = i) : ((on bs 0).map f).Pairwise Before ∧
      ∀ p ∈ (on bs 0).map f, p.kind = c := by
  constructor
  · refine List.pairwise_map.2 ((on_sorted bs 0).imp ?_)
    intro a b h
    exact .inr ⟨by rw [hc, hc], by rw [hmo, hmo]; exact h⟩
  · intro p hp
    obtain ⟨i, -, rfl⟩ := List.mem_map.1 hp
    exact hc i

theorem layout_ok (fl : Flags) : Layout fl (layout fl) := by
  constructor
  · intro p
    cases p <;> simp [layout, mem_ite_single, mem_on, Varied]
  · have h7 := modes_sorted .Z0s fl.Z0s 7 (fun _ => rfl) fun _ => rfl
    have h6 := modes_sorted .Z0c fl.Z0c 6 (fun _ => rfl) fun _ => rfl
    have h5 := modes_sorted .R0s fl.R0s 5 (fun _ => rfl) fun _ => rfl
    have h4 := modes_sorted .R0c fl.R0c 4 (fun _ => rfl) fun _ => rfl
    have e7 := And.intro h7.1 fun p hp => Nat.le_of_eq (h7.2 p hp).symm
    have e6 := block_sorted _ _ 6 h6.1 h6.2 e7
    have e5 := block_sorted _ _ 5 h5.1 h5.2 e6
    have e4 := block_sorted _ _ 4 h4.1 h4.2 e5
    have e3 := block_sorted _ _ 3 (single_sorted fl.B2s .B2s).1 (single_sorted fl.B2s .B2s).2 e4
    have e2 := block_sorted _ _ 2 (single_sorted fl.B2c .B2c).1 (single_sorted fl.B2c .B2c).2 e3
    have e1 := block_sorted _ _ 1 (single_sorted fl.sigma0 .sigma0).1
      (single_sorted fl.sigma0 .sigma0).2 e2
    exact (block_sorted _ _ 0 (single_sorted fl.etaBar .etaBar).1
      (single_sorted fl.etaBar .etaBar).2 e1).1

theorem Before.irrefl (p : Param) : ¬ Before p p := by
  rintro (h | ⟨-, h⟩) <;> exact Nat.lt_irrefl _ h

theorem Before.asymm {p r : Param} (h : Before p r) : ¬ Before r p := by
  unfold Before at *; omega

/-- The specification determines the order. -/
theorem layout_unique {fl : Flags} {ps rs : List Param} (h : Layout fl ps) (h' : Layout fl rs) :
    ps = rs := by
  obtain ⟨hm, hs⟩ := h
  obtain ⟨hm', hs'⟩ := h'
  have hmem : ∀ p, p ∈ ps ↔ p ∈ rs := fun p => (hm p).trans (hm' p).symm
  clear hm hm'
  induction ps generalizing rs with
  | nil =>
    cases rs with
    | nil => rfl
    | cons r rs => exact absurd ((hmem r).2 List.mem_cons_self) (by simp)
  | cons p ps ih =>
    cases rs with
    | nil => exact absurd ((hmem p).1 List.mem_cons_self) (by simp)
    | cons r rs =>
      rw [List.pairwise_cons] at hs hs'
      have hpr : p = r := by
        rcases List.mem_cons.1 ((hmem p).1 List.mem_cons_self) with h | h
        · exact h
        rcases List.mem_cons.1 ((hmem r).2 List.mem_cons_self) with h2 | h2
        · exact h2.symm
        exact absurd (hs.1 r h2) (Before.asymm (hs'.1 p h))
      subst hpr
      have : ps = rs := by
        refine ih hs.2 hs'.2 fun x => ⟨fun hx => ?_, fun hx => ?_⟩
        · rcases List.mem_cons.1 ((hmem x).1 (List.mem_cons_of_mem _ hx)) with rfl | h
          · exact absurd (hs.1 _ hx) (Before.irrefl _)
          · exact h
        · rcases List.mem_cons.1 ((hmem x).2 (List.mem_cons_of_mem _ hx)) with rfl | h
          · exact absurd (hs'.1 _ hx) (Before.irrefl _)
          · exact h
      rw [this]

theorem layout_nodup (fl : Flags) : (layout fl).Nodup :=
  (layout_ok fl).sorted.imp (by rintro a b h rfl; exact Before.irrefl _ h)

/-! ## Names -/

theorem countArr_eq (name : String) (bs : List Bool) (k : Nat) (s : Nat × List String) :
    countArr name bs k s = (s.1 + (on bs k).length,
      s.2 ++ (on bs k).map fun i => name ++ "[" ++ toString i ++ "]") := by
  induction bs generalizing k s with
  | nil => simp [countArr, on]
  | cons b bs ih =>
    rw [countArr, ih, on]
    cases b <;> simp <;> omega

theorem countScalar_eq (b : Bool) (p : Param) (s : Nat × List String) :
    countScalar b p.name s = (s.1 + (if b then [p] else []).length,
      s.2 ++ (if b then [p] else []).map Param.name) := by
  cases b <;> simp [countScalar]

theorem initParameters_eq (fl : Flags) :
    initParameters fl = if (layout fl).length < 1 then
      .error (.throw "There must be at least 1 parameter varied.")
      else .ok ((layout fl).length, (layout fl).map Param.name) := by
  have hR0c : (fun i : Nat => "R0c" ++ "[" ++ toString i ++ "]") = Param.name ∘ Param.R0c := by
    funext i; simp [Param.name, toString]
  have hR0s : (fun i : Nat => "R0s" ++ "[" ++ toString i ++ "]") = Param.name ∘ Param.R0s := by
    funext i; simp [Param.name, toString]
  have hZ0c : (fun i : Nat => "Z0c" ++ "[" ++ toString i ++ "]") = Param.name ∘ Param.Z0c := by
    funext i; simp [Param.name, toString]
  have hZ0s : (fun i : Nat => "Z0s" ++ "[" ++ toString i ++ "]") = Param.name ∘ Param.Z0s := by
    funext i; simp [Param.name, toString]
  have key : countArr "Z0s" fl.Z0s 0 (countArr "Z0c" fl.Z0c 0 (countArr "R0s" fl.R0s 0
      (countArr "R0c" fl.R0c 0 (countScalar fl.B2s (Param.name .B2s) (countScalar fl.B2c
      (Param.name .B2c) (countScalar fl.sigma0 (Param.name .sigma0) (countScalar fl.etaBar
      (Param.name .etaBar) (0, [])))))))) =
      ((layout fl).length, (layout fl).map Param.name) := by
    simp only [countArr_eq, countScalar_eq, hR0c, hR0s, hZ0c, hZ0s]
    simp only [layout, List.length_append, List.length_map, List.map_append, List.map_map,
      List.append_assoc, List.nil_append, Nat.zero_add, Nat.add_assoc]
  unfold initParameters
  exact congrArg (fun s : Nat × List String => if s.1 < 1 then
    Except.error (Err.throw "There must be at least 1 parameter varied.") else Except.ok s) key

/-! ## Writing the vector -/

theorem setScalar_eq (b : Bool) (v : K) (dn rest : List K)
    (h : (if b then [v] else []).length ≤ rest.length) :
    setScalar b v (dn ++ rest, dn.length) = .ok
      ((dn ++ (if b then [v] else [])) ++ rest.drop (if b then [v] else []).length,
        (dn ++ (if b then [v] else [])).length) := by
  cases b with
  | false => simp [setScalar]
  | true =>
    cases rest with
    | nil => simp at h
    | cons r rest => simp [setScalar, put]

theorem setArr_eq (xs : List K) (bs : List Bool) (k : Nat) (dn rest vals : List K)
    (hv : (on bs k).map (fun i => xs[i]?) = vals.map some) (h : vals.length ≤ rest.length) :
    setArr xs bs k (dn ++ rest, dn.length) =
      .ok ((dn ++ vals) ++ rest.drop vals.length, (dn ++ vals).length) := by
  induction bs generalizing k dn rest vals with
  | nil =>
    have : vals = [] := by simpa [on] using hv
    subst this; simp [setArr]
  | cons b bs ih =>
    rw [setArr]
    cases b with
    | false => simpa [on] using ih (k + 1) dn rest vals (by simpa [on] using hv) h
    | true =>
      cases vals with
      | nil => simp [on] at hv
      | cons v vals =>
        simp only [on, if_true, List.map_cons, List.cons.injEq] at hv
        cases rest with
        | nil => simp at h
        | cons r rest =>
          have hp : put v (dn ++ r :: rest, dn.length) = .ok ((dn ++ [v]) ++ rest,
              (dn ++ [v]).length) := by simp [put]
          simp only [if_true, hv.1, hp, Except.bind]
          rw [ih (k + 1) (dn ++ [v]) rest vals hv.2 (by simpa using h)]
          simp

theorem vals_exist (xs : List K) (bs : List Bool) (h : bs.length ≤ xs.length) :
    ∃ vals : List K, (on bs 0).map (fun i => xs[i]?) = vals.map some := by
  refine ⟨(on bs 0).filterMap fun i => xs[i]?, ?_⟩
  rw [List.map_filterMap]
  have : ∀ i ∈ on bs 0, i < xs.length := fun i hi => by have := on_lt _ _ _ hi; omega
  revert this
  generalize on bs 0 = l
  intro hl
  induction l with
  | nil => rfl
  | cons a l ih =>
    have ha : a < xs.length := hl a List.mem_cons_self
    simp only [List.map_cons, List.filterMap_cons, List.getElem?_eq_getElem ha, Option.map_some]
    rw [ih fun i hi => hl i (List.mem_cons_of_mem _ hi)]

/-! ## Reading the vector -/

theorem unpackScalar_eq (pre vals post : List K) (b : Bool) (old : K)
    (h : vals.length = (if b then [()] else []).length) :
    ∃ x, unpackScalar (pre ++ vals ++ post) b old pre.length = .ok (x, (pre ++ vals).length) ∧
      (b = true → vals = [x]) ∧ (b = false → x = old) := by
  cases b with
  | false =>
    have : vals = [] := by simpa using h
    subst this
    exact ⟨old, by simp [unpackScalar], by simp, by simp⟩
  | true =>
    obtain ⟨v, rfl⟩ : ∃ v, vals = [v] := by
      match vals, h with
      | [v], _ => exact ⟨v, rfl⟩
    exact ⟨v, by simp [unpackScalar], by simp, by simp⟩

theorem unpackArr_eq (bs : List Bool) (k : Nat) (pre vals post xs : List K)
    (hx : k + bs.length ≤ xs.length) (h : vals.length = (on bs k).length) :
    ∃ xs', unpackArr (pre ++ vals ++ post) bs k (xs, pre.length) =
        .ok (xs', (pre ++ vals).length) ∧ xs'.length = xs.length ∧
      (∀ i, i ∉ on bs k → xs'[i]? = xs[i]?) ∧
      (on bs k).map (fun i => xs'[i]?) = vals.map some := by
  induction bs generalizing k pre vals xs with
  | nil =>
    have : vals = [] := by simpa [on] using h
    subst this
    exact ⟨xs, by simp [unpackArr], rfl, fun _ _ => rfl, by simp [on]⟩
  | cons b bs ih =>
    have hx' : k + 1 + bs.length ≤ xs.length := by simp only [List.length_cons] at hx; omega
    rw [unpackArr]
    cases b with
    | false => simpa [on] using ih (k + 1) pre vals xs hx' (by simpa [on] using h)
    | true =>
      cases vals with
      | nil => simp [on] at h
      | cons v vals =>
        obtain ⟨xs', h1, h2, h3, h4⟩ := ih (k + 1) (pre ++ [v]) vals (xs.set k v)
          (by simpa using hx') (by simpa [on] using h)
        have hk : k < xs.length := by omega
        have hnot : k ∉ on bs (k + 1) := fun hm => by have := on_ge _ _ _ hm; omega
        refine ⟨xs', ?_, by simpa using h2, ?_, ?_⟩
        · have hg : (pre ++ v :: vals ++ post)[pre.length]? = some v := by simp
          simp only [if_true, hg, hk]
          rw [show (pre ++ v :: vals ++ post) = (pre ++ [v] ++ vals ++ post) by simp,
            show pre.length + 1 = (pre ++ [v]).length by simp, h1]
          simp
        · intro i hi
          simp only [on, if_true, List.mem_cons, not_or] at hi
          rw [h3 i hi.2, List.getElem?_set_ne (Ne.symm hi.1)]
        · simp only [on, if_true, List.map_cons, h4]
          rw [h3 k hnot, List.getElem?_set_self hk]

/-- A vector can be cut into consecutive parts. -/
theorem split_vec {α : Type} (l : List α) (a b : Nat) (h : l.length = a + b) :
    ∃ x y, l = x ++ y ∧ x.length = a ∧ y.length = b :=
  ⟨l.take a, l.drop a, (List.take_append_drop a l).symm, by simp; omega, by simp; omega⟩

end Qsc.OptState
