import Verif.Spec.Toml

namespace Qsc.Toml
open Qsc.Spec.Toml

theorem bind_ok_iff {ε α β : Type} (x : Except ε α) (f : α → Except ε β) (b : β) :
    (x >>= f) = .ok b ↔ ∃ a, x = .ok a ∧ f a = .ok b := by
  cases x with
  | error e => simp [bind, Except.bind]
  | ok a => simp [bind, Except.bind]

/-- keys of a table are distinct -/
def Unique {F : Type} (t : Table F) : Prop := (t.map (·.1)).Nodup

theorem find?_none_iff {F : Type} (t : Table F) (k : Key) :
    find? t k = none ↔ ∀ x, (k, x) ∉ t := by
  unfold find?
  rw [Option.map_eq_none_iff, List.find?_eq_none]
  constructor
  · intro h x hx
    simpa using h (k, x) hx
  · rintro h ⟨k', x⟩ hx hk
    simp only [beq_iff_eq] at hk
    subst hk
    exact h x hx

theorem find?_some_iff {F : Type} (t : Table F) (hu : Unique t) (k : Key) (x : Value F) :
    find? t k = some x ↔ (k, x) ∈ t := by
  induction t with
  | nil => simp [find?]
  | cons kv t ih =>
    obtain ⟨k', x'⟩ := kv
    unfold Unique at hu
    simp only [List.map_cons, List.nodup_cons] at hu
    have ih := ih hu.2
    unfold find? at ih ⊢
    by_cases h : k' = k
    · subst h
      simp only [List.find?_cons, beq_self_eq_true, Option.map_some, Option.some.injEq,
        List.mem_cons, Prod.mk.injEq, true_and]
      constructor
      · intro h; exact Or.inl h.symm
      · rintro (h | h)
        · exact h.symm
        · exact absurd (List.mem_map_of_mem (f := (·.1)) h) hu.1
    · have : (k' == k) = false := by simpa using h
      simp only [List.find?_cons, this, List.mem_cons, Prod.mk.injEq]
      rw [ih]
      constructor
      · exact Or.inr
      · rintro (⟨h', _⟩ | h')
        · exact absurd h'.symm h
        · exact h'

/-- `Reads` with the relation given by a conversion function. -/
def ReadsC {F α : Type} (conv : Value F → Except Err α) (t : Table F) (k : Key) (d v : α) : Prop :=
  Reads (fun x v => conv x = .ok v) t k d v

theorem asInt_is {F : Type} (x : Value F) (v : Int) : asInt x = .ok v ↔ IsInt x v := by
  cases x <;> simp [asInt, IsInt]

theorem asFloat_is {F : Type} (ofInt : Int → F) (x : Value F) (v : F) :
    asFloat ofInt x = .ok v ↔ IsFloat ofInt x v := by
  cases x <;> simp [asFloat, IsFloat, eq_comm]

theorem asStr_is {F : Type} (x : Value F) (v : String) : asStr x = .ok v ↔ IsStr x v := by
  cases x <;> simp [asStr, IsStr]

theorem asBool_is {F : Type} (x : Value F) (v : Bool) : asBool x = .ok v ↔ IsBool x v := by
  cases x <;> simp [asBool, IsBool]
  rename_i i
  cases v <;> simp

theorem asVector_is {F : Type} (x : Value F) (v : List F) : asVector x = .ok v ↔ IsVector x v := by
  cases x with
  | arr vs =>
    simp only [asVector, IsVector, Value.arr.injEq]
    induction vs generalizing v with
    | nil => cases v <;> simp [pure, Except.pure]
    | cons a vs ih =>
      rw [List.mapM_cons, bind_ok_iff]
      cases v with
      | nil => simp [bind_ok_iff, pure, Except.pure]
      | cons w v =>
        simp only [bind_ok_iff, pure, Except.pure, Except.ok.injEq, List.cons.injEq, List.map_cons]
        constructor
        · rintro ⟨b, hb, l, hl, rfl, rfl⟩
          refine ⟨?_, (ih _).1 hl⟩
          cases a <;> simp_all [floatElem]
        · rintro ⟨rfl, h⟩
          exact ⟨w, rfl, v, (ih _).2 h, rfl, rfl⟩
  | _ => simp [asVector, IsVector]

theorem tomlRead_ok_iff {F α : Type} (conv : Value F → Except Err α) (t : Table F)
    (hu : Unique t) (k : Key) (d : α) (vl : List Key) (p : α × List Key) :
    tomlRead conv t k d vl = .ok p ↔ ReadsC conv t k d p.1 ∧ p.2 = vl ++ [k] := by
  obtain ⟨v, vl'⟩ := p
  unfold tomlRead ReadsC Reads
  cases h : find? t k with
  | none =>
    have hn := (find?_none_iff t k).mp h
    simp only [pure, Except.pure, Except.ok.injEq, Prod.mk.injEq]
    constructor
    · rintro ⟨rfl, rfl⟩
      exact ⟨⟨fun _ => rfl, fun x hx => absurd hx (hn x)⟩, rfl⟩
    · rintro ⟨⟨h1, _⟩, rfl⟩
      exact ⟨(h1 hn).symm, rfl⟩
  | some x =>
    have hm := (find?_some_iff t hu k x).mp h
    simp only [bind_ok_iff, pure, Except.pure, Except.ok.injEq, Prod.mk.injEq]
    constructor
    · rintro ⟨a, ha, rfl, rfl⟩
      refine ⟨⟨fun hc => absurd hm (hc x), fun y hy => ?_⟩, rfl⟩
      have := (find?_some_iff t hu k y).mpr hy
      rw [h] at this
      cases this
      exact ha
    · rintro ⟨⟨_, h2⟩, rfl⟩
      exact ⟨v, h2 x hm, rfl, rfl⟩

theorem bind_error_iff {ε α β : Type} (x : Except ε α) (f : α → Except ε β) (e : ε) :
    (x >>= f) = .error e ↔ x = .error e ∨ ∃ a, x = .ok a ∧ f a = .error e := by
  cases x with
  | error e => simp [bind, Except.bind]
  | ok a => simp [bind, Except.bind]

theorem tomlRead_error {F α : Type} (conv : Value F → Except Err α) (t : Table F)
    (k : Key) (d : α) (vl : List Key) (e : Err) (h : tomlRead conv t k d vl = .error e) :
    ∃ x, (k, x) ∈ t ∧ conv x = .error e := by
  unfold tomlRead at h
  cases hf : find? t k with
  | none => rw [hf] at h; cases h
  | some x =>
    rw [hf] at h
    simp only [bind_error_iff, pure, Except.pure, reduceCtorEq, and_false, exists_false,
      or_false] at h
    refine ⟨x, ?_, h⟩
    unfold find? at hf
    rw [Option.map_eq_some_iff] at hf
    obtain ⟨⟨k', x'⟩, h1, h2⟩ := hf
    have hm := List.mem_of_find?_eq_some h1
    have hk := List.find?_some h1
    simp only [beq_iff_eq] at hk h2
    subst hk; subst h2
    exact hm

theorem tomlUnused_error {F : Type} (vl : List Key) (t : Table F) (e : Err)
    (h : tomlUnused vl t = .error e) : ∃ k x, (k, x) ∈ t ∧ k ∉ vl ∧ e = .unusedKey k := by
  induction t with
  | nil => simp [tomlUnused] at h
  | cons kv t ih =>
    obtain ⟨k, x⟩ := kv
    unfold tomlUnused at h
    split at h
    · obtain ⟨k', x', hm, h2⟩ := ih h
      exact ⟨k', x', List.mem_cons_of_mem _ hm, h2⟩
    · rename_i hc
      simp only [Except.error.injEq] at h
      exact ⟨k, x, List.mem_cons_self .., by simpa using hc, h.symm⟩

theorem asInt_error {F : Type} {x : Value F} {e : Err} (h : asInt x = .error e) :
    e = .typeError ∧ ¬ ∃ i, x = .int i := by
  cases x <;> simp_all [asInt]

theorem asFloat_error {F : Type} {ofInt : Int → F} {x : Value F} {e : Err}
    (h : asFloat ofInt x = .error e) :
    e = .typeError ∧ ¬ ((∃ y, x = .flt y) ∨ ∃ i, x = .int i) := by
  cases x <;> simp_all [asFloat]

theorem asStr_error {F : Type} {x : Value F} {e : Err} (h : asStr x = .error e) :
    e = .typeError ∧ ¬ ∃ s, x = .str s := by
  cases x <;> simp_all [asStr]

theorem mapM_floatElem {F : Type} (l : List F) :
    (l.map Value.flt).mapM (floatElem (F := F)) = .ok l := by
  induction l with
  | nil => rfl
  | cons a l ih => simp [List.mapM_cons, ih, floatElem, bind, Except.bind, pure, Except.pure]

theorem mapM_floatElem_error {F : Type} (l : List (Value F)) (e : Err)
    (h : l.mapM (floatElem (F := F)) = .error e) : e = .typeError := by
  induction l with
  | nil => cases h
  | cons a l ih =>
    rw [List.mapM_cons, bind_error_iff] at h
    rcases h with h | ⟨y, _, h⟩
    · cases a <;> simp_all [floatElem]
    · rw [bind_error_iff] at h
      rcases h with h | ⟨z, _, h⟩
      · exact ih h
      · cases h

theorem asVector_error {F : Type} {x : Value F} {e : Err} (h : asVector x = .error e) :
    e = .typeError ∧ ¬ ∃ l : List F, x = .arr (l.map .flt) := by
  cases x with
  | arr vs =>
    refine ⟨mapM_floatElem_error vs e h, ?_⟩
    rintro ⟨l, hl⟩
    cases hl
    rw [asVector, mapM_floatElem] at h
    cases h
  | _ => simp_all [asVector]

theorem tomlUnused_ok_iff {F : Type} (vl : List Key) (t : Table F) :
    tomlUnused vl t = .ok () ↔ ∀ k x, (k, x) ∈ t → k ∈ vl := by
  induction t with
  | nil => simp [tomlUnused]
  | cons kv t ih =>
    obtain ⟨k, x⟩ := kv
    unfold tomlUnused
    by_cases h : k ∈ vl
    · rw [if_pos (by simpa using h), ih]
      constructor
      · intro hh k' x' hm
        rcases List.mem_cons.mp hm with h' | h'
        · cases h'; exact h
        · exact hh k' x' h'
      · intro hh k' x' hm
        exact hh k' x' (List.mem_cons_of_mem _ hm)
    · rw [if_neg (by simpa using h)]
      simp only [reduceCtorEq, false_iff]
      intro hh
      exact h (hh k x (List.mem_cons_self ..))

theorem padVector_ok_iff {F : Type} (zero : F) (v : List F) (n : Nat) (w : List F) :
    padVector zero v n = .ok w ↔ PaddedTo zero n v w := by
  unfold padVector PaddedTo
  constructor
  · intro h
    split at h
    · rename_i hl
      simp only [Except.ok.injEq] at h
      subst h
      refine ⟨by simp; omega, hl, ?_, ?_⟩
      · intro i hi
        rw [List.getElem?_append_left hi]
        simp [hi]
      · intro i h1 h2
        rw [List.getElem?_append_right h1, List.getElem?_replicate, if_pos (by omega)]
    · cases h
  · rintro ⟨h1, h2, h3, h4⟩
    rw [if_pos h2]
    congr 1
    apply List.ext_getElem?
    intro i
    by_cases hi : i < v.length
    · rw [h3 i hi, List.getElem?_append_left hi]; simp [hi]
    · by_cases hn : i < n
      · rw [h4 i (by omega) hn, List.getElem?_append_right (by omega), List.getElem?_replicate,
          if_pos (by omega)]
      · rw [List.getElem?_eq_none (by simp; omega), List.getElem?_eq_none (by omega)]

end Qsc.Toml
