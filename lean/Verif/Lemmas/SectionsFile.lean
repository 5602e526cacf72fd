import Verif.Lemmas.Sections

namespace Qsc.Sections

open Qsc.Spec.Sections Qsc.Toml Qsc.Spec.Toml

variable {F : Type}

theorem ebind_iff {ε α β : Type} {x : Except ε α} {g : α → Except ε β} {b : β} :
    x.bind g = .ok b ↔ ∃ a, x = .ok a ∧ g a = .ok b := by
  cases x <;> simp [Except.bind]

theorem lift_iff {α : Type} {x : Except Toml.Err α} {a : α} : lift x = .ok a ↔ x = .ok a := by
  cases x <;> simp [lift]

theorem findSection_iff {f : File F} (hf : (f.map (·.1)).Nodup) (name : String) (t : Table F) :
    findSection f name = .ok t ↔ (name, t) ∈ f := by
  induction f with
  | nil => simp [findSection]
  | cons s f ih =>
    obtain ⟨n, u⟩ := s
    simp only [List.map_cons, List.nodup_cons] at hf
    have ih := ih hf.2
    unfold findSection at ih ⊢
    by_cases h : n = name
    · subst h
      simp only [List.find?_cons, beq_self_eq_true, Except.ok.injEq, List.mem_cons, Prod.mk.injEq,
        true_and]
      constructor
      · intro h; exact Or.inl h.symm
      · rintro (h | h)
        · exact h.symm
        · exact absurd (List.mem_map_of_mem (f := (·.1)) h) hf.1
    · have : (n == name) = false := by simpa using h
      simp only [List.find?_cons, this, List.mem_cons, Prod.mk.injEq]
      rw [ih]
      constructor
      · exact Or.inr
      · rintro (⟨h', _⟩ | h')
        · exact absurd h'.symm h
        · exact h'

theorem inputQsc_iff (ofInt : Int → F) (zero : F) {f : File F} (hf : (f.map (·.1)).Nodup)
    (d q : QscIn F) :
    inputQsc ofInt zero f d = .ok q ↔ ∃ t, ("qsc", t) ∈ f ∧ qscInput ofInt zero t d = .ok q := by
  unfold inputQsc
  rw [ebind_iff]
  simp only [findSection_iff hf, lift_iff]

theorem vecOf_iff (o : Obj F) (m : String) (l : List F) :
    vecOf o m = .ok l ↔ o m = some (.flts l) := by
  unfold vecOf
  split
  · rename_i h; simp [h]
  · rename_i h
    simp only [reduceCtorEq, false_iff]
    exact fun h' => h _ h'

theorem newSize_iff (o : Obj F) (ms : List String) (n0 n : Nat) :
    newSize o ms n0 = .ok n ↔ ∃ ls : List (List F), ms.map o = ls.map (fun l => some (.flts l)) ∧
      n = ls.foldl (fun k l => max k l.length) n0 := by
  induction ms generalizing n0 with
  | nil =>
    simp only [newSize, Except.ok.injEq, List.map_nil]
    constructor
    · rintro rfl; exact ⟨[], rfl, rfl⟩
    · rintro ⟨ls, h, rfl⟩
      cases ls with
      | nil => rfl
      | cons => simp at h
  | cons m ms ih =>
    simp only [newSize, ebind_iff, vecOf_iff, ih, List.map_cons]
    constructor
    · rintro ⟨l, h, ls, h2, rfl⟩
      exact ⟨l :: ls, by simp [h, h2], rfl⟩
    · rintro ⟨ls, h, rfl⟩
      cases ls with
      | nil => simp at h
      | cons l ls =>
        simp only [List.map_cons, List.cons.injEq] at h
        exact ⟨l, h.1, ls, h.2, rfl⟩

theorem foldl_max {l : List (List F)} {n : Nat} :
    n ≤ l.foldl (fun k l => max k l.length) n ∧
      (∀ v ∈ l, v.length ≤ l.foldl (fun k l => max k l.length) n) ∧
      (l.foldl (fun k l => max k l.length) n = n ∨
        ∃ v ∈ l, v.length = l.foldl (fun k l => max k l.length) n) := by
  induction l generalizing n with
  | nil => simp
  | cons a l ih =>
    obtain ⟨h1, h2, h3⟩ := ih (n := max n a.length)
    simp only [List.foldl_cons]
    refine ⟨by omega, ?_, ?_⟩
    · intro v hv
      rcases List.mem_cons.1 hv with rfl | hv
      · omega
      · exact h2 v hv
    · rcases h3 with h3 | ⟨v, hv, h3⟩
      · by_cases h : a.length ≤ n
        · left; omega
        · right; exact ⟨a, List.mem_cons_self .., by omega⟩
      · right; exact ⟨v, List.mem_cons_of_mem _ hv, h3⟩

theorem padMembers_iff (zero : F) (n : Nat) (ms : List String) (hn : ms.Nodup) (o r : Obj F) :
    padMembers zero n ms o = .ok r ↔
      (∀ m ∈ ms, ∃ l w, o m = some (.flts l) ∧ r m = some (.flts w) ∧ PaddedTo zero n l w) ∧
      ∀ m, m ∉ ms → r m = o m := by
  induction ms generalizing o with
  | nil =>
    simp only [padMembers, Except.ok.injEq, List.not_mem_nil, false_implies, implies_true,
      not_false_eq_true, true_implies, true_and]
    exact ⟨fun h m => by rw [h], fun h => (funext h).symm⟩
  | cons m ms ih =>
    rw [List.nodup_cons] at hn
    simp only [padMembers, ebind_iff, vecOf_iff, lift_iff, padVector_ok_iff, ih hn.2]
    constructor
    · rintro ⟨l, hl, w, hw, h1, h2⟩
      refine ⟨?_, ?_⟩
      · intro k hk
        rcases List.mem_cons.1 hk with rfl | hk
        · refine ⟨l, w, hl, ?_, hw⟩
          rw [h2 _ hn.1]; simp [set]
        · have hne : k ≠ m := fun h => hn.1 (h ▸ hk)
          have := h1 k hk
          simpa [set, hne] using this
      · intro k hk
        simp only [List.mem_cons, not_or] at hk
        rw [h2 k hk.2]; simp [set, hk.1]
    · rintro ⟨h1, h2⟩
      obtain ⟨l, w, hl, hw, hp⟩ := h1 m (List.mem_cons_self ..)
      refine ⟨l, hl, w, hp, ?_, ?_⟩
      · intro k hk
        have hne : k ≠ m := fun h => hn.1 (h ▸ hk)
        simpa [set, hne] using h1 k (List.mem_cons_of_mem _ hk)
      · intro k hk
        by_cases hkm : k = m
        · subst hkm; simp [set, hw]
        · simp only [set, hkm, if_false]
          exact h2 k (by simp [hkm, hk])

/-- Sizing and padding the eight arrays. -/
theorem pad_iff (zero : F) (o r : Obj F) :
    ((newSize o scanArrays 0).bind fun n => padMembers zero n scanArrays o) = .ok r ↔
      Padded zero o r := by
  have hmem : ∀ m, m ∈ boundArrays ↔ m ∈ scanArrays := by
    intro m; simp only [boundArrays, scanArrays, List.mem_cons, List.not_mem_nil, or_false]
    constructor
    · rintro (h | h | h | h | h | h | h | h) <;> subst h <;> simp
    · rintro (h | h | h | h | h | h | h | h) <;> subst h <;> simp
  have hnd : scanArrays.Nodup := by simp [scanArrays]
  simp only [ebind_iff, newSize_iff, padMembers_iff zero _ scanArrays hnd, Padded, hmem]
  constructor
  · rintro ⟨n, ⟨ls, h1, rfl⟩, h2, h3⟩
    refine ⟨⟨_, ?_, h2⟩, h3⟩
    obtain ⟨-, h4, h5⟩ := foldl_max (l := ls) (n := 0)
    have hv : ∃ v ∈ ls, v.length = ls.foldl (fun k l => max k l.length) 0 := by
      rcases h5 with h5 | h5
      · cases ls with
        | nil => simp [scanArrays] at h1
        | cons v ls => exact ⟨v, List.mem_cons_self .., by
            have := h4 v (List.mem_cons_self ..); omega⟩
      · exact h5
    obtain ⟨v, hv, hl⟩ := hv
    have : (some (.flts v) : Option (Val F)) ∈ scanArrays.map o := by
      rw [h1]; exact List.mem_map_of_mem (f := fun l => some (Val.flts l)) hv
    obtain ⟨m, hm, e⟩ := List.mem_map.1 this
    exact ⟨m, hm, Or.inl ⟨v, e, hl⟩⟩
  · rintro ⟨⟨n, ⟨m, hm, hl⟩, h2⟩, h3⟩
    refine ⟨n, ?_, h2, h3⟩
    have hex : ∀ ms : List String, (∀ m ∈ ms, ∃ l : List F, o m = some (.flts l) ∧ l.length ≤ n) →
        ∃ ls : List (List F), ms.map o = ls.map (fun l => some (.flts l)) ∧
          ∀ l ∈ ls, l.length ≤ n := by
      intro ms h
      induction ms with
      | nil => exact ⟨[], rfl, by simp⟩
      | cons a ms ih =>
        obtain ⟨l, e, hle⟩ := h a (List.mem_cons_self ..)
        obtain ⟨ls, e2, hls⟩ := ih fun m hm => h m (List.mem_cons_of_mem _ hm)
        refine ⟨l :: ls, by simp [e, e2], ?_⟩
        intro x hx
        rcases List.mem_cons.1 hx with rfl | hx
        · exact hle
        · exact hls x hx
    obtain ⟨ls, e, hle⟩ := hex scanArrays fun m hm => by
      obtain ⟨l, w, e, -, hp⟩ := h2 m hm
      exact ⟨l, e, hp.2.1⟩
    refine ⟨ls, e, ?_⟩
    obtain ⟨-, h4, h5⟩ := foldl_max (l := ls) (n := 0)
    obtain ⟨l, w, e1, -, -⟩ := h2 m hm
    have hlen : l.length = n := by
      rcases hl with ⟨l', e', h⟩ | ⟨l', e', h⟩ | ⟨l', e', h⟩ | ⟨l', e', h⟩ <;> rw [e1] at e' <;>
        cases e'
      exact h
    have hin : l ∈ ls := by
      have : o m ∈ ls.map (fun l => some (Val.flts l)) := by
        rw [← e]; exact List.mem_map_of_mem hm
      obtain ⟨x, hx, ex⟩ := List.mem_map.1 this
      rw [e1] at ex
      cases ex
      exact hx
    have := h4 l hin
    rcases h5 with h5 | ⟨v, hv, h5⟩
    · omega
    · have := hle v hv; omega

theorem typed_of_read {ofInt : Int → F} {d : Doc} {t : Table F} {o r : Obj F}
    (ht : Typed d o) (hr : ∀ κ k, d.Has κ k → Member ofInt κ t k (o k) (r k)) : Typed d r := by
  intro κ k hk
  obtain ⟨h1, h2⟩ := hr κ k hk
  by_cases h : ∃ x, (k, x) ∈ t
  · obtain ⟨x, hx⟩ := h
    obtain ⟨v, hv, e⟩ := h2 x hx
    refine ⟨v, e, ?_⟩
    cases κ <;> obtain ⟨y, -, rfl⟩ := hv <;> exact ⟨y, rfl⟩
  · rw [h1 fun x hx => h ⟨x, hx⟩]
    exact ht κ k hk

end Qsc.Sections
