import Verif.Spec.Sections
import Verif.Lemmas.Toml

namespace Qsc.Sections

open Qsc.Spec.Sections Qsc.Toml Qsc.Spec.Toml

variable {F : Type}

theorem map_ok_iff {ε α β : Type} (x : Except ε α) (g : α → β) (b : β) :
    x.map g = .ok b ↔ ∃ a, x = .ok a ∧ b = g a := by
  cases x <;> simp [Except.map, eq_comm]

theorem asArr_is {α : Type} (elem : Value F → Except Toml.Err α) (mk : α → Value F)
    (he : ∀ x a, elem x = .ok a ↔ x = mk a) (x : Value F) (l : List α) :
    asArr elem x = .ok l ↔ x = .arr (l.map mk) := by
  cases x with
  | arr vs =>
    simp only [asArr, Value.arr.injEq]
    induction vs generalizing l with
    | nil => cases l <;> simp [pure, Except.pure]
    | cons a vs ih =>
      rw [List.mapM_cons, bind_ok_iff]
      cases l with
      | nil => simp [bind_ok_iff, pure, Except.pure]
      | cons w l =>
        simp only [bind_ok_iff, pure, Except.pure, Except.ok.injEq, List.cons.injEq, List.map_cons]
        constructor
        · rintro ⟨b, hb, l', hl, rfl, rfl⟩
          exact ⟨(he _ _).1 hb, (ih _).1 hl⟩
        · rintro ⟨h1, h⟩
          exact ⟨w, (he _ _).2 h1, l, (ih _).2 h, rfl, rfl⟩
  | _ => simp [asArr]

theorem conv_is (ofInt : Int → F) (κ : Kind) (x : Value F) (v : Val F) :
    conv ofInt κ x = .ok v ↔ Stands ofInt κ x v := by
  cases κ <;> simp only [conv, map_ok_iff, Stands]
  · simp only [asInt_is, IsInt]
  · simp only [asBool_is]
  · simp only [asFloat_is]
  · simp only [asStr_is, IsStr]
  · simp only [asVector_is, IsVector]
  · exact exists_congr fun l => and_congr_left'
      (asArr_is boolElem Value.bool (by intro x a; cases x <;> simp [boolElem]) x l)
  · exact exists_congr fun l => and_congr_left'
      (asArr_is asInt Value.int (by intro x a; cases x <;> simp [asInt]) x l)
  · exact exists_congr fun l => and_congr_left'
      (asArr_is strElem Value.str (by intro x a; cases x <;> simp [strElem]) x l)

theorem readCall_ok_iff (ofInt : Int → F) (t : Table F) (hu : Unique t) (c : Call)
    (hc : c.member = c.key) (o : Obj F) (vl : List Key) (r : Obj F × List Key) :
    readCall ofInt t (o, vl) c = .ok r ↔
      r.2 = vl ++ [c.key] ∧ Member ofInt c.kind t c.key (o c.key) (r.1 c.key) ∧
        ∀ m, m ≠ c.key → r.1 m = o m := by
  obtain ⟨o', vl'⟩ := r
  unfold readCall Member
  cases h : find? t c.key with
  | none =>
    have hn := (find?_none_iff t c.key).mp h
    simp only [Except.ok.injEq, Prod.mk.injEq]
    constructor
    · rintro ⟨rfl, rfl⟩
      exact ⟨rfl, ⟨fun _ => rfl, fun x hx => absurd hx (hn x)⟩, fun _ _ => rfl⟩
    · rintro ⟨rfl, ⟨h1, _⟩, h2⟩
      refine ⟨?_, rfl⟩
      funext m
      by_cases hm : m = c.key
      · subst hm; exact (h1 hn).symm
      · exact (h2 m hm).symm
  | some x =>
    have hm := (find?_some_iff t hu c.key x).mp h
    have huniq : ∀ y, (c.key, y) ∈ t → y = x := by
      intro y hy
      have := (find?_some_iff t hu c.key y).mpr hy
      rw [h] at this
      exact (Option.some.inj this).symm
    cases hv : conv ofInt c.kind x with
    | error e =>
      simp only [hv, reduceCtorEq, false_iff]
      rintro ⟨_, ⟨_, h2⟩, _⟩
      obtain ⟨v, h3, _⟩ := h2 x hm
      rw [← conv_is, hv] at h3
      cases h3
    | ok v =>
      simp only [hv, Except.ok.injEq, Prod.mk.injEq]
      constructor
      · rintro ⟨rfl, rfl⟩
        refine ⟨rfl, ⟨fun hc' => absurd hm (hc' x), fun y hy => ?_⟩, ?_⟩
        · rw [huniq y hy]
          exact ⟨v, (conv_is ..).1 hv, by simp [set, hc]⟩
        · intro m hne
          simp [set, hc, hne]
      · rintro ⟨rfl, ⟨_, h2⟩, h3⟩
        refine ⟨?_, rfl⟩
        funext m
        by_cases hm' : m = c.key
        · subst hm'
          obtain ⟨w, h4, h5⟩ := h2 x hm
          rw [← conv_is, hv] at h4
          cases h4
          simp [set, hc, h5]
        · simp [set, hc, hm', h3 m hm']

theorem readCalls_ok_iff (ofInt : Int → F) (t : Table F) (hu : Unique t) (calls : List Call)
    (hc : ∀ c ∈ calls, c.member = c.key) (hn : (calls.map Call.key).Nodup) (o : Obj F)
    (vl : List Key) (r : Obj F × List Key) :
    readCalls ofInt t calls (o, vl) = .ok r ↔
      r.2 = vl ++ calls.map Call.key ∧
      (∀ c ∈ calls, Member ofInt c.kind t c.key (o c.key) (r.1 c.key)) ∧
      ∀ m, m ∉ calls.map Call.key → r.1 m = o m := by
  induction calls generalizing o vl with
  | nil =>
    obtain ⟨o', vl'⟩ := r
    simp only [readCalls, List.foldlM_nil, pure, Except.pure, Except.ok.injEq, Prod.mk.injEq,
      List.map_nil, List.append_nil, List.not_mem_nil, false_implies, implies_true, not_false_eq_true,
      true_implies, true_and]
    constructor
    · rintro ⟨rfl, rfl⟩; exact ⟨rfl, fun _ => rfl⟩
    · rintro ⟨rfl, h⟩; exact ⟨(funext h).symm, rfl⟩
  | cons c cs ih =>
    simp only [List.map_cons, List.nodup_cons] at hn
    unfold readCalls
    rw [List.foldlM_cons, bind_ok_iff]
    have hcm := hc c (List.mem_cons_self ..)
    have ih' := fun o vl => ih (fun c h => hc c (List.mem_cons_of_mem _ h)) hn.2 o vl
    constructor
    · rintro ⟨⟨o1, vl1⟩, h1, h2⟩
      obtain ⟨e1, m1, u1⟩ := (readCall_ok_iff ofInt t hu c hcm o vl _).1 h1
      obtain ⟨e2, m2, u2⟩ := (ih' o1 vl1).1 h2
      simp only at e1 m1 u1
      refine ⟨by rw [e2, e1]; simp, ?_, ?_⟩
      · intro d hd
        rcases List.mem_cons.1 hd with rfl | hd
        · rw [u2 _ hn.1]; exact m1
        · have hne : d.key ≠ c.key := fun h => hn.1 (h ▸ List.mem_map_of_mem hd)
          rw [← u1 _ hne]; exact m2 d hd
      · intro m hm
        simp only [List.map_cons, List.mem_cons, not_or] at hm
        rw [u2 m hm.2, u1 m hm.1]
    · rintro ⟨e, hM, hU⟩
      let o1 : Obj F := fun m => if m = c.key then r.1 m else o m
      refine ⟨(o1, vl ++ [c.key]), ?_, ?_⟩
      · refine (readCall_ok_iff ofInt t hu c hcm o vl _).2 ⟨rfl, ?_, ?_⟩
        · have := hM c (List.mem_cons_self ..)
          simpa [o1] using this
        · intro m hm; simp [o1, hm]
      · refine (ih' o1 _).2 ⟨by rw [e]; simp, ?_, ?_⟩
        · intro d hd
          have hne : d.key ≠ c.key := fun h => hn.1 (h ▸ List.mem_map_of_mem hd)
          have := hM d (List.mem_cons_of_mem _ hd)
          simpa [o1, hne] using this
        · intro m hm
          by_cases hmc : m = c.key
          · simp [o1, hmc]
          · simp only [o1, hmc, if_false]
            exact hU m (by simp [hmc, hm])

/-- Calls that agree with a list of keys by type. -/
def Agree (calls : List Call) (d : Doc) : Prop :=
  (∀ c ∈ calls, c.member = c.key) ∧ (calls.map Call.key).Nodup ∧
    ∀ κ k, d.Has κ k ↔ ∃ c ∈ calls, c.kind = κ ∧ c.key = k

/-- Reading a section with calls that agree with the documented keys, and some extra keys. -/
theorem read_iff (ofInt : Int → F) (t : Table F) (hu : Unique t) (calls : List Call) (d : Doc)
    (ha : Agree calls d) (o : Obj F) (r : Obj F × List Key) :
    (readCalls ofInt t calls (o, []) = .ok r ∧ tomlUnused r.2 t = .ok ()) ↔
      r.2 = calls.map Call.key ∧ Read ofInt d t o r.1 := by
  obtain ⟨hc, hn, hh⟩ := ha
  rw [readCalls_ok_iff ofInt t hu calls hc hn, tomlUnused_ok_iff]
  unfold Read
  simp only [List.nil_append]
  have hmem : ∀ m, m ∈ calls.map Call.key ↔ ∃ κ, d.Has κ m := by
    intro m
    rw [List.mem_map]
    constructor
    · rintro ⟨c, h1, h2⟩
      exact ⟨c.kind, (hh _ _).2 ⟨c, h1, rfl, h2⟩⟩
    · rintro ⟨κ, h⟩
      obtain ⟨c, h1, _, h2⟩ := (hh _ _).1 h
      exact ⟨c, h1, h2⟩
  constructor
  · rintro ⟨⟨e, h1, h2⟩, h3⟩
    refine ⟨e, ?_, ?_, ?_⟩
    · intro k x hx; rw [← hmem, ← e]; exact h3 k x hx
    · intro κ k hk
      obtain ⟨c, hcm, rfl, rfl⟩ := (hh _ _).1 hk
      exact h1 c hcm
    · intro m hm
      refine h2 m fun h => ?_
      obtain ⟨κ, h⟩ := (hmem m).1 h
      exact hm κ h
  · rintro ⟨e, h1, h2, h3⟩
    refine ⟨⟨e, ?_, ?_⟩, ?_⟩
    · intro c hcm; exact h2 _ _ ((hh _ _).2 ⟨c, hcm, rfl, rfl⟩)
    · intro m hm
      exact h3 m fun κ h => hm ((hmem m).2 ⟨κ, h⟩)
    · intro k x hx; rw [e, hmem]; exact h1 k x hx

/-- The documented keys as a list of pairs. -/
def Pairs (d : Doc) : List (Kind × Key) := d.flatMap fun p => p.2.map fun k => (p.1, k)

theorem agree_of (calls : List Call) (d : Doc) (h1 : ∀ c ∈ calls, c.member = c.key)
    (h2 : (calls.map Call.key).Nodup)
    (h3 : ∀ c ∈ calls, (c.kind, c.key) ∈ Pairs d)
    (h4 : ∀ p ∈ Pairs d, p ∈ calls.map fun c => (c.kind, c.key)) : Agree calls d := by
  have hp : ∀ κ k, d.Has κ k ↔ (κ, k) ∈ Pairs d := by
    intro κ k
    simp only [Doc.Has, Pairs, List.mem_flatMap, List.mem_map, Prod.mk.injEq, Prod.exists]
    constructor
    · rintro ⟨ks, h, hk⟩
      exact ⟨κ, ks, h, k, hk, rfl, rfl⟩
    · rintro ⟨_, ks, h, _, hk, rfl, rfl⟩
      exact ⟨ks, h, hk⟩
  refine ⟨h1, h2, fun κ k => ?_⟩
  rw [hp]
  constructor
  · intro h
    obtain ⟨c, hc, e⟩ := List.mem_map.1 (h4 _ h)
    simp only [Prod.mk.injEq] at e
    exact ⟨c, hc, e⟩
  · rintro ⟨c, hc, rfl, rfl⟩
    exact h3 c hc

theorem scan_agree : Agree scanCalls scanDoc := by
  apply agree_of <;> simp [scanCalls, same, scanDoc, Pairs]

theorem opt_agree : Agree optCalls optDoc := by
  apply agree_of <;> simp [optCalls, same, optDoc, Pairs]

theorem multiScan_agree : Agree multiScanCalls multiScanDoc := by
  apply agree_of <;> simp [multiScanCalls, same, multiScanDoc, Pairs]

theorem multiopt_agree : Agree multioptCalls multioptDoc := by
  apply agree_of <;> simp [multioptCalls, multioptDoc, Pairs]

end Qsc.Sections
