import Verif.Lemmas.OutputTables

/-!
# Lemmas for writing a new file, allocating and reading
-/

namespace Qsc.Output
open Qsc.Netcdf Qsc.Spec.Netcdf Qsc.Spec.Output

variable {F : Type}

theorem clean_of {dims : List (String × Nat)} (h : ∀ s ∈ dims.map (·.1), s.toList.head? ≠ some 'd') : Clean dims := by
  intro n l hm
  exact absurd (by simp [strDim]) (h (strDim n) (List.mem_map.mpr ⟨_, hm, rfl⟩))

theorem lens_sizes (D : List (String × Nat)) : lens ([] ++ D) id = sizes (D.map (·.2)) := by
  funext k
  simp only [lens, sizes, dimAt, List.nil_append, id, List.getD_eq_getElem?_getD, List.getElem?_map]
  cases D[k]? <;> rfl

/-- Writing a new file. -/
theorem write_new {toF : Nat → F} {eval : String → Nat} {m : Mem F} {D : List (String × Nat)}
    {n z : Nat} {t : List (String × Shape)} {cs : List Call}
    (hd : (D.map (·.1)).Nodup) (hp : D.Pairwise fun a b => b.2 = 0 → a.2 ≠ 0)
    (hc : ∀ s ∈ D.map (·.1), s.toList.head? ≠ some 'd') (hn : (cs.map Call.name).Nodup)
    (hD : Dims D id n z) (ht : ∀ p ∈ t, Fits m (sizes (D.map (·.2))) p.1 p.2)
    (hf : ∀ c ∈ cs, c.fits t n z = true) :
    ∃ f, run toF m ⟨[], []⟩ ((D.map fun d => Op.dim d.1 d.2) ++ cs.map (Call.toOp eval)) = .ok f ∧
      WellFormed f ∧ D <+: f.dims ∧ (f.dims.map (·.1)).Nodup ∧
      (∀ d ∈ f.dims, d ∈ D ∨ ∃ c ∈ cs, (∃ n t, c = .op (.str n c.addr t)) ∧
        d = (strDim (size (m c.addr)), size (m c.addr))) ∧
      f.vars.map (·.name) = cs.map Call.name ∧
      (∀ e ∈ contents f, ∃ c ∈ cs, e.name = c.name ∧
        ((e.data = some (first (e.dims.map (·.2)).prod (m c.addr)) ∧ e.ty = tyOf (m c.addr)) ∨
          (c = .big c.name c.addr ∧ e.data = some (.flts [toF (eval c.addr)]) ∧ e.ty = .flt ∧ e.dims = []))) ∧
      ∀ c ∈ cs, c.whole t n = true → ∃ e ∈ contents f, e.name = c.name ∧ e.ty = tyOf (m c.addr) ∧
        e.data = some (m c.addr) := by
  have ht' : ∀ p ∈ t, Fits m (lens ([] ++ D) id) p.1 p.2 := by rw [lens_sizes]; exact ht
  obtain ⟨f, h1, h2, h3, h4, h5, h6, -, h8, h9⟩ := write_calls (toF := toF) (eval := eval) (base := ⟨[], []⟩) (ρ := id)
    (D := D) (cs := cs) (m := m) (t := t) (n := n) (z := z) (by intro v hv; simp at hv) (by simpa using hd) (by simpa using hp)
    (by simpa using clean_of hc) (by simpa using hn) (by simpa using hD) ht' hf
  simp only [renum_id] at h1 h8 h9
  refine ⟨f, h1, h2, by simpa using h3, h4, ?_, by simpa using h6, ?_, ?_⟩
  · intro d hd
    rcases h5 d hd with h | h | h
    · simp at h
    · exact Or.inl h
    · exact Or.inr h
  · intro e he
    rcases h8 e he with h | ⟨c, hc, h⟩
    · simp [contents] at h
    · obtain ⟨e', h', hname, hdata⟩ := call_entry (toF := toF) (dims' := f.dims) ht' eval (hf c hc)
      rw [renum_id, h] at h'
      injection h' with h'
      subst h'
      exact ⟨c, hc, hname, hdata⟩
  · intro c hc hw
    obtain ⟨e, he, hname, hdata⟩ := call_entry (toF := toF) (dims' := f.dims) ht' eval (hf c hc)
    have hwd := call_whole (toF := toF) (by simpa using h3) hD (by simpa using ht') eval hw he
    rw [renum_id] at he
    refine ⟨e, h9 c hc e he, hname, ?_, hwd⟩
    rcases hdata with h | h
    · exact h.2
    · rw [h.1] at hw
      simp [Call.whole] at hw

/-! ## Local variables -/

theorem withLocals_of_not_mem {m : Mem F} {locals : List (String × Data F)} {a : String}
    (h : a ∉ locals.map (·.1)) : withLocals m locals a = m a := by
  have : locals.lookup a = none := by
    rw [List.lookup_eq_none_iff]
    intro p hp
    have : a ≠ p.1 := fun e => h (e ▸ List.mem_map_of_mem hp)
    simpa using this
  rw [withLocals, this]; rfl

theorem fits_withLocals {m : Mem F} {locals : List (String × Data F)} {len : Nat → Nat} {a : String} {s : Shape}
    (h : a ∉ locals.map (·.1)) (hf : Fits m len a s) : Fits (withLocals m locals) len a s := by
  cases s <;> simp only [Fits, withLocals_of_not_mem h] at * <;> exact hf

theorem set_eq (m : Mem F) (a : String) (d : Data F) : set m a d a = d := if_pos rfl

theorem set_ne (m : Mem F) {a b : String} (d : Data F) (h : b ≠ a) : set m a d b = m b := if_neg h

/-! ## Allocating -/

theorem foldl_set_not {α : Type} (l : List α) (g : α → String) (v : α → Data F) (m : Mem F) {b : String}
    (h : b ∉ l.map g) : l.foldl (fun m a => set m (g a) (v a)) m b = m b := by
  induction l generalizing m with
  | nil => rfl
  | cons a l ih =>
    rw [List.foldl_cons, ih _ fun hm => h (List.mem_cons_of_mem _ hm)]
    exact set_ne _ _ fun e => h (by rw [e]; exact List.mem_cons_self)

theorem foldl_set_mem {α : Type} (l : List α) (g : α → String) (v : α → Data F) (m : Mem F)
    (hn : (l.map g).Nodup) {a : α} (h : a ∈ l) : l.foldl (fun m a => set m (g a) (v a)) m (g a) = v a := by
  induction l generalizing m with
  | nil => simp at h
  | cons b l ih =>
    rw [List.map_cons, List.nodup_cons] at hn
    rw [List.foldl_cons]
    rcases List.mem_cons.mp h with rfl | h
    · rw [foldl_set_not _ _ _ _ hn.1]
      exact set_eq _ _ _
    · exact ih _ hn.2 h

theorem allocNames_eq (fl : Flags) (n : Nat) :
    allocNames fl = (floatArrays fl n).map (·.1) ++ (intArrays fl n).map (·.1) := by
  have : (gridVectors fl).map ((fun x : String × Nat => x.1) ∘ fun a => (a, n)) = gridVectors fl := by
    rw [show ((fun x : String × Nat => x.1) ∘ fun a => (a, n)) = id from rfl, List.map_id]
  unfold allocNames floatArrays intArrays
  rw [List.map_append, List.map_append, List.map_append, List.map_map, this]
  cases fl.r2 <;> simp

/-! ## Reading -/

theorem find_entry {f : File F} (hn : (f.vars.map (·.name)).Nodup) {e : Entry F} (he : e ∈ contents f) :
    ∃ v, (f.vars.find? fun v => v.name == e.name) = some v ∧ v.data = e.data := by
  obtain ⟨v, hv, rfl⟩ := List.mem_map.mp he
  refine ⟨v, ?_, rfl⟩
  change f.vars.find? (fun w => w.name == v.name) = some v
  generalize f.vars = l at *
  clear he
  induction l with
  | nil => simp at hv
  | cons w l ih =>
    rw [List.map_cons, List.nodup_cons] at hn
    rcases List.mem_cons.mp hv with rfl | hv
    · simp
    · have : w.name ≠ v.name := fun e => hn.1 (e ▸ List.mem_map_of_mem hv)
      rw [List.find?_cons_of_neg (by simpa using this)]
      exact ih hn.2 hv

/-- The second object has room for exactly the first. -/
def Like (d t : Data F) : Prop :=
  (∃ l l', d = .ints l ∧ t = .ints l' ∧ l.length = l'.length ∧ l ≠ []) ∨
    ∃ l l', d = .flts l ∧ t = .flts l' ∧ l.length = l'.length ∧ l ≠ []

theorem Like.self {d t : Data F} (h : Like d t) : Like d d := by
  rcases h with ⟨l, l', rfl, -, -, h⟩ | ⟨l, l', rfl, -, -, h⟩
  · exact Or.inl ⟨l, l, rfl, rfl, rfl, h⟩
  · exact Or.inr ⟨l, l, rfl, rfl, rfl, h⟩

theorem getVar_like {f : File F} (hn : (f.vars.map (·.name)).Nodup) {e : Entry F} (he : e ∈ contents f) {d t : Data F}
    (hd : e.data = some d) (h : Like d t) : getVar f e.name t = .ok d := by
  obtain ⟨v, hv, hvd⟩ := find_entry hn he
  unfold getVar
  rw [hv]
  simp only [hvd, hd]
  rcases h with ⟨l, l', rfl, rfl, hl, hne⟩ | ⟨l, l', rfl, rfl, hl, hne⟩
  all_goals
    have h1 : ¬ (l' = [] ∨ l'.length < l.length) := by
      rintro (rfl | h)
      · exact hne (List.eq_nil_of_length_eq_zero hl)
      · omega
    simp only [h1, if_false]
    rw [hl, List.drop_length, List.append_nil]

theorem getMember_has {f : File F} (hn : (f.vars.map (·.name)).Nodup) {m0 m : Mem F} {a : String}
    (hf : Has f m0 a) (h : Like (m0 a) (m a)) : getMember f m a = .ok (set m a (m0 a)) := by
  obtain ⟨e, he, rfl, -, hd⟩ := hf
  rw [getMember, getVar_like hn he hd h]

theorem getMembers_has {f : File F} (hn : (f.vars.map (·.name)).Nodup) {m0 : Mem F} (l : List String) {m : Mem F}
    (hf : ∀ a ∈ l, Has f m0 a) (h : ∀ a ∈ l, Like (m0 a) (m a)) :
    ∃ m', l.foldlM (getMember f) m = .ok m' ∧ (∀ a ∈ l, m' a = m0 a) ∧ ∀ a, a ∉ l → m' a = m a := by
  induction l generalizing m with
  | nil => exact ⟨m, rfl, by simp, fun a _ => rfl⟩
  | cons a l ih =>
    have h1 := getMember_has hn (hf a List.mem_cons_self) (h a List.mem_cons_self)
    obtain ⟨m', h2, h3, h4⟩ := ih (m := set m a (m0 a)) (fun b hb => hf b (List.mem_cons_of_mem _ hb)) (by
      intro b hb
      by_cases e : b = a
      · subst e
        rw [set_eq]
        exact (h b List.mem_cons_self).self
      · rw [set_ne _ _ e]
        exact h b (List.mem_cons_of_mem _ hb))
    refine ⟨m', ?_, ?_, ?_⟩
    · rw [List.foldlM_cons, h1]
      exact h2
    · intro b hb
      by_cases hl : b ∈ l
      · exact h3 b hl
      · rcases List.mem_cons.mp hb with rfl | hb
        · rw [h4 _ hl, set_eq]
        · exact absurd hb hl
    · intro b hb
      rw [h4 b fun hl => hb (List.mem_cons_of_mem _ hl), set_ne _ _ fun e => hb (by rw [e]; exact List.mem_cons_self)]

/-! ## An object that fits a table -/

/-- Scalars as given, arrays counted up from there, strings of one character; other names hold nothing. -/
def sample (t : List (String × Shape)) (len : Nat → Nat) (x : String → Int) : Mem Int := fun a =>
  match t.lookup a with
  | none => .chars []
  | some .int => .ints [x a]
  | some .flt => .flts [x a]
  | some .str => .chars ['s']
  | some (.ints ds) | some (.intsAtLeast ds) => .ints ((List.range (ds.map len).prod).map fun i => (i : Int) + x a)
  | some (.flts ds) | some (.atLeast ds) => .flts ((List.range (ds.map len).prod).map fun i => (i : Int) + x a)

theorem lookup_nodup {t : List (String × Shape)} (hn : (t.map (·.1)).Nodup) {p : String × Shape} (hp : p ∈ t) :
    t.lookup p.1 = some p.2 := by
  induction t with
  | nil => simp at hp
  | cons q t ih =>
    rw [List.map_cons, List.nodup_cons] at hn
    rcases List.mem_cons.mp hp with rfl | hp
    · rw [List.lookup_cons, beq_self_eq_true]
    · have : (p.1 == q.1) = false := by
        simpa using fun e : p.1 = q.1 => hn.1 (e ▸ List.mem_map_of_mem hp)
      rw [List.lookup_cons, this]
      exact ih hn.2 hp

theorem sample_fits {t : List (String × Shape)} (hn : (t.map (·.1)).Nodup) (len : Nat → Nat) (x : String → Int) :
    ∀ p ∈ t, Fits (sample t len x) len p.1 p.2 := by
  intro p hp
  have h := lookup_nodup hn hp
  obtain ⟨a, s⟩ := p
  cases s <;> simp [Fits, sample, h]

theorem sample_mem {t : List (String × Shape)} {len : Nat → Nat} {x : String → Int} {a : String}
    (h : tyOf (sample t len x a) ≠ .chr) : ∃ p ∈ t, p.1 = a := by
  by_contra hn
  have : t.lookup a = none := by
    rw [List.lookup_eq_none_iff]
    intro p hp
    have : a ≠ p.1 := fun e => hn ⟨p, hp, e.symm⟩
    simpa using this
  exact h (by simp [sample, this, tyOf])

end Qsc.Output
