import Verif.Spec.Output
import Verif.Props.Netcdf
import Mathlib.Algebra.BigOperators.Group.List.Basic

/-!
# Lemmas for the output files
-/

namespace Qsc.Output
open Qsc.Netcdf Qsc.Spec.Netcdf Qsc.Spec.Output

variable {F : Type}

/-! ## Calls -/

def Call.name : Call → String
  | .op o => (varName o).getD ""
  | .big n _ => n

def Call.addr : Call → String
  | .op (.int _ a _ _) | .op (.flt _ a _ _) | .op (.str _ a _) => a
  | .op (.intVec _ _ a _ _) | .op (.fltVec _ _ a _ _) | .op (.nd _ _ a _ _) => a
  | .op (.dim ..) | .op (.big ..) => ""
  | .big _ a => a

/-- Renumber the dimensions. -/
def Call.renum (ρ : Nat → Nat) : Call → Call
  | .op (.intVec d n a t u) => .op (.intVec (ρ d) n a t u)
  | .op (.fltVec d n a t u) => .op (.fltVec (ρ d) n a t u)
  | .op (.nd ds n a t u) => .op (.nd (ds.map ρ) n a t u)
  | c => c

def has (t : List (String × Shape)) (s : Shape) (a : String) : Bool := t.any fun p => decide (p.2 = s) && p.1 == a

theorem has_mem {t : List (String × Shape)} {s : Shape} {a : String} (h : has t s a = true) : (a, s) ∈ t := by
  unfold has at h
  obtain ⟨p, hp, h⟩ := List.any_eq_true.mp h
  simp only [Bool.and_eq_true, decide_eq_true_eq, beq_iff_eq] at h
  rw [← h.1, ← h.2]
  exact hp

/-- The expression of the call has the type and size the call needs.  There are `n` dimensions, of which
the first `z` are not empty. -/
def Call.fits (t : List (String × Shape)) (n z : Nat) : Call → Bool
  | .op (.int _ a _ _) => has t .int a
  | .op (.flt _ a _ _) => has t .flt a
  | .op (.str _ a _) => has t .str a
  | .op (.intVec d _ a _ _) => decide (d < n) && (has t (.ints [d]) a || has t (.intsAtLeast [d]) a)
  | .op (.fltVec d _ a _ _) => decide (d < n) && (has t (.flts [d]) a || has t (.atLeast [d]) a)
  | .op (.nd ds _ a _ _) => ds.all (fun d => decide (d < n)) && ds.dropLast.all (fun d => decide (d < z)) &&
      (has t (.flts ds) a || has t (.atLeast ds) a)
  | .op (.dim ..) | .op (.big ..) => false
  | .big _ _ => true

theorem first_size (d : Data F) : first (size d) d = d := by
  cases d <;> simp [first, size]

theorem first_all {d : Data F} {n : Nat} (h : size d = n) : first n d = d := h ▸ first_size d

/-- The numbers of the dimensions after renumbering are those of a file. -/
structure Dims (dims : List (String × Nat)) (ρ : Nat → Nat) (n z : Nat) : Prop where
  inside : ∀ k, k < n → ρ k < dims.length
  nonempty : ∀ k, k < z → (dimAt dims (ρ k)).2 ≠ 0

/-- Lengths of the renumbered dimensions. -/
abbrev lens (dims : List (String × Nat)) (ρ : Nat → Nat) : Nat → Nat := fun k => (dimAt dims (ρ k)).2

theorem call_ready {m : Mem F} {dims : List (String × Nat)} {ρ : Nat → Nat} {n z : Nat} {t : List (String × Shape)}
    (hd : Dims dims ρ n z) (ht : ∀ p ∈ t, Fits m (lens dims ρ) p.1 p.2) (eval : String → Nat) {c : Call}
    (h : c.fits t n z = true) : Ready m dims ((c.renum ρ).toOp eval) := by
  have get : ∀ {s a}, has t s a = true → Fits m (lens dims ρ) a s := fun h => ht _ (has_mem h)
  rcases c with o | ⟨nm, a⟩
  · rcases o with ⟨nm, len⟩ | ⟨nm, a, x, u⟩ | ⟨nm, a, x, u⟩ | ⟨nm, v, x, u⟩ | ⟨nm, a, x⟩ | ⟨d, nm, a, x, u⟩ |
      ⟨d, nm, a, x, u⟩ | ⟨ds, nm, a, x, u⟩
    · simp [Call.fits] at h
    · obtain ⟨x, hx⟩ := get h
      exact ⟨[x], hx, by simp⟩
    · obtain ⟨x, hx⟩ := get h
      exact ⟨[x], hx, by simp⟩
    · simp [Call.fits] at h
    · obtain ⟨l, hl, hne⟩ := get h
      exact ⟨l, hl, List.length_pos_of_ne_nil hne⟩
    · simp only [Call.fits, Bool.and_eq_true, decide_eq_true_eq, Bool.or_eq_true] at h
      refine ⟨hd.inside d h.1, ?_⟩
      rcases h.2 with h | h <;> obtain ⟨l, hl, hs⟩ := get h <;> exact ⟨l, hl, by simp [lens] at hs; omega⟩
    · simp only [Call.fits, Bool.and_eq_true, decide_eq_true_eq, Bool.or_eq_true] at h
      refine ⟨hd.inside d h.1, ?_⟩
      rcases h.2 with h | h <;> obtain ⟨l, hl, hs⟩ := get h <;> exact ⟨l, hl, by simp [lens] at hs; omega⟩
    · simp only [Call.fits, Bool.and_eq_true, decide_eq_true_eq, Bool.or_eq_true, List.all_eq_true] at h
      refine ⟨?_, ?_, ?_⟩
      · intro d hm
        obtain ⟨k, hk, rfl⟩ := List.mem_map.mp hm
        exact hd.inside k (h.1.1 k hk)
      · intro d hm
        rw [← List.map_dropLast] at hm
        obtain ⟨k, hk, rfl⟩ := List.mem_map.mp hm
        exact hd.nonempty k (h.1.2 k hk)
      · have e : ((ds.map ρ).map fun d => (dimAt dims d).2) = ds.map (lens dims ρ) := by
          rw [List.map_map]; rfl
        rw [e]
        rcases h.2 with h | h <;> obtain ⟨l, hl, hs⟩ := get h <;> exact ⟨l, hl, by omega⟩
  · trivial

/-- What the call adds to the file. -/
theorem call_entry {toF : Nat → F} {m : Mem F} {dims dims' : List (String × Nat)} {ρ : Nat → Nat} {n z : Nat}
    {t : List (String × Shape)}
    (ht : ∀ p ∈ t, Fits m (lens dims ρ) p.1 p.2) (eval : String → Nat) {c : Call} (h : c.fits t n z = true) :
    ∃ e, entry toF m dims' ((c.renum ρ).toOp eval) = some e ∧ e.name = c.name ∧
      ((e.data = some (first (e.dims.map (·.2)).prod (m c.addr)) ∧ e.ty = tyOf (m c.addr)) ∨
        (c = .big c.name c.addr ∧ e.data = some (.flts [toF (eval c.addr)]) ∧ e.ty = .flt ∧ e.dims = [])) := by
  have get : ∀ {s a}, has t s a = true → Fits m (lens dims ρ) a s := fun h => ht _ (has_mem h)
  rcases c with o | ⟨nm, a⟩
  · rcases o with ⟨nm, len⟩ | ⟨nm, a, x, u⟩ | ⟨nm, a, x, u⟩ | ⟨nm, v, x, u⟩ | ⟨nm, a, x⟩ | ⟨d, nm, a, x, u⟩ |
      ⟨d, nm, a, x, u⟩ | ⟨ds, nm, a, x, u⟩
    · simp [Call.fits] at h
    · obtain ⟨x, hx⟩ := get h
      exact ⟨_, rfl, rfl, Or.inl ⟨by simp [Call.addr], by simp [Call.addr, hx, tyOf]⟩⟩
    · obtain ⟨x, hx⟩ := get h
      exact ⟨_, rfl, rfl, Or.inl ⟨by simp [Call.addr], by simp [Call.addr, hx, tyOf]⟩⟩
    · simp [Call.fits] at h
    · obtain ⟨l, hl, hne⟩ := get h
      exact ⟨_, rfl, rfl, Or.inl ⟨by simp [Call.addr, first_size], by simp [Call.addr, hl, tyOf]⟩⟩
    · simp only [Call.fits, Bool.and_eq_true, decide_eq_true_eq, Bool.or_eq_true] at h
      refine ⟨_, rfl, rfl, Or.inl ⟨by simp [Call.addr], ?_⟩⟩
      rcases h.2 with h | h <;> obtain ⟨l, hl, hs⟩ := get h <;> simp [Call.addr, hl, tyOf]
    · simp only [Call.fits, Bool.and_eq_true, decide_eq_true_eq, Bool.or_eq_true] at h
      refine ⟨_, rfl, rfl, Or.inl ⟨by simp [Call.addr], ?_⟩⟩
      rcases h.2 with h | h <;> obtain ⟨l, hl, hs⟩ := get h <;> simp [Call.addr, hl, tyOf]
    · simp only [Call.fits, Bool.and_eq_true, decide_eq_true_eq, Bool.or_eq_true, List.all_eq_true] at h
      refine ⟨_, rfl, rfl, Or.inl ⟨?_, ?_⟩⟩
      · simp only [Call.addr, List.map_reverse, List.prod_reverse, List.map_map]
        rfl
      · rcases h.2 with h | h <;> obtain ⟨l, hl, hs⟩ := get h <;> simp [Call.addr, hl, tyOf]
  · exact ⟨_, rfl, rfl, Or.inr ⟨rfl, rfl, rfl, rfl⟩⟩

/-- The call writes all of its object. -/
def Call.whole (t : List (String × Shape)) (n : Nat) : Call → Bool
  | .op (.int _ a _ _) => has t .int a
  | .op (.flt _ a _ _) => has t .flt a
  | .op (.str _ _ _) => true
  | .op (.intVec d _ a _ _) => decide (d < n) && has t (.ints [d]) a
  | .op (.fltVec d _ a _ _) => decide (d < n) && has t (.flts [d]) a
  | .op (.nd ds _ a _ _) => ds.all (fun d => decide (d < n)) && has t (.flts ds) a
  | .op (.dim ..) | .op (.big ..) | .big _ _ => false

theorem call_whole {toF : Nat → F} {m : Mem F} {dims dims' : List (String × Nat)} {ρ : Nat → Nat} {n z : Nat}
    {t : List (String × Shape)} (hp : dims <+: dims') (hd : Dims dims ρ n z)
    (ht : ∀ p ∈ t, Fits m (lens dims ρ) p.1 p.2) (eval : String → Nat) {c : Call} (h : c.whole t n = true)
    {e : Entry F} (he : entry toF m dims' ((c.renum ρ).toOp eval) = some e) : e.data = some (m c.addr) := by
  have get : ∀ {s a}, has t s a = true → Fits m (lens dims ρ) a s := fun h => ht _ (has_mem h)
  have hl : ∀ k, k < n → dimAt dims' (ρ k) = dimAt dims (ρ k) := fun k hk => dimAt_prefix hp (hd.inside k hk)
  rcases c with o | ⟨nm, a⟩
  · rcases o with ⟨nm, len⟩ | ⟨nm, a, x, u⟩ | ⟨nm, a, x, u⟩ | ⟨nm, v, x, u⟩ | ⟨nm, a, x⟩ | ⟨d, nm, a, x, u⟩ |
      ⟨d, nm, a, x, u⟩ | ⟨ds, nm, a, x, u⟩
    · simp [Call.whole] at h
    · obtain ⟨x, hx⟩ := get h
      injection he with he
      rw [← he]
      exact congrArg some (first_all (by simp [hx, size]))
    · obtain ⟨x, hx⟩ := get h
      injection he with he
      rw [← he]
      exact congrArg some (first_all (by simp [hx, size]))
    · simp [Call.whole] at h
    · injection he with he
      rw [← he]
      rfl
    · simp only [Call.whole, Bool.and_eq_true, decide_eq_true_eq] at h
      obtain ⟨l, hx, hs⟩ := get h.2
      injection he with he
      rw [← he]
      refine congrArg some (first_all ?_)
      rw [hl d h.1, hx]
      simpa [size, lens] using hs
    · simp only [Call.whole, Bool.and_eq_true, decide_eq_true_eq] at h
      obtain ⟨l, hx, hs⟩ := get h.2
      injection he with he
      rw [← he]
      refine congrArg some (first_all ?_)
      rw [hl d h.1, hx]
      simpa [size, lens] using hs
    · simp only [Call.whole, Bool.and_eq_true, decide_eq_true_eq, List.all_eq_true] at h
      obtain ⟨l, hx, hs⟩ := get h.2
      injection he with he
      rw [← he]
      refine congrArg some (first_all ?_)
      rw [hx]
      change l.length = _
      rw [hs, List.map_map]
      congr 1
      exact List.map_congr_left fun k hk => by simp only [lens, Function.comp, hl k (h.1 k hk)]
  · simp [Call.whole] at h

theorem renum_id (c : Call) : c.renum id = c := by
  rcases c with o | ⟨nm, a⟩
  · cases o <;> simp [Call.renum]
  · rfl

theorem renum_name (ρ : Nat → Nat) (c : Call) : (c.renum ρ).name = c.name := by
  rcases c with o | ⟨nm, a⟩
  · cases o <;> rfl
  · rfl

theorem renum_addr (ρ : Nat → Nat) (c : Call) : (c.renum ρ).addr = c.addr := by
  rcases c with o | ⟨nm, a⟩
  · cases o <;> rfl
  · rfl

theorem varName_toOp (eval : String → Nat) (ρ : Nat → Nat) {t : List (String × Shape)} {n z : Nat} {c : Call}
    (h : c.fits t n z = true) : varName ((c.renum ρ).toOp eval) = some c.name := by
  rcases c with o | ⟨nm, a⟩
  · cases o <;> first | rfl | simp [Call.fits] at h
  · rfl

theorem dimOps_toOp (eval : String → Nat) (ρ : Nat → Nat) {t : List (String × Shape)} {n z : Nat}
    {cs : List Call} (h : ∀ c ∈ cs, c.fits t n z = true) :
    dimOps (cs.map fun c => (c.renum ρ).toOp eval) = [] := by
  unfold dimOps
  rw [List.filterMap_map, List.filterMap_eq_nil_iff]
  intro c hc
  have := h c hc
  rcases c with o | ⟨nm, a⟩
  · cases o <;> first | rfl | simp [Call.fits] at this
  · rfl

/-- Writing a file with calls that fit. -/
theorem write_calls {toF : Nat → F} {eval : String → Nat} {m : Mem F} {base : File F} {D : List (String × Nat)}
    {ρ : Nat → Nat} {n z : Nat} {t : List (String × Shape)} {cs : List Call} (hb : WellFormed base)
    (hd : ((base.dims ++ D).map (·.1)).Nodup) (hp : (base.dims ++ D).Pairwise fun a b => b.2 = 0 → a.2 ≠ 0)
    (hc : Clean (base.dims ++ D)) (hn : (base.vars.map (·.name) ++ cs.map Call.name).Nodup)
    (hD : Dims (base.dims ++ D) ρ n z) (ht : ∀ p ∈ t, Fits m (lens (base.dims ++ D) ρ) p.1 p.2)
    (hf : ∀ c ∈ cs, c.fits t n z = true) :
    ∃ f, run toF m base ((D.map fun d => Op.dim d.1 d.2) ++ cs.map fun c => (c.renum ρ).toOp eval) = .ok f ∧
      WellFormed f ∧ base.dims ++ D <+: f.dims ∧ (f.dims.map (·.1)).Nodup ∧
      (∀ d ∈ f.dims, d ∈ base.dims ∨ d ∈ D ∨ ∃ c ∈ cs, (∃ n t, c = .op (.str n c.addr t)) ∧
        d = (strDim (size (m c.addr)), size (m c.addr))) ∧
      f.vars.map (·.name) = base.vars.map (·.name) ++ cs.map Call.name ∧
      (∀ e ∈ contents base, e ∈ contents f) ∧
      (∀ e ∈ contents f, e ∈ contents base ∨
        ∃ c ∈ cs, entry toF m f.dims ((c.renum ρ).toOp eval) = some e) ∧
      ∀ c ∈ cs, ∀ e, entry toF m f.dims ((c.renum ρ).toOp eval) = some e → e ∈ contents f := by
  have hvn : (cs.map fun c => (c.renum ρ).toOp eval).filterMap varName = cs.map Call.name := by
    rw [List.filterMap_map, ← List.filterMap_eq_map]
    exact List.filterMap_congr fun c hc => varName_toOp eval ρ (hf c hc)
  obtain ⟨f, hrun⟩ := run_ok (toF := toF) (puts := cs.map fun c => (c.renum ρ).toOp eval) hd hp hc (by rw [hvn]; exact hn)
    (fun op hop => by
      obtain ⟨c, hc, rfl⟩ := List.mem_map.mp hop
      exact call_ready hD ht eval (hf c hc))
  have hdo := dimOps_toOp eval ρ hf
  have hD' : dimOps (D.map fun d => Op.dim d.1 d.2) = D := by
    unfold dimOps
    rw [List.filterMap_map]
    exact List.filterMap_some
  have hD2 : dimOps ((D.map fun d => Op.dim d.1 d.2) ++ cs.map fun c => (c.renum ρ).toOp eval) = D := by
    unfold dimOps at *
    rw [List.filterMap_append, hD', hdo, List.append_nil]
  obtain ⟨r1, r2, r3, r4, r5⟩ := run_contents hb (by rw [hD2]; exact hc) hrun
  obtain ⟨d1, d2⟩ := run_dims hdo hc hrun
  have hcon : contents f = contents base ++ cs.filterMap fun c => entry toF m f.dims ((c.renum ρ).toOp eval) := by
    rw [r1, List.filterMap_append, List.filterMap_map, List.filterMap_map]
    have : D.filterMap ((entry toF m f.dims) ∘ fun d => Op.dim d.1 d.2) = [] :=
      List.filterMap_eq_nil_iff.mpr fun d _ => rfl
    rw [this, List.nil_append]
    rfl
  refine ⟨f, hrun, r2, d1, r5 (by rw [List.map_append] at hd; exact (List.nodup_append.mp hd).1), ?_, ?_, ?_, ?_, ?_⟩
  · intro d hm
    rcases d2 d hm with h | h | ⟨nm, a, tx, h, e⟩
    · exact Or.inl h
    · exact Or.inr (Or.inl h)
    · obtain ⟨c, hc, e2⟩ := List.mem_map.mp h
      have : c = .op (.str nm a tx) := by
        have hcf := hf c hc
        rcases c with o | ⟨nm', a'⟩
        · cases o <;> simp_all [Call.renum, Call.toOp]
        · simp [Call.renum, Call.toOp] at e2
      subst this
      exact Or.inr (Or.inr ⟨_, hc, ⟨nm, tx, rfl⟩, e⟩)
  · have : (contents f).map (·.name) = f.vars.map (·.name) := by
      unfold contents; rw [List.map_map]; rfl
    rw [← this, hcon, List.map_append]
    congr 1
    · unfold contents; rw [List.map_map]; rfl
    · clear hcon this r1 hrun hvn hn d2 r4 hD2 hdo
      induction cs with
      | nil => rfl
      | cons c cs ih =>
        obtain ⟨e, he, hname, -⟩ := call_entry (toF := toF) (dims' := f.dims) ht eval (hf c (by simp))
        rw [List.filterMap_cons, he]
        simp only [List.map_cons, hname, List.cons.injEq, true_and]
        exact ih fun c hc => hf c (by simp [hc])
  · intro e he
    rw [hcon]
    exact List.mem_append_left _ he
  · intro e he
    rw [hcon] at he
    rcases List.mem_append.mp he with he | he
    · exact Or.inl he
    · obtain ⟨c, hc, h⟩ := List.mem_filterMap.mp he
      exact Or.inr ⟨c, hc, h⟩
  · intro c hc e he
    rw [hcon]
    exact List.mem_append_right _ (List.mem_filterMap.mpr ⟨c, hc, he⟩)

end Qsc.Output
