import Verif.Spec.Netcdf
import Mathlib.Data.List.Nodup
import Mathlib.Algebra.BigOperators.Group.List.Basic

/-!
# Lemmas about the netCDF writer
-/

namespace Qsc.Netcdf
open Qsc.Spec.Netcdf

variable {F : Type}

/-! ## Names of string dimensions -/

theorem strDim_injective {a b : Nat} (h : strDim a = strDim b) : a = b := by
  have h := congrArg String.toList h
  simp only [strDim, String.toList_ofList, List.append_assoc, List.append_cancel_left_eq] at h
  have h2 := congrArg (fun l => Nat.ofDigitChars 10 l 0) h
  simpa [Nat.ofDigitChars_append] using h2

/-! ## Files that grow -/

theorem dimAt_prefix {d d' : List (String × Nat)} (h : d <+: d') {k : Nat} (hk : k < d.length) :
    dimAt d' k = dimAt d k := by
  obtain ⟨t, rfl⟩ := h
  simp [dimAt, List.getElem?_append_left hk]

theorem dimLen_eq (f : File F) (k : Nat) : dimLen f k = (dimAt f.dims k).2 := by
  unfold dimLen dimAt
  cases f.dims[k]? <;> rfl

theorem view_prefix {d d' : List (String × Nat)} (h : d <+: d') (v : Var F) (hv : ∀ k ∈ v.dims, k < d.length) :
    view d' v = view d v := by
  unfold view
  congr 1
  exact List.map_congr_left fun k hk => dimAt_prefix h (hv k hk)

/-- Dimension numbers of a call. -/
def opDims : Op → List Nat
  | .intVec d _ _ _ _ | .fltVec d _ _ _ _ => [d]
  | .nd ds _ _ _ _ => ds
  | _ => []

theorem entry_prefix (toF : Nat → F) (m : Mem F) {d d' : List (String × Nat)} (h : d <+: d') (op : Op)
    (ho : ∀ k ∈ opDims op, k < d.length) : entry toF m d' op = entry toF m d op := by
  cases op with
  | intVec k n a t u => simp only [entry, dimAt_prefix h (ho k (by simp [opDims]))]
  | fltVec k n a t u => simp only [entry, dimAt_prefix h (ho k (by simp [opDims]))]
  | nd ds n a t u =>
    have e1 : ds.map (dimAt d') = ds.map (dimAt d) := List.map_congr_left fun k hk => dimAt_prefix h (ho k hk)
    have e2 : (ds.map fun k => (dimAt d' k).2) = ds.map fun k => (dimAt d k).2 :=
      List.map_congr_left fun k hk => by rw [dimAt_prefix h (ho k hk)]
    simp only [entry, e1, e2]
  | _ => rfl

theorem ready_prefix {m : Mem F} {d d' : List (String × Nat)} (h : d <+: d') {op : Op}
    (ho : ∀ k ∈ opDims op, k < d.length) (hr : Ready m d' op) : Ready m d op := by
  cases op with
  | intVec k n a t u =>
    have hk := ho k (by simp [opDims])
    simp only [Ready, dimAt_prefix h hk] at hr
    exact ⟨hk, hr.2⟩
  | fltVec k n a t u =>
    have hk := ho k (by simp [opDims])
    simp only [Ready, dimAt_prefix h hk] at hr
    exact ⟨hk, hr.2⟩
  | nd ds n a t u =>
    have e2 : (ds.map fun k => (dimAt d' k).2) = ds.map fun k => (dimAt d k).2 :=
      List.map_congr_left fun k hk => by rw [dimAt_prefix h (ho k hk)]
    simp only [Ready, e2] at hr
    refine ⟨ho, fun k hk => ?_, hr.2.2⟩
    rw [← dimAt_prefix h (ho k (List.dropLast_subset _ hk))]
    exact hr.2.1 k hk
  | _ => exact hr

theorem ready_mono {m : Mem F} {d d' : List (String × Nat)} (h : d <+: d') {op : Op} (hr : Ready m d op) :
    Ready m d' op := by
  cases op with
  | intVec k n a t u =>
    simp only [Ready, dimAt_prefix h hr.1]
    exact ⟨Nat.lt_of_lt_of_le hr.1 h.length_le, hr.2⟩
  | fltVec k n a t u =>
    simp only [Ready, dimAt_prefix h hr.1]
    exact ⟨Nat.lt_of_lt_of_le hr.1 h.length_le, hr.2⟩
  | nd ds n a t u =>
    have e2 : (ds.map fun k => (dimAt d' k).2) = ds.map fun k => (dimAt d k).2 :=
      List.map_congr_left fun k hk => by rw [dimAt_prefix h (hr.1 k hk)]
    simp only [Ready, e2]
    refine ⟨fun k hk => Nat.lt_of_lt_of_le (hr.1 k hk) h.length_le, fun k hk => ?_, hr.2.2⟩
    rw [dimAt_prefix h (hr.1 k (List.dropLast_subset _ hk))]
    exact hr.2.1 k hk
  | _ => exact hr

/-! ## Attributes -/

theorem modify_last {α : Type} (l : List α) (a : α) (g : α → α) :
    (l ++ [a]).modify l.length g = l ++ [g a] := by
  induction l with
  | nil => rfl
  | cons b l ih => simpa using ih

theorem addAttribute_last (f : File F) (v : Var F) (hv : v.atts = []) (t u : String) :
    addAttribute { f with vars := f.vars ++ [v] } f.vars.length t u =
      { f with vars := f.vars ++ [{ v with atts := attributes t u }] } := by
  have ht : (0 < t.length) ↔ t ≠ "" := by
    rw [Nat.pos_iff_ne_zero, ne_eq, ne_eq, String.length_eq_zero_iff]
  have hu : (0 < u.length) ↔ u ≠ "" := by
    rw [Nat.pos_iff_ne_zero, ne_eq, ne_eq, String.length_eq_zero_iff]
  unfold addAttribute attributes putAtt
  by_cases h1 : t = "" <;> by_cases h2 : u = "" <;>
    simp [h1, h2, hv, modify_last, ht, hu]
  · cases v; simp_all

/-! ## One call -/

/-- Effect of `putCommon`, when it succeeds. -/
def put (w : Writer F) (name : String) (ty : Ty) (dims : List Nat) (tag : Tag) (p : Ptr F) (t u : String) :
    Writer F :=
  { file := { w.file with vars := w.file.vars ++ [⟨name, ty, dims, attributes t u, none⟩] }
    ids := w.ids ++ [w.file.vars.length], types := w.types ++ [tag], ptrs := w.ptrs ++ [p] }

theorem putCommon_iff (w : Writer F) (name : String) (ty : Ty) (dims : List Nat) (tag : Tag) (p : Ptr F)
    (t u : String) (w' : Writer F) :
    putCommon w name ty dims tag p t u = .ok w' ↔
      (∀ v ∈ w.file.vars, v.name ≠ name) ∧ (∀ d ∈ dims, d < w.file.dims.length) ∧
      (∀ d ∈ dims.tail, (dimAt w.file.dims d).2 ≠ 0) ∧ w' = put w name ty dims tag p t u := by
  unfold putCommon defVar
  by_cases h1 : (w.file.vars.any fun v => v.name == name) = true
  · rw [if_pos h1]
    simp only [List.any_eq_true, beq_iff_eq] at h1
    obtain ⟨v, hv, hn⟩ := h1
    constructor
    · intro h; simp at h
    · intro h; exact absurd hn (h.1 v hv)
  rw [if_neg h1]
  by_cases h2 : (dims.any fun d => decide (w.file.dims.length ≤ d)) = true
  · rw [if_pos h2]
    simp only [List.any_eq_true, decide_eq_true_eq] at h2
    obtain ⟨d, hd, hn⟩ := h2
    constructor
    · intro h; simp at h
    · intro h; exact absurd (h.2.1 d hd) (by omega)
  rw [if_neg h2]
  by_cases h3 : (dims.tail.any fun d => dimLen w.file d == 0) = true
  · rw [if_pos h3]
    simp only [List.any_eq_true, beq_iff_eq, dimLen_eq] at h3
    obtain ⟨d, hd, hn⟩ := h3
    constructor
    · intro h; simp at h
    · intro h; exact absurd hn (h.2.2.1 d hd)
  rw [if_neg h3]
  simp only [List.any_eq_true, beq_iff_eq, decide_eq_true_eq, dimLen_eq, not_exists, not_and] at h1 h2 h3
  have ha := addAttribute_last w.file ⟨name, ty, dims, [], none⟩ rfl t u
  simp only [ha, Except.ok.injEq]
  constructor
  · intro h
    exact ⟨h1, fun d hd => by have := h2 d hd; omega, h3, h.symm⟩
  · intro h
    exact h.2.2.2.symm

theorem defDim_iff (f : File F) (name : String) (len : Nat) (r : File F × Nat) :
    defDim f name len = .ok r ↔
      (∀ d ∈ f.dims, d.1 ≠ name) ∧ (len = 0 → ∀ d ∈ f.dims, d.2 ≠ 0) ∧
      r = ({ f with dims := f.dims ++ [(name, len)] }, f.dims.length) := by
  unfold defDim
  by_cases h1 : (f.dims.any fun d => d.1 == name) = true
  · rw [if_pos h1]
    simp only [List.any_eq_true, beq_iff_eq] at h1
    obtain ⟨v, hv, hn⟩ := h1
    constructor
    · intro h; simp at h
    · intro h; exact absurd hn (h.1 v hv)
  rw [if_neg h1]
  by_cases h2 : (len == 0 && f.dims.any (fun d => d.2 == 0)) = true
  · rw [if_pos h2]
    simp only [Bool.and_eq_true, List.any_eq_true, beq_iff_eq] at h2
    obtain ⟨h0, d, hd, hn⟩ := h2
    constructor
    · intro h; simp at h
    · intro h; exact absurd hn (h.2.1 h0 d hd)
  rw [if_neg h2]
  simp only [Bool.and_eq_true, List.any_eq_true, beq_iff_eq, not_exists, not_and] at h1 h2
  simp only [Except.ok.injEq]
  exact ⟨fun h => ⟨h1, h2, h.symm⟩, fun h => h.2.2.symm⟩

theorem inqDim_some {f : File F} {name : String} {d : Nat} (h : inqDim f name = some d) :
    d < f.dims.length ∧ (dimAt f.dims d).1 = name ∧ dimAt f.dims d ∈ f.dims := by
  unfold inqDim at h
  obtain ⟨hd, h1, -⟩ := List.findIdx?_eq_some_iff_getElem.mp h
  simp only [beq_iff_eq] at h1
  simp [dimAt, hd, h1]

theorem inqDim_none {f : File F} {name : String} (h : inqDim f name = none) : ∀ d ∈ f.dims, d.1 ≠ name := by
  unfold inqDim at h
  simpa using h

theorem stringDim_ok {f : File F} {len : Nat} (hc : Clean f.dims) {r : File F × Nat} (h : stringDim f len = .ok r) :
    r.1.vars = f.vars ∧ f.dims <+: r.1.dims ∧ Clean r.1.dims ∧ r.2 < r.1.dims.length ∧
      dimAt r.1.dims r.2 = (strDim len, len) ∧
      (r.1.dims = f.dims ∨ r.1.dims = f.dims ++ [(strDim len, len)] ∧ ∀ d ∈ f.dims, d.1 ≠ strDim len) := by
  unfold stringDim at h
  cases hi : inqDim f (strDim len) with
  | some d =>
    rw [hi] at h
    simp only [Except.ok.injEq] at h
    subst h
    obtain ⟨h1, h2, h3⟩ := inqDim_some hi
    refine ⟨rfl, List.prefix_refl _, hc, h1, ?_, Or.inl rfl⟩
    have h4 : dimAt f.dims d = (strDim len, (dimAt f.dims d).2) := by rw [← h2]
    rw [h4] at h3
    rw [h4, hc _ _ h3]
  | none =>
    rw [hi] at h
    obtain ⟨-, -, rfl⟩ := (defDim_iff _ _ _ _).mp h
    refine ⟨rfl, List.prefix_append _ _, ?_, by simp, by simp [dimAt], Or.inr ⟨rfl, inqDim_none hi⟩⟩
    intro n l hl
    rcases List.mem_append.mp hl with hl | hl
    · exact hc n l hl
    · simp only [List.mem_singleton, Prod.mk.injEq] at hl
      rw [hl.2, strDim_injective hl.1]

/-- What the writer keeps for one variable. -/
structure Slot (F : Type) where
  v : Var F
  tag : Tag
  ptr : Ptr F

/-- A slot belongs to a call: its dimensions are defined, the type written is the type defined, and with the
data at its pointer it is the entry of that call; the data is there if the call was ready. -/
def Good (toF : Nat → F) (m : Mem F) (dims : List (String × Nat)) (op : Op) (s : Slot F) : Prop :=
  (∀ d ∈ opDims op, d < dims.length) ∧ (∀ d ∈ s.v.dims, d < dims.length) ∧ tagTy s.tag = some s.v.ty ∧
  (∀ data, deref m s.ptr s.v.ty ((s.v.dims.map fun d => (dimAt dims d).2).prod) = .ok data →
    entry toF m dims op = some (view dims { s.v with data := some data })) ∧
  (Ready m dims op →
    ∃ data, deref m s.ptr s.v.ty ((s.v.dims.map fun d => (dimAt dims d).2).prod) = .ok data)

theorem Good.mono {toF : Nat → F} {m : Mem F} {d d' : List (String × Nat)} (h : d <+: d') {op : Op} {s : Slot F}
    (g : Good toF m d op s) : Good toF m d' op s := by
  obtain ⟨g1, g2, g3, g4, g5⟩ := g
  have e2 : (s.v.dims.map fun k => (dimAt d' k).2) = s.v.dims.map fun k => (dimAt d k).2 :=
    List.map_congr_left fun k hk => by rw [dimAt_prefix h (g2 k hk)]
  refine ⟨fun k hk => Nat.lt_of_lt_of_le (g1 k hk) h.length_le,
    fun k hk => Nat.lt_of_lt_of_le (g2 k hk) h.length_le, g3, ?_, ?_⟩
  swap
  · intro hr
    rw [e2]
    exact g5 (ready_prefix h g1 hr)
  intro data hd
  rw [e2] at hd
  have hv := view_prefix h ({ s.v with data := some data } : Var F) g2
  rw [entry_prefix toF m h op g1, hv]
  exact g4 data hd

/-- Calls that define a variable. -/
def isPut (op : Op) : Bool := (varName op).isSome

/-- State of the writer after some calls. -/
def Inv (toF : Nat → F) (m : Mem F) (base : File F) (ops : List Op) (w : Writer F) : Prop :=
  base.dims <+: w.file.dims ∧ Clean w.file.dims ∧
  (∀ d ∈ dimOps ops, d ∈ w.file.dims) ∧
  ((base.dims.map (·.1)).Nodup → (w.file.dims.map (·.1)).Nodup) ∧
  ∃ slots : List (Slot F), w.file.vars = base.vars ++ slots.map (·.v) ∧
    w.ids = List.range' base.vars.length slots.length ∧ w.types = slots.map (·.tag) ∧
    w.ptrs = slots.map (·.ptr) ∧ List.Forall₂ (Good toF m w.file.dims) (ops.filter isPut) slots

theorem Inv.put {toF : Nat → F} {m : Mem F} {base : File F} {ops : List Op} {w : Writer F}
    (i : Inv toF m base ops w) {op : Op} (hop : isPut op = true) (name : String) (ty : Ty) (dims : List Nat)
    (tag : Tag) (p : Ptr F) (t u : String)
    (g : Good toF m w.file.dims op ⟨⟨name, ty, dims, attributes t u, none⟩, tag, p⟩) :
    Inv toF m base (ops ++ [op]) (Netcdf.put w name ty dims tag p t u) := by
  obtain ⟨i1, i2, i3, i4, slots, i5, i6, i7, i8, i9⟩ := i
  have hd : dimOps (ops ++ [op]) = dimOps ops := by
    unfold dimOps
    rw [List.filterMap_append]
    cases op <;> simp_all [isPut, varName]
  refine ⟨i1, i2, by rw [hd]; exact i3, i4, slots ++ [⟨⟨name, ty, dims, attributes t u, none⟩, tag, p⟩], ?_, ?_, ?_, ?_, ?_⟩
  · simp [Netcdf.put, i5]
  · simp [Netcdf.put, i5, i6, List.range'_concat]
  · simp [Netcdf.put, i7]
  · simp [Netcdf.put, i8]
  · rw [List.filter_append, List.filter_singleton, hop]
    exact List.rel_append i9 (List.Forall₂.cons g List.Forall₂.nil)

theorem deref_obj {m : Mem F} {a : String} {ty : Ty} {n : Nat} {d : Data F} :
    deref m (.obj a) ty n = .ok d ↔ tyOf (m a) = ty ∧ n ≤ size (m a) ∧ d = first n (m a) := by
  simp only [deref]
  generalize m a = x
  cases x with
  | ints l => cases ty <;> by_cases hn : n ≤ l.length <;> simp [tyOf, size, first, hn, eq_comm]
  | flts l => cases ty <;> by_cases hn : n ≤ l.length <;> simp [tyOf, size, first, hn, eq_comm]
  | chars l => cases ty <;> by_cases hn : n ≤ l.length <;> simp [tyOf, size, first, hn, eq_comm]

theorem deref_copy {m : Mem F} {v : F} {ty : Ty} {n : Nat} {d : Data F} :
    deref m (.copy v) ty n = .ok d ↔ ty = .flt ∧ n ≤ 1 ∧ d = .flts ([v].take n) := by
  unfold deref
  by_cases h : ty = .flt ∧ n ≤ 1
  · simp [h, eq_comm]
  · simp only [if_neg h]
    constructor
    · intro h; simp at h
    · intro h'; exact absurd ⟨h'.1, h'.2.1⟩ h

theorem strLen_ok {m : Mem F} {a : String} {n : Nat} (h : strLen m a = .ok n) : tyOf (m a) = .chr ∧ n = size (m a) := by
  unfold strLen at h
  cases hm : m a <;> simp_all [tyOf, size]

theorem first_size (d : Data F) : first (size d) d = d := by
  cases d <;> simp [first, size]

theorem Inv.file {toF : Nat → F} {m : Mem F} {base : File F} {ops : List Op} {w : Writer F}
    (i : Inv toF m base ops w) {f : File F} (hv : f.vars = w.file.vars) (hp : w.file.dims <+: f.dims)
    (hc : Clean f.dims) (hn : (w.file.dims.map (·.1)).Nodup → (f.dims.map (·.1)).Nodup) :
    Inv toF m base ops { w with file := f } := by
  obtain ⟨i1, i2, i3, i4, slots, i5, i6, i7, i8, i9⟩ := i
  exact ⟨i1.trans hp, hc, fun d hd => hp.subset (i3 d hd), fun h => hn (i4 h), slots, by simp [hv, i5], i6, i7, i8,
    i9.imp fun _ _ g => g.mono hp⟩

theorem nodup_snoc {l : List (String × Nat)} {x : String × Nat} (h : (l.map (·.1)).Nodup)
    (hx : ∀ d ∈ l, d.1 ≠ x.1) : ((l ++ [x]).map (·.1)).Nodup := by
  rw [List.map_append, List.map_singleton]
  refine List.Nodup.append h (by simp) ?_
  simp only [List.disjoint_singleton, List.mem_map, not_exists, not_and]
  exact fun d hd => hx d hd

theorem step_inv {toF : Nat → F} {m : Mem F} {base : File F} {ops : List Op} {w w' : Writer F} {op : Op}
    (i : Inv toF m base ops w) (hc : ∀ n l, op = .dim (strDim n) l → l = n) (h : step toF m w op = .ok w') :
    Inv toF m base (ops ++ [op]) w' := by
  cases op with
  | dim name len =>
    simp only [step] at h
    cases hd : defDim w.file name len with
    | error e => rw [hd] at h; simp at h
    | ok r =>
      rw [hd] at h
      simp only [Except.ok.injEq] at h
      obtain ⟨h1, h2, rfl⟩ := (defDim_iff _ _ _ _).mp hd
      subst h
      have hp : w.file.dims <+: w.file.dims ++ [(name, len)] := List.prefix_append _ _
      have hcl : Clean (w.file.dims ++ [(name, len)]) := by
        intro n l hl
        rcases List.mem_append.mp hl with hl | hl
        · exact i.2.1 n l hl
        · simp only [List.mem_singleton, Prod.mk.injEq] at hl
          rw [hl.2]
          exact hc n len (by rw [hl.1])
      obtain ⟨j1, j2, j3, j4, slots, j5, j6, j7, j8, j9⟩ :=
        i.file (f := { w.file with dims := w.file.dims ++ [(name, len)] }) rfl hp hcl (fun hn => nodup_snoc hn h1)
      refine ⟨j1, j2, ?_, j4, slots, j5, j6, j7, j8, ?_⟩
      · intro d hd
        unfold dimOps at hd
        rw [List.filterMap_append, List.mem_append] at hd
        rcases hd with hd | hd
        · exact j3 d hd
        · simp at hd
          simp [hd]
      · rw [List.filter_append]
        simpa [isPut, varName] using j9
  | int name a t u =>
    obtain ⟨h1, h2, h3, rfl⟩ := (putCommon_iff _ _ _ _ _ _ _ _ _).mp h
    refine i.put rfl _ _ _ _ _ _ _ ⟨by simp [opDims], h2, rfl, ?_, ?_⟩
    swap
    · rintro ⟨l, hl, h1⟩
      exact ⟨_, deref_obj.mpr ⟨by simp [hl, tyOf], by simpa [hl, size] using h1, rfl⟩⟩
    intro data hd
    obtain ⟨-, -, rfl⟩ := deref_obj.mp hd
    simp [entry, view]
  | flt name a t u =>
    obtain ⟨h1, h2, h3, rfl⟩ := (putCommon_iff _ _ _ _ _ _ _ _ _).mp h
    refine i.put rfl _ _ _ _ _ _ _ ⟨by simp [opDims], h2, rfl, ?_, ?_⟩
    swap
    · rintro ⟨l, hl, h1⟩
      exact ⟨_, deref_obj.mpr ⟨by simp [hl, tyOf], by simpa [hl, size] using h1, rfl⟩⟩
    intro data hd
    obtain ⟨-, -, rfl⟩ := deref_obj.mp hd
    simp [entry, view]
  | big name v t u =>
    obtain ⟨h1, h2, h3, rfl⟩ := (putCommon_iff _ _ _ _ _ _ _ _ _).mp h
    refine i.put rfl _ _ _ _ _ _ _ ⟨by simp [opDims], h2, rfl, ?_, ?_⟩
    swap
    · intro _
      exact ⟨_, deref_copy.mpr ⟨rfl, by simp, rfl⟩⟩
    intro data hd
    obtain ⟨-, -, rfl⟩ := deref_copy.mp hd
    simp [entry, view]
  | str name a t =>
    simp only [step] at h
    cases hl : strLen m a with
    | error e => rw [hl] at h; simp at h
    | ok len =>
      rw [hl] at h
      obtain ⟨hty, rfl⟩ := strLen_ok hl
      simp only at h
      cases hs : stringDim w.file (size (m a)) with
      | error e => rw [hs] at h; simp at h
      | ok r =>
        rw [hs] at h
        obtain ⟨k1, k2, k3, k4, k5, k6⟩ := stringDim_ok i.2.1 hs
        obtain ⟨h1, h2, h3, rfl⟩ := (putCommon_iff _ _ _ _ _ _ _ _ _).mp h
        refine (i.file k1 k2 k3 ?_).put rfl _ _ _ _ _ _ _ ⟨by simp [opDims], h2, rfl, ?_, ?_⟩
        · intro hn
          rcases k6 with k6 | ⟨k6, k7⟩
          · rw [k6]; exact hn
          · rw [k6]; exact nodup_snoc hn k7
        · intro data hd
          obtain ⟨-, -, rfl⟩ := deref_obj.mp hd
          simp [entry, view, k5, first_size]
        · intro _
          exact ⟨_, deref_obj.mpr ⟨hty, by simp [k5], rfl⟩⟩
  | intVec d name a t u =>
    obtain ⟨h1, h2, h3, rfl⟩ := (putCommon_iff _ _ _ _ _ _ _ _ _).mp h
    refine i.put rfl _ _ _ _ _ _ _ ⟨h2, h2, rfl, ?_, ?_⟩
    swap
    · rintro ⟨-, l, hl, h1⟩
      exact ⟨_, deref_obj.mpr ⟨by simp [hl, tyOf], by simpa [hl, size] using h1, rfl⟩⟩
    intro data hd
    obtain ⟨-, -, rfl⟩ := deref_obj.mp hd
    simp [entry, view]
  | fltVec d name a t u =>
    obtain ⟨h1, h2, h3, rfl⟩ := (putCommon_iff _ _ _ _ _ _ _ _ _).mp h
    refine i.put rfl _ _ _ _ _ _ _ ⟨h2, h2, rfl, ?_, ?_⟩
    swap
    · rintro ⟨-, l, hl, h1⟩
      exact ⟨_, deref_obj.mpr ⟨by simp [hl, tyOf], by simpa [hl, size] using h1, rfl⟩⟩
    intro data hd
    obtain ⟨-, -, rfl⟩ := deref_obj.mp hd
    simp [entry, view]
  | nd ds name a t u =>
    obtain ⟨h1, h2, h3, rfl⟩ := (putCommon_iff _ _ _ _ _ _ _ _ _).mp h
    refine i.put rfl _ _ _ _ _ _ _ ⟨fun d hd => h2 d (List.mem_reverse.mpr hd), h2, rfl, ?_, ?_⟩
    swap
    · rintro ⟨-, -, l, hl, h1⟩
      exact ⟨_, deref_obj.mpr ⟨by simp [hl, tyOf],
        by simpa [hl, size, List.map_reverse, List.prod_reverse] using h1, rfl⟩⟩
    intro data hd
    obtain ⟨-, -, rfl⟩ := deref_obj.mp hd
    simp [entry, view, List.map_reverse, List.prod_reverse]

/-! ## Closing -/

/-- A variable is that of a slot with the data at its pointer. -/
def Filled (m : Mem F) (dims : List (String × Nat)) (s : Slot F) (v : Var F) : Prop :=
  ∃ d, deref m s.ptr s.v.ty ((s.v.dims.map fun k => (dimAt dims k).2).prod) = .ok d ∧
    v = { s.v with data := some d }

theorem modify_mid {α : Type} (l : List α) (a : α) (r : List α) (g : α → α) :
    (l ++ a :: r).modify l.length g = l ++ g a :: r := by
  induction l with
  | nil => rfl
  | cons b l ih => simpa using ih

theorem count_eq (f : File F) (l : List Nat) : count f l = (l.map fun k => (dimAt f.dims k).2).prod := by
  unfold count
  congr 1
  exact List.map_congr_left fun k _ => dimLen_eq f k

theorem writeOne_iff {m : Mem F} {ids : List Nat} {types : List Tag} {ptrs : List (Ptr F)} {dims : List (String × Nat)}
    {pre post : List (Var F)} {s : Slot F} {j : Nat} (hi : ids[j]? = some pre.length) (ht : types[j]? = some s.tag)
    (hp : ptrs[j]? = some s.ptr) (hs : tagTy s.tag = some s.v.ty) (f : File F) :
    writeOne m ids types ptrs ⟨dims, pre ++ s.v :: post⟩ j = .ok f ↔
      ∃ v, Filled m dims s v ∧ f = ⟨dims, pre ++ v :: post⟩ := by
  have hg : (pre ++ s.v :: post)[pre.length]? = some s.v := by simp
  simp only [writeOne, hi, ht, hp, hs, hg, count_eq, putVar, modify_mid, Filled]
  cases hd : deref m s.ptr s.v.ty ((s.v.dims.map fun k => (dimAt dims k).2).prod) with
  | error e => simp
  | ok d =>
    simp only [if_true, Except.ok.injEq]
    constructor
    · intro h; exact ⟨_, ⟨d, rfl, rfl⟩, h.symm⟩
    · rintro ⟨v, ⟨d', rfl, rfl⟩, rfl⟩; rfl

theorem forall₂_split {α β : Type} {R : α → β → Prop} {a b : List α} {c : List β}
    (h : List.Forall₂ R (a ++ b) c) : ∃ x y, List.Forall₂ R a x ∧ List.Forall₂ R b y ∧ c = x ++ y := by
  induction a generalizing c with
  | nil => exact ⟨[], c, List.Forall₂.nil, h, rfl⟩
  | cons k a ih =>
    cases h with
    | cons h1 h2 =>
      obtain ⟨x, y, hx, hy, rfl⟩ := ih h2
      exact ⟨_ :: x, y, List.Forall₂.cons h1 hx, hy, rfl⟩

theorem forall₂_right {α β : Type} {R : α → β → Prop} {a : List α} {b : List β} (h : List.Forall₂ R a b) :
    ∀ y ∈ b, ∃ x ∈ a, R x y := by
  induction h with
  | nil => intro y hy; cases hy
  | cons g _ ih =>
    intro y hy
    rcases List.mem_cons.mp hy with rfl | hy
    · exact ⟨_, by simp, g⟩
    · obtain ⟨x, hx, g⟩ := ih y hy
      exact ⟨x, by simp [hx], g⟩

theorem forall₂_fill {α β γ : Type} {R : α → β → Prop} {S : β → γ → Prop} {P : α → Prop} {a : List α} {b : List β}
    (h : List.Forall₂ R a b) (hp : ∀ x ∈ a, P x) (hs : ∀ x y, P x → R x y → ∃ z, S y z) :
    ∃ c, List.Forall₂ S b c := by
  induction h with
  | nil => exact ⟨[], List.Forall₂.nil⟩
  | cons g _ ih =>
    obtain ⟨c, hc⟩ := ih fun x hx => hp x (by simp [hx])
    obtain ⟨z, hz⟩ := hs _ _ (hp _ (by simp)) g
    exact ⟨z :: c, List.Forall₂.cons hz hc⟩

theorem close_iff {m : Mem F} {base : List (Var F)} {dims : List (String × Nat)} {slots : List (Slot F)}
    (hs : ∀ s ∈ slots, tagTy s.tag = some s.v.ty) (n : Nat) (hn : n ≤ slots.length) (f : File F) :
    (List.range n).foldlM (writeOne m (List.range' base.length slots.length) (slots.map (·.tag))
        (slots.map (·.ptr))) ⟨dims, base ++ slots.map (·.v)⟩ = .ok f ↔
      ∃ vs, List.Forall₂ (Filled m dims) (slots.take n) vs ∧
        f = ⟨dims, base ++ vs ++ (slots.drop n).map (·.v)⟩ := by
  induction n generalizing f with
  | zero =>
    simp only [List.range_zero, List.foldlM_nil, List.take_zero, List.drop_zero]
    constructor
    · intro h
      refine ⟨[], List.Forall₂.nil, ?_⟩
      rw [List.append_nil]
      injection h with h
      exact h.symm
    · rintro ⟨vs, hv, rfl⟩
      cases hv
      rw [List.append_nil]
      rfl
  | succ n ih =>
    have hlt : n < slots.length := by omega
    have ih := fun f => ih (by omega) f
    rw [List.range_succ, List.foldlM_append]
    have hdrop : slots.drop n = slots[n] :: slots.drop (n + 1) := List.drop_eq_getElem_cons hlt
    have htake : slots.take (n + 1) = slots.take n ++ [slots[n]] := by
      rw [List.take_add_one, List.getElem?_eq_getElem hlt]; rfl
    have one : ∀ vs, List.Forall₂ (Filled m dims) (slots.take n) vs → ∀ f,
        (writeOne m (List.range' base.length slots.length) (slots.map (·.tag)) (slots.map (·.ptr))
          ⟨dims, base ++ vs ++ (slots.drop n).map (·.v)⟩ n = .ok f ↔
        ∃ v, Filled m dims slots[n] v ∧ f = ⟨dims, base ++ vs ++ v :: (slots.drop (n + 1)).map (·.v)⟩) := by
      intro vs hv f
      have hl : vs.length = n := by
        rw [← hv.length_eq, List.length_take]; omega
      rw [hdrop, List.map_cons]
      refine writeOne_iff ?_ ?_ ?_ (hs _ (List.getElem_mem hlt)) f
      · rw [List.getElem?_range' hlt]; simp [hl]
      · simp [hlt]
      · simp [hlt]
    constructor
    · intro h
      cases hf : (List.range n).foldlM (writeOne m (List.range' base.length slots.length) (slots.map (·.tag))
        (slots.map (·.ptr))) ⟨dims, base ++ slots.map (·.v)⟩ with
      | error e => rw [hf] at h; exact absurd h (by rintro ⟨⟩)
      | ok f1 =>
        rw [hf] at h
        obtain ⟨vs, hv, rfl⟩ := (ih f1).mp hf
        simp only [List.foldlM_cons, List.foldlM_nil] at h
        cases hw : writeOne m (List.range' base.length slots.length) (slots.map (·.tag)) (slots.map (·.ptr))
          ⟨dims, base ++ vs ++ (slots.drop n).map (·.v)⟩ n with
        | error e =>
          have h : (writeOne m (List.range' base.length slots.length) (slots.map (·.tag)) (slots.map (·.ptr))
            ⟨dims, base ++ vs ++ (slots.drop n).map (·.v)⟩ n >>= pure) = .ok f := h
          rw [hw] at h
          cases h
        | ok f2 =>
          have h : f2 = f := by
            have h : (writeOne m (List.range' base.length slots.length) (slots.map (·.tag)) (slots.map (·.ptr))
              ⟨dims, base ++ vs ++ (slots.drop n).map (·.v)⟩ n >>= pure) = .ok f := h
            rw [hw] at h
            injection h
          subst h
          obtain ⟨v, hv', rfl⟩ := (one vs hv _).mp hw
          refine ⟨vs ++ [v], ?_, by simp⟩
          rw [htake]
          exact List.rel_append hv (List.Forall₂.cons hv' List.Forall₂.nil)
    · rintro ⟨vs, hv, rfl⟩
      rw [htake] at hv
      obtain ⟨vs1, vs2, hv1, hv2, rfl⟩ : ∃ a b, List.Forall₂ (Filled m dims) (slots.take n) a ∧
          List.Forall₂ (Filled m dims) [slots[n]] b ∧ vs = a ++ b := forall₂_split hv
      cases hv2 with
      | cons hx hnil =>
        cases hnil
        rw [(ih _).mpr ⟨vs1, hv1, rfl⟩]
        change (writeOne m (List.range' base.length slots.length) (slots.map (·.tag)) (slots.map (·.ptr))
              ⟨dims, base ++ vs1 ++ (slots.drop n).map (·.v)⟩ n >>= pure) = _
        rw [(one vs1 hv1 _).mpr ⟨_, hx, rfl⟩]
        simp

end Qsc.Netcdf
