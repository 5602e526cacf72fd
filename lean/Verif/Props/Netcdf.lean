import Verif.Lemmas.Netcdf

/-!
# The netCDF writer (C50)
-/

namespace Qsc.Netcdf
open Qsc.Spec.Netcdf

variable {F : Type}

theorem foldlM_inv {toF : Nat → F} {m : Mem F} {base : File F} (ops done : List Op) {w w' : Writer F}
    (i : Inv toF m base done w) (hc : ∀ n l, Op.dim (strDim n) l ∈ ops → l = n)
    (h : ops.foldlM (step toF m) w = .ok w') : Inv toF m base (done ++ ops) w' := by
  induction ops generalizing done w with
  | nil =>
    injection h with h
    subst h
    simpa using i
  | cons op ops ih =>
    rw [List.foldlM_cons] at h
    cases hs : step toF m w op with
    | error e => rw [hs] at h; cases h
    | ok w1 =>
      rw [hs] at h
      have := ih (done ++ [op]) (step_inv i (fun n l e => hc n l (by simp [e])) hs)
        (fun n l hm => hc n l (List.mem_cons_of_mem _ hm)) h
      simpa using this

theorem mem_dimOps {ops : List Op} {name : String} {len : Nat} : (name, len) ∈ dimOps ops ↔ Op.dim name len ∈ ops := by
  unfold dimOps
  rw [List.mem_filterMap]
  constructor
  · rintro ⟨op, hm, he⟩
    cases op <;> simp_all
  · intro h
    exact ⟨_, h, rfl⟩

theorem inv_start (toF : Nat → F) (m : Mem F) (base : File F) (hc : Clean base.dims) :
    Inv toF m base [] ⟨base, [], [], []⟩ :=
  ⟨List.prefix_refl _, hc, by simp [dimOps], id, [], by simp, by simp, rfl, rfl, by simp⟩

/-- What is known after the calls and the closing. -/
theorem run_slots {toF : Nat → F} {m : Mem F} {base f : File F} {ops : List Op}
    (hc : Clean (base.dims ++ dimOps ops)) (h : run toF m base ops = .ok f) :
    base.dims <+: f.dims ∧ (∀ d ∈ dimOps ops, d ∈ f.dims) ∧
      ((base.dims.map (·.1)).Nodup → (f.dims.map (·.1)).Nodup) ∧
      ∃ slots vs, List.Forall₂ (Good toF m f.dims) (ops.filter isPut) slots ∧
        List.Forall₂ (Filled m f.dims) slots vs ∧ f.vars = base.vars ++ vs := by
  unfold run at h
  cases hf : ops.foldlM (step toF m) (⟨base, [], [], []⟩ : Writer F) with
  | error e => rw [hf] at h; cases h
  | ok w =>
    rw [hf] at h
    have i := foldlM_inv ops [] (inv_start toF m base fun n l hl => hc n l (by simp [hl]))
      (fun n l hl => hc n l (List.mem_append_right _ (mem_dimOps.mpr hl))) hf
    obtain ⟨i1, i2, i3, i4, slots, i5, i6, i7, i8, i9⟩ := i
    have hs : ∀ s ∈ slots, tagTy s.tag = some s.v.ty := by
      intro s hs
      obtain ⟨op, -, g⟩ := forall₂_right i9 s hs
      exact g.2.2.1
    have hw : w.file = ⟨w.file.dims, base.vars ++ slots.map (·.v)⟩ := by rw [← i5]
    unfold writeAndClose at h
    simp only [i6, i7, i8, List.length_range'] at h
    rw [hw] at h
    obtain ⟨vs, hv, rfl⟩ := (close_iff hs slots.length (Nat.le_refl _) f).mp h
    rw [List.take_length] at hv
    refine ⟨i1, i3, i4, slots, vs, by simpa using i9, hv, by simp⟩

theorem entries_eq {toF : Nat → F} {m : Mem F} {dims : List (String × Nat)} {ops : List Op} {slots : List (Slot F)}
    {vs : List (Var F)} (hg : List.Forall₂ (Good toF m dims) ops slots)
    (hf : List.Forall₂ (Filled m dims) slots vs) : vs.map (view dims) = ops.filterMap (entry toF m dims) := by
  induction hg generalizing vs with
  | nil => cases hf; rfl
  | cons g _ ih =>
    cases hf with
    | cons h1 h2 =>
      obtain ⟨d, hd, rfl⟩ := h1
      rw [List.filterMap_cons, g.2.2.2.1 d hd, List.map_cons, ih h2]

theorem filter_entry (toF : Nat → F) (m : Mem F) (dims : List (String × Nat)) (ops : List Op) :
    (ops.filter isPut).filterMap (entry toF m dims) = ops.filterMap (entry toF m dims) := by
  induction ops with
  | nil => rfl
  | cons op ops ih => cases op <;> simp [isPut, varName, entry, List.filter_cons, List.filterMap_cons, ih]

/-- **C50.**  Whatever calls are made, if the file is written, its table of contents is that of the file
that was opened followed by one entry per call, in order: the name, type, dimensions and attributes of that
call with the data of that call.  The dimensions of the opened file are kept, those requested are there, and
no two have the same name. -/
theorem run_contents {toF : Nat → F} {m : Mem F} {base f : File F} {ops : List Op} (hb : WellFormed base)
    (hc : Clean (base.dims ++ dimOps ops)) (h : run toF m base ops = .ok f) :
    contents f = contents base ++ ops.filterMap (entry toF m f.dims) ∧ WellFormed f ∧
      base.dims <+: f.dims ∧ (∀ d ∈ dimOps ops, d ∈ f.dims) ∧
      ((base.dims.map (·.1)).Nodup → (f.dims.map (·.1)).Nodup) := by
  obtain ⟨h1, h2, h3, slots, vs, hg, hf, hv⟩ := run_slots hc h
  refine ⟨?_, ?_, h1, h2, h3⟩
  · unfold contents
    rw [hv, List.map_append, entries_eq hg hf, filter_entry]
    congr 1
    exact List.map_congr_left fun v hm => view_prefix h1 v (hb v hm)
  · intro v hm d hd
    rw [hv] at hm
    rcases List.mem_append.mp hm with hm | hm
    · exact Nat.lt_of_lt_of_le (hb v hm d hd) h1.length_le
    · obtain ⟨s, hs, _, -, rfl⟩ := forall₂_right hf v hm
      obtain ⟨op, -, g⟩ := forall₂_right hg s hs
      exact g.2.1 d hd

/-- Two variables whose dimensions have the same names share them. -/
theorem dims_shared {f : File F} (hn : (f.dims.map (·.1)).Nodup) (hw : WellFormed f) {v1 v2 : Var F}
    (h1 : v1 ∈ f.vars) (h2 : v2 ∈ f.vars)
    (he : v1.dims.map (dimAt f.dims) = v2.dims.map (dimAt f.dims)) : v1.dims = v2.dims := by
  have key : ∀ a b, a < f.dims.length → b < f.dims.length → dimAt f.dims a = dimAt f.dims b → a = b := by
    intro a b ha hb e
    simp only [dimAt, List.getElem?_eq_getElem ha, List.getElem?_eq_getElem hb, Option.getD_some] at e
    have hn' : f.dims.Nodup := List.Nodup.of_map _ hn
    exact (List.Nodup.getElem_inj_iff hn').mp e
  have lists : ∀ l1 l2 : List Nat, (∀ d ∈ l1, d < f.dims.length) → (∀ d ∈ l2, d < f.dims.length) →
      l1.map (dimAt f.dims) = l2.map (dimAt f.dims) → l1 = l2 := by
    intro l1
    induction l1 with
    | nil =>
      intro l2 _ _ he
      cases l2 with
      | nil => rfl
      | cons b l2 => simp at he
    | cons a l1 ih =>
      intro l2 g1 g2 he
      cases l2 with
      | nil => simp at he
      | cons b l2 =>
        simp only [List.map_cons, List.cons.injEq] at he
        rw [key a b (g1 a (by simp)) (g2 b (by simp)) he.1,
          ih l2 (fun d hd => g1 d (by simp [hd])) (fun d hd => g2 d (by simp [hd])) he.2]
  exact lists _ _ (hw v1 h1) (hw v2 h2) he

/-- **C50.**  Strings of equal length share one dimension, which has that length. -/
theorem string_dims {toF : Nat → F} {m : Mem F} {base f : File F} {ops : List Op} (hb : WellFormed base)
    (hd : (base.dims.map (·.1)).Nodup) (hc : Clean (base.dims ++ dimOps ops)) (h : run toF m base ops = .ok f)
    {n1 a1 t1 n2 a2 t2 : String} (h1 : Op.str n1 a1 t1 ∈ ops) (h2 : Op.str n2 a2 t2 ∈ ops)
    (hs : size (m a1) = size (m a2)) :
    ∃ d, (dimAt f.dims d).2 = size (m a1) ∧
      (∃ v ∈ f.vars, v.name = n1 ∧ v.dims = [d] ∧ v.data = some (m a1)) ∧
      ∃ v ∈ f.vars, v.name = n2 ∧ v.dims = [d] ∧ v.data = some (m a2) := by
  obtain ⟨hcon, hw, -, -, hn⟩ := run_contents hb hc h
  have get : ∀ n a t, Op.str n a t ∈ ops → ∃ v ∈ f.vars, v.name = n ∧
      v.dims.map (dimAt f.dims) = [(strDim (size (m a)), size (m a))] ∧ v.data = some (m a) := by
    intro n a t hop
    have hm : (⟨n, .chr, [(strDim (size (m a)), size (m a))], attributes t "", some (m a)⟩ : Entry F) ∈ contents f := by
      rw [hcon]
      exact List.mem_append_right _ (List.mem_filterMap.mpr ⟨_, hop, rfl⟩)
    obtain ⟨v, hv, e⟩ := List.mem_map.mp hm
    simp only [view, Entry.mk.injEq] at e
    exact ⟨v, hv, e.1, e.2.2.1, e.2.2.2.2⟩
  obtain ⟨v1, m1, e1, d1, x1⟩ := get n1 a1 t1 h1
  obtain ⟨v2, m2, e2, d2, x2⟩ := get n2 a2 t2 h2
  have hsh := dims_shared (hn hd) hw m1 m2 (by rw [d1, d2, hs])
  cases hl : v1.dims with
  | nil => rw [hl] at d1; simp at d1
  | cons d r =>
    rw [hl] at d1
    simp only [List.map_cons, List.cons.injEq, List.map_eq_nil_iff] at d1
    obtain ⟨d1, rfl⟩ := d1
    exact ⟨d, by rw [d1], ⟨v1, m1, e1, hl, x1⟩, v2, m2, e2, by rw [← hsh, hl], x2⟩

/-! ## Success -/

theorem step_ok {toF : Nat → F} {m : Mem F} {w : Writer F} {op : Op} (hr : Ready m w.file.dims op)
    (hn : ∀ v ∈ w.file.vars, varName op ≠ some v.name) :
    ∃ w', step toF m w op = .ok w' ∧ w.file.dims <+: w'.file.dims ∧
      w'.file.vars.map (·.name) = w.file.vars.map (·.name) ++ (varName op).toList := by
  have common : ∀ (w : Writer F) name ty dims tag p t u,  (∀ v ∈ w.file.vars, v.name ≠ name) → (∀ d ∈ dims, d < w.file.dims.length) →
      (∀ d ∈ dims.tail, (dimAt w.file.dims d).2 ≠ 0) →
      ∃ w', putCommon w name ty dims tag p t u = .ok w' ∧ w.file.dims <+: w'.file.dims ∧ w'.file.vars.map (·.name) = w.file.vars.map (·.name) ++ [name] := by
    intro w name ty dims tag p t u h2 h3 h4
    exact ⟨_, (putCommon_iff _ _ _ _ _ _ _ _ _).mpr ⟨h2, h3, h4, rfl⟩, List.prefix_refl _, by simp [put]⟩
  cases op with
  | dim name len => exact absurd hr (by simp [Ready])
  | int name a t u =>
    exact common w name _ _ _ _ _ _ (fun v hv => by simpa [varName, eq_comm] using hn v hv) (by simp) (by simp)
  | flt name a t u =>
    exact common w name _ _ _ _ _ _ (fun v hv => by simpa [varName, eq_comm] using hn v hv) (by simp) (by simp)
  | big name v t u =>
    exact common w name _ _ _ _ _ _ (fun v hv => by simpa [varName, eq_comm] using hn v hv) (by simp) (by simp)
  | str name a t =>
    obtain ⟨l, hl, h1⟩ := hr
    have hs : strLen m a = .ok l.length := by simp [strLen, hl]
    simp only [step, hs]
    cases hi : inqDim w.file (strDim l.length) with
    | some d =>
      simp only [stringDim, hi]
      exact common w name _ _ _ _ _ _ (fun v hv => by simpa [varName, eq_comm] using hn v hv)
        (by simpa using (inqDim_some hi).1) (by simp)
    | none =>
      have hd := (defDim_iff w.file (strDim l.length) l.length _).mpr
        ⟨inqDim_none hi, fun h0 => absurd h0 (by omega), rfl⟩
      simp only [stringDim, hi, hd]
      obtain ⟨w', k1, k3, k4⟩ := common
        { w with file := { w.file with dims := w.file.dims ++ [(strDim l.length, l.length)] } } name .chr
        [w.file.dims.length] .string (.obj a) t ""
        (fun v hv => by simpa [varName, eq_comm] using hn v hv) (by simp) (by simp)
      exact ⟨w', k1, (List.prefix_append _ _).trans k3, k4⟩
  | intVec d name a t u =>
    exact common w name _ _ _ _ _ _ (fun v hv => by simpa [varName, eq_comm] using hn v hv)
      (by simpa using hr.1) (by simp)
  | fltVec d name a t u =>
    exact common w name _ _ _ _ _ _ (fun v hv => by simpa [varName, eq_comm] using hn v hv)
      (by simpa using hr.1) (by simp)
  | nd ds name a t u =>
    refine common w name _ _ _ _ _ _ (fun v hv => by simpa [varName, eq_comm] using hn v hv)
      (fun d hd => hr.1 d (List.mem_reverse.mp hd)) ?_
    intro d hd
    rw [List.tail_reverse, List.mem_reverse] at hd
    exact hr.2.1 d hd

theorem puts_ok {toF : Nat → F} {m : Mem F} (puts : List Op) (w : Writer F)
    (hr : ∀ op ∈ puts, Ready m w.file.dims op)
    (hn : (w.file.vars.map (·.name) ++ puts.filterMap varName).Nodup) :
    ∃ w', puts.foldlM (step toF m) w = .ok w' := by
  induction puts generalizing w with
  | nil => exact ⟨w, rfl⟩
  | cons op puts ih =>
    have hn' : w.file.vars.map (·.name) ++ (op :: puts).filterMap varName =
        w.file.vars.map (·.name) ++ (varName op).toList ++ puts.filterMap varName := by
      rw [List.filterMap_cons]
      cases varName op <;> simp
    rw [hn'] at hn
    obtain ⟨w1, h1, h3, h4⟩ := step_ok (toF := toF) (hr op (by simp)) (by
      intro v hv e
      rw [e] at hn
      have := List.Nodup.of_append_left hn
      simp only [Option.toList_some, List.nodup_append, List.mem_map] at this
      exact this.2.2 v.name ⟨v, hv, rfl⟩ v.name (by simp) rfl)
    rw [← h4] at hn
    obtain ⟨w', h5⟩ := ih w1 (fun o ho => ready_mono h3 (hr o (by simp [ho]))) hn
    refine ⟨w', ?_⟩
    rw [List.foldlM_cons, h1]
    exact h5

theorem dims_ok (toF : Nat → F) (m : Mem F) (D : List (String × Nat)) (w : Writer F)
    (hn : ((w.file.dims ++ D).map (·.1)).Nodup) (hp : (w.file.dims ++ D).Pairwise fun a b => b.2 = 0 → a.2 ≠ 0) :
    (D.map fun d => Op.dim d.1 d.2).foldlM (step toF m) w =
      .ok { w with file := { w.file with dims := w.file.dims ++ D } } := by
  induction D generalizing w with
  | nil => simp [pure, Except.pure]
  | cons d D ih =>
    have hd := (defDim_iff w.file d.1 d.2 _).mpr ⟨by
      intro x hx e
      rw [List.map_append, List.map_cons, List.nodup_append] at hn
      exact hn.2.2 x.1 (List.mem_map_of_mem hx) d.1 (by simp) e, by
      intro h0 x hx
      exact (List.pairwise_append.mp hp).2.2 x hx d (by simp) h0, rfl⟩
    rw [List.map_cons, List.foldlM_cons]
    have hs : step toF m w (Op.dim d.1 d.2) = .ok { w with file := { w.file with dims := w.file.dims ++ [(d.1, d.2)] } } := by
      simp only [step, hd]
    rw [hs]
    have := ih { w with file := { w.file with dims := w.file.dims ++ [(d.1, d.2)] } }
      (by simpa using hn) (by simpa using hp)
    simp only [List.append_assoc, List.singleton_append] at this
    exact this

/-- **C50.**  Nothing is thrown and nothing is read out of bounds when the dimensions are defined first, all
names are different, at most one length is zero, and each array in memory has as many elements as its dimensions
say. -/
theorem run_ok {toF : Nat → F} {m : Mem F} {base : File F} {D : List (String × Nat)} {puts : List Op}
    (hd : ((base.dims ++ D).map (·.1)).Nodup) (hp : (base.dims ++ D).Pairwise fun a b => b.2 = 0 → a.2 ≠ 0)
    (hc : Clean (base.dims ++ D)) (hn : (base.vars.map (·.name) ++ puts.filterMap varName).Nodup)
    (hr : ∀ op ∈ puts, Ready m (base.dims ++ D) op) :
    ∃ f, run toF m base ((D.map fun d => Op.dim d.1 d.2) ++ puts) = .ok f := by
  have h1 := dims_ok toF m D ⟨base, [], [], []⟩ hd hp
  obtain ⟨w, h2⟩ := puts_ok (toF := toF) puts
    ⟨{ base with dims := base.dims ++ D }, [], [], []⟩ hr hn
  have h3 : ((D.map fun d => Op.dim d.1 d.2) ++ puts).foldlM (step toF m) (⟨base, [], [], []⟩ : Writer F) = .ok w := by
    rw [List.foldlM_append, h1]
    exact h2
  have hdim : ∀ n l, Op.dim n l ∈ (D.map fun d => Op.dim d.1 d.2) ++ puts → (n, l) ∈ D := by
    intro n l hl
    rcases List.mem_append.mp hl with hl | hl
    · obtain ⟨d, hd, e⟩ := List.mem_map.mp hl
      injection e with e1 e2
      rw [← e1, ← e2]; exact hd
    · exact absurd (hr _ hl) (by simp [Ready])
  have i := foldlM_inv _ [] (inv_start toF m base fun n l hl => hc n l (by simp [hl]))
    (fun n l hl => hc n l (List.mem_append_right _ (hdim _ l hl))) h3
  obtain ⟨i1, i2, i3, i4, slots, i5, i6, i7, i8, i9⟩ := i
  have hpre : base.dims ++ D <+: w.file.dims := by
    clear h3 i1 i2 i3 i4 i5 i6 i7 i8 i9
    -- the dimensions only grow while the variables are defined
    suffices h : ∀ (puts : List Op) (w0 w : Writer F), puts.foldlM (step toF m) w0 = .ok w →
        w0.file.dims <+: w.file.dims from h _ _ _ h2
    intro puts
    induction puts with
    | nil =>
      intro w0 w h
      injection h with h
      subst h
      exact List.prefix_refl _
    | cons op puts ih =>
      intro w0 w h
      rw [List.foldlM_cons] at h
      cases hs : step toF m w0 op with
      | error e => rw [hs] at h; cases h
      | ok w1 =>
        rw [hs] at h
        refine List.IsPrefix.trans ?_ (ih w1 w h)
        have pc : ∀ (w0 : Writer F) name ty dims tag p t u w1, putCommon w0 name ty dims tag p t u = .ok w1 →
            w0.file.dims <+: w1.file.dims := by
          intro w0 name ty dims tag p t u w1 h
          obtain ⟨-, -, -, rfl⟩ := (putCommon_iff _ _ _ _ _ _ _ _ _).mp h
          exact List.prefix_refl _
        cases op with
        | dim name len =>
          simp only [step] at hs
          cases hd : defDim w0.file name len with
          | error e => rw [hd] at hs; cases hs
          | ok r =>
            obtain ⟨-, -, rfl⟩ := (defDim_iff _ _ _ _).mp hd
            rw [hd] at hs
            injection hs with hs
            subst hs
            exact List.prefix_append _ _
        | str name a t =>
          simp only [step] at hs
          cases hl : strLen m a with
          | error e => rw [hl] at hs; cases hs
          | ok len =>
            rw [hl] at hs
            simp only [stringDim] at hs
            cases hi : inqDim w0.file (strDim len) with
            | some d =>
              rw [hi] at hs
              exact pc w0 _ _ _ _ _ _ _ _ hs
            | none =>
              rw [hi] at hs
              cases hd : defDim w0.file (strDim len) len with
              | error e => simp only [hd] at hs; cases hs
              | ok r =>
                simp only [hd] at hs
                obtain ⟨-, -, rfl⟩ := (defDim_iff _ _ _ _).mp hd
                exact (List.prefix_append _ _).trans (pc _ _ _ _ _ _ _ _ _ hs)
        | _ => exact pc _ _ _ _ _ _ _ _ _ hs
  have hfilled : ∃ vs, List.Forall₂ (Filled m w.file.dims) slots vs := by
    have hr' : ∀ op ∈ (([] : List Op) ++ ((D.map fun d => Op.dim d.1 d.2) ++ puts)).filter isPut,
        Ready m w.file.dims op := by
      intro op hop
      obtain ⟨hop, hput⟩ := List.mem_filter.mp hop
      rcases List.mem_append.mp (List.nil_append _ ▸ hop) with hop | hop
      · obtain ⟨d, -, rfl⟩ := List.mem_map.mp hop
        simp [isPut, varName] at hput
      · exact ready_mono hpre (hr op hop)
    exact forall₂_fill i9 hr' fun op s ho g => by
      obtain ⟨d, hd⟩ := g.2.2.2.2 ho
      exact ⟨_, d, hd, rfl⟩
  obtain ⟨vs, hv⟩ := hfilled
  have hs : ∀ s ∈ slots, tagTy s.tag = some s.v.ty := by
    intro s hs
    obtain ⟨op, -, g⟩ := forall₂_right i9 s hs
    exact g.2.2.1
  have hw : w.file = ⟨w.file.dims, base.vars ++ slots.map (·.v)⟩ := by rw [← i5]
  refine ⟨⟨w.file.dims, base.vars ++ vs⟩, ?_⟩
  unfold run
  rw [h3]
  simp only [writeAndClose, i6, i7, i8, List.length_range']
  rw [hw]
  exact (close_iff hs slots.length (Nat.le_refl _) _).mpr ⟨vs, by rwa [List.take_length], by simp⟩

/-! ## The dimensions of the file -/

theorem defDim_mem {f f' : File F} {name : String} {len d : Nat} (h : defDim f name len = .ok (f', d)) :
    f'.dims = f.dims ++ [(name, len)] := by
  obtain ⟨-, -, e⟩ := (defDim_iff _ _ _ _).mp h
  injection e with e1 e2
  rw [e1]

/-- Where dimensions come from. -/
def From (m : Mem F) (old : List (String × Nat)) (ops : List Op) (d : String × Nat) : Prop :=
  d ∈ old ∨ d ∈ dimOps ops ∨ ∃ n a t, Op.str n a t ∈ ops ∧ d = (strDim (size (m a)), size (m a))

theorem step_dims {toF : Nat → F} {m : Mem F} {w w' : Writer F} {op : Op} (h : step toF m w op = .ok w') :
    w.file.dims <+: w'.file.dims ∧ ∀ d ∈ w'.file.dims, From m w.file.dims [op] d := by
  have pc : ∀ (w0 : Writer F) name ty dims tag p t u w1, putCommon w0 name ty dims tag p t u = .ok w1 →
      w1.file.dims = w0.file.dims := by
    intro w0 name ty dims tag p t u w1 h
    obtain ⟨-, -, -, rfl⟩ := (putCommon_iff _ _ _ _ _ _ _ _ _).mp h
    rfl
  cases op with
  | dim name len =>
    simp only [step] at h
    cases hd : defDim w.file name len with
    | error e => rw [hd] at h; cases h
    | ok r =>
      rw [hd] at h
      injection h with h
      subst h
      have e := defDim_mem (d := r.2) (f' := r.1) hd
      change _ <+: r.1.dims ∧ ∀ d ∈ r.1.dims, _
      rw [e]
      refine ⟨List.prefix_append _ _, fun d hm => ?_⟩
      rcases List.mem_append.mp hm with hm | hm
      · exact Or.inl hm
      · exact Or.inr (Or.inl (by simpa [dimOps] using hm))
  | str name a t =>
    simp only [step] at h
    cases hl : strLen m a with
    | error e => rw [hl] at h; cases h
    | ok len =>
      have hsize : len = size (m a) := by
        unfold strLen at hl
        cases hm : m a <;> rw [hm] at hl <;> simp_all [size]
      rw [hl] at h
      simp only [stringDim] at h
      cases hi : inqDim w.file (strDim len) with
      | some d =>
        rw [hi] at h
        rw [pc _ _ _ _ _ _ _ _ _ h]
        exact ⟨List.prefix_refl _, fun d hm => Or.inl hm⟩
      | none =>
        rw [hi] at h
        cases hd : defDim w.file (strDim len) len with
        | error e => simp only [hd] at h; cases h
        | ok r =>
          simp only [hd] at h
          have e := defDim_mem (d := r.2) (f' := r.1) hd
          rw [pc _ _ _ _ _ _ _ _ _ h]
          change _ <+: r.1.dims ∧ ∀ d ∈ r.1.dims, _
          rw [e]
          refine ⟨List.prefix_append _ _, fun d hm => ?_⟩
          rcases List.mem_append.mp hm with hm | hm
          · exact Or.inl hm
          · refine Or.inr (Or.inr ⟨name, a, t, by simp, ?_⟩)
            rw [← hsize]
            simpa using hm
  | _ =>
    rw [pc _ _ _ _ _ _ _ _ _ h]
    exact ⟨List.prefix_refl _, fun d hm => Or.inl hm⟩

theorem steps_dims {toF : Nat → F} {m : Mem F} (ops : List Op) {w w' : Writer F}
    (h : ops.foldlM (step toF m) w = .ok w') :
    w.file.dims <+: w'.file.dims ∧ ∀ d ∈ w'.file.dims, From m w.file.dims ops d := by
  induction ops generalizing w with
  | nil =>
    injection h with h
    subst h
    exact ⟨List.prefix_refl _, fun d hm => Or.inl hm⟩
  | cons op ops ih =>
    rw [List.foldlM_cons] at h
    cases hs : step toF m w op with
    | error e => rw [hs] at h; cases h
    | ok w1 =>
      rw [hs] at h
      obtain ⟨p1, d1⟩ := step_dims hs
      obtain ⟨p2, d2⟩ := ih h
      have lift : ∀ l : List Op, (∀ op' ∈ l, op' ∈ op :: ops) → (∀ d ∈ dimOps l, d ∈ dimOps (op :: ops)) := by
        intro l hl d hd
        obtain ⟨n, k⟩ := d
        exact mem_dimOps.mpr (hl _ (mem_dimOps.mp hd))
      refine ⟨p1.trans p2, fun d hm => ?_⟩
      rcases d2 d hm with hd | hd | ⟨n, a, t, hd, e⟩
      · rcases d1 d hd with hd | hd | ⟨n, a, t, hd, e⟩
        · exact Or.inl hd
        · exact Or.inr (Or.inl (lift [op] (by simp) d hd))
        · exact Or.inr (Or.inr ⟨n, a, t, by simp at hd; simp [hd], e⟩)
      · exact Or.inr (Or.inl (lift ops (fun o ho => List.mem_cons_of_mem _ ho) d hd))
      · exact Or.inr (Or.inr ⟨n, a, t, List.mem_cons_of_mem _ hd, e⟩)

/-- The dimensions of a written file: those there before, then those requested at the start, then lengths of
strings. -/
theorem run_dims {toF : Nat → F} {m : Mem F} {base f : File F} {D : List (String × Nat)} {puts : List Op}
    (hp : dimOps puts = []) (hc : Clean (base.dims ++ D))
    (h : run toF m base ((D.map fun d => Op.dim d.1 d.2) ++ puts) = .ok f) :
    base.dims ++ D <+: f.dims ∧
      ∀ d ∈ f.dims, d ∈ base.dims ∨ d ∈ D ∨
        ∃ n a t, Op.str n a t ∈ puts ∧ d = (strDim (size (m a)), size (m a)) := by
  have hD : dimOps ((D.map fun d => Op.dim d.1 d.2) ++ puts) = D := by
    have : dimOps (D.map fun d => Op.dim d.1 d.2) = D := by
      unfold dimOps
      rw [List.filterMap_map]
      exact List.filterMap_some
    unfold dimOps at *
    rw [List.filterMap_append, this, hp, List.append_nil]
  unfold run at h
  cases hf : ((D.map fun d => Op.dim d.1 d.2) ++ puts).foldlM (step toF m) (⟨base, [], [], []⟩ : Writer F) with
  | error e => rw [hf] at h; cases h
  | ok w =>
    rw [hf] at h
    have hdims : f.dims = w.file.dims := by
      have i := foldlM_inv _ [] (inv_start toF m base fun n l hl => hc n l (by simp [hl]))
        (fun n l hl => hc n l (List.mem_append_right _ (by
          have := mem_dimOps.mpr hl
          rwa [hD] at this))) hf
      obtain ⟨i1, i2, i3, i4, slots, i5, i6, i7, i8, i9⟩ := i
      have hs : ∀ s ∈ slots, tagTy s.tag = some s.v.ty := by
        intro s hs
        obtain ⟨op, -, g⟩ := forall₂_right i9 s hs
        exact g.2.2.1
      have hw : w.file = ⟨w.file.dims, base.vars ++ slots.map (·.v)⟩ := by rw [← i5]
      change writeAndClose m w = .ok f at h
      unfold writeAndClose at h
      simp only [i6, i7, i8, List.length_range'] at h
      rw [hw] at h
      obtain ⟨vs, hv, rfl⟩ := (close_iff hs slots.length (Nat.le_refl _) f).mp h
      rfl
    rw [hdims]
    constructor
    · rw [List.foldlM_append] at hf
      cases h1 : (D.map fun d => Op.dim d.1 d.2).foldlM (step toF m) (⟨base, [], [], []⟩ : Writer F) with
      | error e => rw [h1] at hf; cases hf
      | ok w1 =>
        rw [h1] at hf
        have e : w1.file.dims = base.dims ++ D := by
          clear hf hD hp hc h hdims
          suffices key : ∀ (D : List (String × Nat)) (w0 w1 : Writer F),
              (D.map fun d => Op.dim d.1 d.2).foldlM (step toF m) w0 = .ok w1 →
              w1.file.dims = w0.file.dims ++ D from key D _ _ h1
          intro D
          induction D with
          | nil =>
            intro w0 w1 h
            injection h with h
            rw [← h, List.append_nil]
          | cons d D ih =>
            intro w0 w1 h
            rw [List.map_cons, List.foldlM_cons] at h
            cases hs : step toF m w0 (.dim d.1 d.2) with
            | error e => rw [hs] at h; cases h
            | ok w2 =>
              rw [hs] at h
              rw [ih _ _ h]
              simp only [step] at hs
              cases hd : defDim w0.file d.1 d.2 with
              | error e => rw [hd] at hs; cases hs
              | ok r =>
                rw [hd] at hs
                injection hs with hs
                subst hs
                have e := defDim_mem (d := r.2) (f' := r.1) hd
                change r.1.dims ++ D = _
                rw [e]
                simp
        rw [← e]
        exact (steps_dims puts hf).1
    · intro d hm
      rcases (steps_dims _ hf).2 d hm with hd | hd | ⟨n, a, t, hd, e⟩
      · exact Or.inl hd
      · rw [hD] at hd; exact Or.inr (Or.inl hd)
      · refine Or.inr (Or.inr ⟨n, a, t, ?_, e⟩)
        rcases List.mem_append.mp hd with hd | hd
        · obtain ⟨d, -, e⟩ := List.mem_map.mp hd
          cases e
        · exact hd

/-! ## An example

Two dimensions, a scalar of each kind, two strings of the same length, one- and two-dimensional arrays. -/

def sampleMem : Mem Int := fun a =>
  if a = "nphi" then .ints [3]
  else if a = "eta_bar" then .flts [-9]
  else if a = "order" then .chars "r2".toList
  else if a = "mode" then .chars "C+".toList
  else if a = "phi" then .flts [0, 1, 2]
  else if a = "stage" then .ints [7, 8]
  else .flts [10, 11, 12, 13, 14, 15]

def sampleDims : List (String × Nat) := [("nphi", 3), ("axis", 2)]

def samplePuts : List Op :=
  [.int "nphi" "nphi" "points" "", .flt "eta_bar" "eta_bar" "" "1/meter", .big "attempts" 5 "" "",
   .str "order" "order" "order", .str "C_or_F" "mode" "", .fltVec 0 "phi" "phi" "" "",
   .intVec 1 "stage" "stage" "" "", .nd [0, 1] "tensor" "tensor" "" ""]

theorem sample_ready : ∀ op ∈ samplePuts, Ready sampleMem (([] : List (String × Nat)) ++ sampleDims) op := by
  simp [samplePuts, Ready, sampleMem, sampleDims, dimAt]

theorem sampleDims_clean : Clean sampleDims := by
  intro n l h
  have hl : (strDim n).toList.head? = some 'd' := by simp [strDim]
  simp only [sampleDims, List.mem_cons, Prod.mk.injEq, List.not_mem_nil, or_false] at h
  rcases h with ⟨h, -⟩ | ⟨h, -⟩ <;> rw [h] at hl <;> simp at hl

example : ∃ f, run (fun n => (n : Int)) sampleMem ⟨[], []⟩ ((sampleDims.map fun d => Op.dim d.1 d.2) ++ samplePuts) = .ok f ∧
    f.dims = [("nphi", 3), ("axis", 2), ("dim_00002", 2)] ∧ f.vars.length = 8 ∧
    f.vars[7]? = some ⟨"tensor", .flt, [1, 0], [], some (.flts [10, 11, 12, 13, 14, 15])⟩ := by
  refine ⟨_, rfl, ?_, ?_, ?_⟩ <;> decide +kernel

example : ∃ f, run (fun n => (n : Int)) sampleMem ⟨[], []⟩ ((sampleDims.map fun d => Op.dim d.1 d.2) ++ samplePuts) = .ok f :=
  run_ok (by decide +kernel) (by decide +kernel) sampleDims_clean (by decide +kernel) sample_ready

end Qsc.Netcdf
