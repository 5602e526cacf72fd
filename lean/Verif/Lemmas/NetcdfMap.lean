import Verif.Lemmas.NetcdfCongr
import Verif.Spec.ScanReversal

/-!
# A file made from memory in which some objects have the opposite signs
-/

namespace Qsc.Netcdf
open Qsc.Spec.Netcdf Qsc.Spec.ScanReversal

/-- The variable with the opposite signs if it has one of these names. -/
noncomputable def turnVar (T : List String) (v : Var ℝ) : Var ℝ :=
  if v.name ∈ T then { v with data := v.data.map negate } else v

/-- The file with the opposite signs in the variables with these names. -/
noncomputable def turnFile (T : List String) (f : File ℝ) : File ℝ := { f with vars := f.vars.map (turnVar T) }

theorem turnVar_name (T : List String) (v : Var ℝ) : (turnVar T v).name = v.name := by unfold turnVar; split <;> rfl

theorem turnVar_ty (T : List String) (v : Var ℝ) : (turnVar T v).ty = v.ty := by unfold turnVar; split <;> rfl

theorem turnVar_dims (T : List String) (v : Var ℝ) : (turnVar T v).dims = v.dims := by unfold turnVar; split <;> rfl

/-- What the pointer of a variable with the name `a` points at in the two states of memory. -/
def Points (m m' : Mem ℝ) (T : List String) (a : String) : Ptr ℝ → Prop
  | .copy _ => a ∉ T
  | .obj b => m' b = if a ∈ T then negate (m b) else m b

theorem deref_turn {m m' : Mem ℝ} {T : List String} {a : String} {p : Ptr ℝ} (h : Points m m' T a p) (ty : Ty) (n : Nat) :
    deref m' p ty n = (deref m p ty n).map fun d => if a ∈ T then negate d else d := by
  cases p with
  | copy v =>
    have h : a ∉ T := h
    simp only [if_neg h, deref]
    split <;> rfl
  | obj b =>
    have h : m' b = if a ∈ T then negate (m b) else m b := h
    simp only [deref, h]
    by_cases ha : a ∈ T
    · simp only [if_pos ha]
      cases m b <;> cases ty <;> simp only [negate, List.length_map] <;>
        first
        | rfl
        | (split <;> simp [Except.map, negate, List.map_take])
    · simp only [if_neg ha]
      cases deref m (.obj b) ty n <;> cases m b <;> cases ty <;> simp only <;>
        first
        | rfl
        | (split <;> rfl)

theorem writeOne_turn {m m' : Mem ℝ} {T : List String} {ids : List Nat} {types : List Tag} {ptrs : List (Ptr ℝ)}
    {f : File ℝ} {j : Nat}
    (h : ∀ id p v, ids[j]? = some id → ptrs[j]? = some p → f.vars[id]? = some v → Points m m' T v.name p) :
    writeOne m' ids types ptrs (turnFile T f) j = (writeOne m ids types ptrs f j).map (turnFile T) := by
  unfold writeOne
  cases hi : ids[j]? with
  | none => rfl
  | some id =>
    cases types[j]? with
    | none => rfl
    | some tag =>
      cases hp : ptrs[j]? with
      | none => rfl
      | some p =>
        have hv' : (turnFile T f).vars[id]? = f.vars[id]?.map (turnVar T) := by simp [turnFile]
        dsimp only
        rw [hv']
        cases hv : f.vars[id]? with
        | none => cases tagTy tag <;> rfl
        | some v =>
          cases tagTy tag with
          | none => rfl
          | some ty =>
            simp only [Option.map_some, turnVar_dims]
            have hc : count (turnFile T f) v.dims = count f v.dims := rfl
            rw [hc, deref_turn (h id p v hi hp hv)]
            cases deref m p ty (count f v.dims) with
            | error e => rfl
            | ok d =>
              simp only [Except.map, putVar, hv', hv, Option.map_some, turnVar_ty]
              split
              · simp only [Except.ok.injEq, turnFile, File.mk.injEq, true_and]
                apply List.ext_getElem?
                intro k
                simp only [List.getElem?_modify, List.getElem?_map]
                by_cases hk : id = k
                · subst hk
                  simp only [hv, Option.map_eq_map, Option.map_some, if_true, Option.some.injEq, turnVar]
                  split <;> rfl
                · simp only [if_neg hk]
                  cases f.vars[k]? <;> rfl
              · split <;> rfl

theorem writeOne_names {m : Mem ℝ} {ids : List Nat} {types : List Tag} {ptrs : List (Ptr ℝ)} {f f' : File ℝ} {j : Nat}
    (h : writeOne m ids types ptrs f j = .ok f') : f'.vars.map (·.name) = f.vars.map (·.name) := by
  unfold writeOne at h
  split at h
  · split at h
    · cases h
    · cases h
    · split at h
      · cases h
      · unfold putVar at h
        split at h
        · cases h
        · split at h
          · cases h
            apply List.ext_getElem?
            intro k
            simp only [List.getElem?_modify, List.getElem?_map]
            cases f.vars[k]? with
            | none => rfl
            | some v => simp only [Option.map_some]; split <;> rfl
          · split at h <;> cases h
  · cases h

theorem writes_turn {m m' : Mem ℝ} {T : List String} {ids : List Nat} {types : List Tag} {ptrs : List (Ptr ℝ)}
    {names : List String} (h : ∀ (j id : Nat) (p : Ptr ℝ) (a : String), ids[j]? = some id → ptrs[j]? = some p →
      names[id]? = some a → Points m m' T a p) (js : List Nat) (f : File ℝ) (hf : f.vars.map (·.name) = names) :
    js.foldlM (writeOne m' ids types ptrs) (turnFile T f)
      = (js.foldlM (writeOne m ids types ptrs) f).map (turnFile T) := by
  induction js generalizing f with
  | nil => rfl
  | cons j js ih =>
    rw [List.foldlM_cons, List.foldlM_cons, writeOne_turn (fun id p v hi hp hv => h j id p v.name hi hp (by
      rw [← hf, List.getElem?_map, hv]; rfl))]
    cases hw : writeOne m ids types ptrs f j with
    | error e => rfl
    | ok g => exact ih g (by rw [writeOne_names hw, hf])

/-- The calls that make variables with one of these names give the address of an object with the opposite signs. -/
def Turns (m m' : Mem ℝ) (T : List String) : Op → Prop
  | .dim .. => True
  | .big a .. => a ∉ T
  | .int a b _ _ | .flt a b _ _ | .str a b _ | .intVec _ a b _ _ | .fltVec _ a b _ _ | .nd _ a b _ _ =>
    m' b = if a ∈ T then negate (m b) else m b

theorem step_turn {toF : Nat → ℝ} {m m' : Mem ℝ} {T : List String} {op : Op} (h : Turns m m' T op) (w : Writer ℝ) :
    step toF m' w op = step toF m w op := by
  cases op <;> try rfl
  case str a b att =>
    have h : m' b = if a ∈ T then negate (m b) else m b := h
    have e : strLen m' b = strLen m b := by
      simp only [strLen, h]
      by_cases ha : a ∈ T
      · simp only [if_pos ha]
        cases m b <;> rfl
      · simp only [if_neg ha]
    unfold step
    simp only [e]

/-- What is known of a writer before it writes. -/
structure Ready (m m' : Mem ℝ) (T : List String) (w : Writer ℝ) : Prop where
  empty : ∀ v ∈ w.file.vars, v.data = none
  length : w.ids.length = w.ptrs.length
  points : ∀ x ∈ w.ids.zip w.ptrs, ∃ a, (w.file.vars.map (·.name))[x.1]? = some a ∧ Points m m' T a x.2

theorem putAtt_names (f : File ℝ) (id : Nat) (key text : String) :
    (putAtt f id key text).vars.map (·.name) = f.vars.map (·.name) := by
  apply List.ext_getElem?
  intro k
  simp only [putAtt, List.getElem?_modify, List.getElem?_map]
  cases f.vars[k]? with
  | none => rfl
  | some v => simp only [Option.map_some]; split <;> rfl

theorem putAtt_empty {f : File ℝ} (id : Nat) (key text : String) (h : ∀ v ∈ f.vars, v.data = none) :
    ∀ v ∈ (putAtt f id key text).vars, v.data = none := by
  intro v hv
  obtain ⟨k, hk⟩ := List.getElem?_of_mem hv
  simp only [putAtt, List.getElem?_modify] at hk
  cases hx : f.vars[k]? with
  | none => rw [hx] at hk; cases hk
  | some u =>
    rw [hx] at hk
    have hu := h u (List.mem_of_getElem? hx)
    simp only [Option.map_eq_map, Option.map_some, Option.some.injEq] at hk
    split at hk <;> subst hk <;> exact hu

theorem putCommon_ready {m m' : Mem ℝ} {T : List String} {w w' : Writer ℝ} {name : String} {ty : Ty} {dims : List Nat}
    {tag : Tag} {p : Ptr ℝ} {att units : String} (hw : Ready m m' T w) (hp : Points m m' T name p)
    (h : putCommon w name ty dims tag p att units = .ok w') : Ready m m' T w' := by
  unfold putCommon at h
  split at h
  · cases h
  · rename_i f id hd
    cases h
    unfold defVar at hd
    split at hd
    · cases hd
    · split at hd
      · cases hd
      · split at hd
        · cases hd
        · cases hd
          have hn : ∀ (f : File ℝ) (id : Nat) (a b : String),
              (addAttribute f id a b).vars.map (·.name) = f.vars.map (·.name) := by
            intro f id a b
            unfold addAttribute
            dsimp only
            split <;> split <;> simp only [putAtt_names]
          have he : ∀ (f : File ℝ) (id : Nat) (a b : String), (∀ v ∈ f.vars, v.data = none) →
              ∀ v ∈ (addAttribute f id a b).vars, v.data = none := by
            intro f id a b h
            unfold addAttribute
            dsimp only
            split <;> split <;> first
              | exact putAtt_empty _ _ _ (putAtt_empty _ _ _ h)
              | exact putAtt_empty _ _ _ h
              | exact h
          refine ⟨he _ _ _ _ ?_, by simp [hw.length], ?_⟩
          · intro v hv
            rcases List.mem_append.1 hv with hv | hv
            · exact hw.empty v hv
            · rw [List.mem_singleton.1 hv]
          · intro x hx
            dsimp only at hx ⊢
            rw [hn]
            rw [List.zip_append hw.length] at hx
            rcases List.mem_append.1 hx with hx | hx
            · obtain ⟨a, h1, h2⟩ := hw.points x hx
              refine ⟨a, ?_, h2⟩
              rw [List.map_append, List.getElem?_append_left (List.getElem?_eq_some_iff.1 h1).1, h1]
            · simp only [List.zip_cons_cons, List.zip_nil_right, List.mem_singleton] at hx
              subst hx
              exact ⟨name, by simp, hp⟩

theorem step_ready {toF : Nat → ℝ} {m m' : Mem ℝ} {T : List String} {w w' : Writer ℝ} {op : Op} (hw : Ready m m' T w)
    (hs : Turns m m' T op) (h : step toF m w op = .ok w') : Ready m m' T w' := by
  have dim : ∀ {f : File ℝ} {a : String} {k i : Nat}, defDim w.file a k = .ok (f, i) → f.vars = w.file.vars := by
    intro f a k i h
    unfold defDim at h
    split at h
    · cases h
    · split at h
      · cases h
      · cases h; rfl
  cases op <;> simp only [step] at h
  · split at h
    · cases h
    · rename_i hd
      cases h
      exact ⟨by rw [dim hd]; exact hw.empty, hw.length, by dsimp only; rw [dim hd]; exact hw.points⟩
  · exact putCommon_ready hw (by exact hs) h
  · exact putCommon_ready hw (by exact hs) h
  · exact putCommon_ready hw (by exact hs) h
  · split at h
    · cases h
    · split at h
      · cases h
      · rename_i f d hd
        have hv : f.vars = w.file.vars := by
          unfold stringDim at hd
          split at hd
          · cases hd; rfl
          · exact dim hd
        refine putCommon_ready (w := { w with file := f }) ?_ (by exact hs) h
        exact ⟨by dsimp only; rw [hv]; exact hw.empty, hw.length, by dsimp only; rw [hv]; exact hw.points⟩
  · exact putCommon_ready hw (by exact hs) h
  · exact putCommon_ready hw (by exact hs) h
  · exact putCommon_ready hw (by exact hs) h

/-- A new file is the same up to the signs of the variables whose objects have the opposite signs in memory. -/
theorem run_turn (toF : Nat → ℝ) {m m' : Mem ℝ} {T : List String} (ops : List Op) (hs : ∀ op ∈ ops, Turns m m' T op) :
    run toF m' ⟨[], []⟩ ops = (run toF m ⟨[], []⟩ ops).map (turnFile T) := by
  have key : ∀ (ops : List Op) (w : Writer ℝ), (∀ op ∈ ops, Turns m m' T op) → Ready m m' T w →
      ops.foldlM (step toF m') w = ops.foldlM (step toF m) w ∧
      ∀ w', ops.foldlM (step toF m) w = .ok w' → Ready m m' T w' := by
    intro ops
    induction ops with
    | nil => intro w _ hw; exact ⟨rfl, fun w' h => by cases h; exact hw⟩
    | cons op ops ih =>
      intro w hs hw
      rw [List.foldlM_cons, List.foldlM_cons, step_turn (hs op List.mem_cons_self)]
      cases ho : step toF m w op with
      | error e => exact ⟨rfl, fun w' h => by cases h⟩
      | ok v => exact ih v (fun o h => hs o (List.mem_cons_of_mem _ h)) (step_ready hw (hs op List.mem_cons_self) ho)
  obtain ⟨h1, h2⟩ := key ops ⟨⟨[], []⟩, [], [], []⟩ hs ⟨by simp, rfl, by simp⟩
  unfold run
  rw [h1]
  cases hw : ops.foldlM (step toF m) ⟨⟨[], []⟩, [], [], []⟩ with
  | error e => rfl
  | ok w =>
    have R := h2 w hw
    change writeAndClose m' w = (writeAndClose m w).map _
    have hf : turnFile T w.file = w.file := by
      unfold turnFile
      rw [List.map_congr_left (g := id), List.map_id]
      intro v hv
      unfold turnVar
      rw [R.empty v hv]
      split
      · cases v
        have := R.empty _ hv
        dsimp only at this
        subst this
        rfl
      · rfl
    unfold writeAndClose
    conv_lhs => rw [← hf]
    refine writes_turn (names := w.file.vars.map (·.name)) ?_ _ _ rfl
    intro j id p a hi hp ha
    have hx : (id, p) ∈ w.ids.zip w.ptrs := List.mem_of_getElem? (i := j) (List.getElem?_zip_eq_some.2 ⟨hi, hp⟩)
    obtain ⟨b, h1, h2⟩ := R.points _ hx
    rw [ha] at h1
    cases h1
    exact h2

/-- The table of contents of the file with opposite signs. -/
theorem contents_turn (T : List String) (f : File ℝ) :
    contents (turnFile T f) = (contents f).map fun e => if e.name ∈ T then { e with data := e.data.map negate } else e := by
  unfold contents turnFile
  simp only [List.map_map]
  apply List.map_congr_left
  intro v _
  simp only [Function.comp_apply, view, turnVar]
  by_cases h : v.name ∈ T <;> simp only [h, if_true, if_false]

end Qsc.Netcdf
