import Verif.Model.Netcdf

/-!
# A file depends only on the objects whose addresses were given
-/

namespace Qsc.Netcdf

variable {F : Type}

/-- The address given in a call. -/
def Op.addr? : Op → Option String
  | .dim .. | .big .. => none
  | .int _ a _ _ | .flt _ a _ _ | .str _ a _ | .intVec _ _ a _ _ | .fltVec _ _ a _ _ | .nd _ _ a _ _ => some a

/-- The pointers of a writer point at objects with these addresses. -/
def Inside (S : String → Prop) (w : Writer F) : Prop := ∀ a, Ptr.obj a ∈ w.ptrs → S a

theorem putCommon_inside {S : String → Prop} {w w' : Writer F} {name : String} {ty : Ty} {dims : List Nat} {tag : Tag}
    {p : Ptr F} {att units : String} (hw : Inside S w) (hp : ∀ a, p = .obj a → S a)
    (h : putCommon w name ty dims tag p att units = .ok w') : Inside S w' := by
  unfold putCommon at h
  split at h
  · cases h
  · cases h
    intro a ha
    rcases List.mem_append.mp ha with ha | ha
    · exact hw a ha
    · exact hp a (List.mem_singleton.mp ha).symm

theorem step_inside {toF : Nat → F} {m : Mem F} {S : String → Prop} {w w' : Writer F} {op : Op} (hw : Inside S w)
    (hs : ∀ a, op.addr? = some a → S a) (h : step toF m w op = .ok w') : Inside S w' := by
  have hobj : ∀ {b : String}, op.addr? = some b → ∀ a, (Ptr.obj b : Ptr F) = .obj a → S a := by
    intro b hb a e
    cases e
    exact hs _ hb
  cases op <;> simp only [step] at h
  · split at h
    · cases h
    · cases h; exact hw
  · exact putCommon_inside hw (hobj rfl) h
  · exact putCommon_inside hw (hobj rfl) h
  · exact putCommon_inside hw (by intro a e; cases e) h
  · split at h
    · cases h
    · split at h
      · cases h
      · refine putCommon_inside ?_ (hobj rfl) h
        exact hw
  · exact putCommon_inside hw (hobj rfl) h
  · exact putCommon_inside hw (hobj rfl) h
  · exact putCommon_inside hw (hobj rfl) h

theorem step_congr {toF : Nat → F} {m m' : Mem F} {w : Writer F} {op : Op}
    (hs : ∀ a, op.addr? = some a → m a = m' a) : step toF m w op = step toF m' w op := by
  cases op <;> try rfl
  case str name a att =>
    unfold step
    simp only [strLen, hs a rfl]

theorem steps_congr {toF : Nat → F} {m m' : Mem F} (ops : List Op)
    (hs : ∀ op ∈ ops, ∀ a, op.addr? = some a → m a = m' a) (w : Writer F) :
    ops.foldlM (step toF m) w = ops.foldlM (step toF m') w := by
  induction ops generalizing w with
  | nil => rfl
  | cons op ops ih =>
    rw [List.foldlM_cons, List.foldlM_cons, step_congr (hs op List.mem_cons_self)]
    congr 1
    funext w'
    exact ih (fun o ho => hs o (List.mem_cons_of_mem _ ho)) w'

theorem steps_inside {toF : Nat → F} {m : Mem F} {S : String → Prop} (ops : List Op)
    (hs : ∀ op ∈ ops, ∀ a, op.addr? = some a → S a) (w w' : Writer F) (hw : Inside S w)
    (h : ops.foldlM (step toF m) w = .ok w') : Inside S w' := by
  induction ops generalizing w with
  | nil => cases h; exact hw
  | cons op ops ih =>
    rw [List.foldlM_cons] at h
    cases hop : step toF m w op with
    | error e => rw [hop] at h; cases h
    | ok v =>
      rw [hop] at h
      exact ih (fun o ho => hs o (List.mem_cons_of_mem _ ho)) v (step_inside hw (hs op List.mem_cons_self) hop) h

theorem writeOne_congr {m m' : Mem F} {ids : List Nat} {types : List Tag} {ptrs : List (Ptr F)}
    (hp : ∀ a, Ptr.obj a ∈ ptrs → m a = m' a) (f : File F) (j : Nat) :
    writeOne m ids types ptrs f j = writeOne m' ids types ptrs f j := by
  unfold writeOne
  cases hq : ptrs[j]? with
  | none => simp
  | some p =>
    have : ∀ ty n, deref m p ty n = deref m' p ty n := by
      intro ty n
      cases p with
      | copy v => rfl
      | obj a => simp only [deref, hp a (List.mem_of_getElem? hq)]
    rcases ids[j]? with _ | id <;> rcases types[j]? with _ | tag <;> try rfl
    dsimp only
    simp only [this]

/-- A file is the same for two states of memory that agree at the addresses given in the calls. -/
theorem run_congr (toF : Nat → F) {m m' : Mem F} (base : File F) (ops : List Op)
    (hs : ∀ op ∈ ops, ∀ a, op.addr? = some a → m a = m' a) : run toF m base ops = run toF m' base ops := by
  unfold run
  rw [← steps_congr ops hs]
  cases h : ops.foldlM (step toF m) ⟨base, [], [], []⟩ with
  | error e => rfl
  | ok w =>
    have hw := steps_inside (S := fun a => m a = m' a) ops hs _ w (by intro a ha; cases ha) h
    change writeAndClose m w = writeAndClose m' w
    unfold writeAndClose
    congr 1
    funext f j
    exact writeOne_congr hw f j

end Qsc.Netcdf
