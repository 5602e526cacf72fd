import Verif.Model.Pipeline

/-!
# Lemmas: the optimization loop does not look at the results of the physics

If the physics of one environment gives the images under `g` of what it gives in another one, the loop takes the same
steps in both, and the records hold the images.
-/

namespace Qsc.OptLoop
open Qsc.OptState

variable {K P Q : Type}

/-- A record with the image of the results. -/
def mapRec (g : P → Q) (c : Rec K P) : Rec K Q := ⟨c.step, c.x, c.q, g c.phys⟩

/-- A state with the images of the results. -/
def mapSt (g : P → Q) (st : St K P) : St K Q :=
  ⟨st.q, st.nphi, st.fl, st.nParams, st.nTerms, st.nIter, st.nEvals, st.hist.map (Option.map (mapRec g)),
    st.log.map (mapRec g)⟩

/-- The second environment gives the images of the results of the first one. -/
structure EnvMap (g : P → Q) (e : Env K P) (e' : Env K Q) : Prop where
  gsl : e'.gsl = e.gsl
  terms : e'.terms = e.terms
  phys : ∀ c n, e'.calculate c n = (e.calculate c n).map g

theorem bind_map {ε α β γ : Type} (x : Except ε α) (f : α → Except ε β) (h : β → γ) :
    (x.bind f).map h = x.bind fun a => (f a).map h := by
  cases x <;> rfl

theorem bind_congr' {ε α β : Type} (x : Except ε α) {f f' : α → Except ε β} (h : ∀ a, f a = f' a) :
    x.bind f = x.bind f' := by
  cases x with
  | error m => rfl
  | ok a => exact h a

theorem bind_rel {ε α α' β β' : Type} {x : Except ε α} {x' : Except ε α'} {h : α → α'} {k : β → β'}
    {f : α → Except ε β} {f' : α' → Except ε β'} (hx : x' = x.map h) (hf : ∀ a, f' (h a) = (f a).map k) :
    x'.bind f' = (x.bind f).map k := by
  subst hx
  cases x with
  | error m => rfl
  | ok a => exact hf a

section
variable {g : P → Q} {e : Env K P} {e' : Env K Q} (E : EnvMap g e e')
include E

theorem evalAt_map (x : List K) (st : St K P) :
    evalAt e' x (mapSt g st) = (evalAt e x st).map fun r => (mapSt g r.1, g r.2) := by
  unfold evalAt
  simp only [mapSt]
  cases unpackStateVector st.nParams st.fl st.q x with
  | error m => rfl
  | ok q =>
    simp only [Except.bind, E.phys, E.terms]
    cases e.calculate q st.nphi with
    | error m => rfl
    | ok ph =>
      simp only [Except.map, liftThrow]
      split <;> rfl

theorem residualFn_map (x : List K) (st : St K P) :
    residualFn e' x (mapSt g st) = (residualFn e x st).map (mapSt g) := by
  unfold residualFn
  rw [evalAt_map E]
  cases evalAt e x st <;> rfl

theorem evalAll_map (xs : List (List K)) (st : St K P) :
    evalAll e' xs (mapSt g st) = (evalAll e xs st).map (mapSt g) := by
  induction xs generalizing st with
  | nil => rfl
  | cons x xs ih =>
    simp only [evalAll]
    rw [residualFn_map E]
    cases residualFn e x st with
    | error m => rfl
    | ok a => exact ih a

theorem callback_map (rows j : Nat) (x : List K) (st : St K P) :
    callback e' rows j x (mapSt g st) = (callback e rows j x st).map (mapSt g) := by
  unfold callback
  rw [evalAt_map E]
  cases evalAt e x st with
  | error m => rfl
  | ok a =>
    simp only [Except.map, Except.bind, mapSt, List.length_map]
    split
    · simp [List.map_set, mapRec]
    · rfl

theorem iterate_map (rows j : Nat) {p : Nat} (s : Gsl K p) (left i : Nat) (st : St K P) :
    iterate e' rows j s left i (mapSt g st) = (iterate e rows j s left i st).map (mapSt g) := by
  induction left generalizing i st with
  | zero =>
    unfold iterate
    rw [evalAll_map E]
    cases evalAll e ((s.iters i).evals.map Vector.toList) st with
    | error m => rfl
    | ok a =>
      simp only [Except.map, Except.bind]
      split
      · rfl
      · rw [callback_map E]
        cases callback e rows j (s.iters i).pos.toList a <;> rfl
  | succ left ih =>
    unfold iterate
    rw [evalAll_map E]
    cases evalAll e ((s.iters i).evals.map Vector.toList) st with
    | error m => rfl
    | ok a =>
      simp only [Except.map, Except.bind]
      split
      · rfl
      · rw [callback_map E]
        cases callback e rows j (s.iters i).pos.toList a with
        | error m => rfl
        | ok b =>
          simp only [Except.map]
          split
          · exact ih (i + 1) b
          · rfl

theorem drive_map (rows j : Nat) {p : Nat} (s : Gsl K p) (maxiter : Nat) (x0 : List K) (st : St K P) :
    drive e' rows j s maxiter x0 (mapSt g st) = (drive e rows j s maxiter x0 st).map (mapSt g) := by
  unfold drive
  rw [evalAll_map E]
  cases evalAll e (s.initEvals.map Vector.toList) st with
  | error m => rfl
  | ok a =>
    simp only [Except.map, Except.bind]
    rw [callback_map E]
    cases callback e rows j x0 a with
    | error m => rfl
    | ok b => exact iterate_map E rows j s _ 0 b

omit E in
theorem enable_map (oldsize j : Nat) (st : St K P) :
    enable oldsize j (mapSt g st) = (enable oldsize j st).map (mapSt g) := by
  unfold enable
  split
  · simp only [mapSt]
    cases setTrue st.fl.R0c (oldsize + j - 1) with
    | error m => rfl
    | ok r =>
      simp only [Except.bind]
      cases setTrue st.fl.Z0s (oldsize + j - 1) <;> rfl
  · rfl

theorem countTerms_map (st : St K P) : countTerms e' (mapSt g st) = (countTerms e st).map (mapSt g) := by
  unfold countTerms
  rw [E.terms, show (mapSt g st).nphi = st.nphi from rfl]
  by_cases h : e.terms st.nphi < 1
  · rw [if_pos h, if_pos h]
    rfl
  · rw [if_neg h, if_neg h]
    rfl

theorem chooseNphi_map (nphis : List Nat) (j : Nat) (st : St K P) :
    chooseNphi e' nphis j (mapSt g st) = (chooseNphi e nphis j st).map (mapSt g) := by
  unfold chooseNphi
  split
  · cases nphis[j]? with
    | none => rfl
    | some n => exact countTerms_map E { st with nphi := Setup.oddNphi n }
  · split
    · exact countTerms_map E st
    · rfl

omit E in
theorem initQ_map (order : String) (st : St K P) :
    initQ order (mapSt g st) = (initQ order st).map fun r => (r.1, mapSt g r.2) := by
  unfold initQ
  cases Setup.validate order <;> rfl

theorem refineLoop_map [Zero K] (order : String) (rows oldsize maxIter : Nat) (nphis : List Nat) (left j : Nat)
    (st : St K P) : refineLoop e' order rows oldsize maxIter nphis left j (mapSt g st)
      = (refineLoop e order rows oldsize maxIter nphis left j st).map (mapSt g) := by
  induction left generalizing j st with
  | zero =>
    unfold refineLoop
    rw [show (mapSt g st).nIter = st.nIter from rfl]
    split
    · rfl
    · refine bind_rel (enable_map oldsize j st) fun a => ?_
      refine bind_rel (chooseNphi_map E nphis j a) fun b => ?_
      rw [show (mapSt g b).fl = b.fl from rfl]
      refine bind_rel (h := id) (by cases initParameters b.fl <;> rfl) fun np => ?_
      refine bind_rel (initQ_map (g := g) order { b with nParams := np.1 }) fun r => ?_
      dsimp only
      split
      · rfl
      · rw [show (mapSt g r.2).nTerms = r.2.nTerms from rfl, show (mapSt g r.2).nParams = r.2.nParams from rfl,
          show (mapSt g r.2).fl = r.2.fl from rfl, show (mapSt g r.2).q = r.2.q from rfl,
          show (mapSt g r.2).nIter = r.2.nIter from rfl, E.gsl]
        split
        · rfl
        · refine bind_rel (h := id) (by cases setStateVector r.2.nParams r.2.fl r.2.q (List.replicate r.2.nParams 0) <;> rfl)
            fun x0 => ?_
          refine bind_rel (drive_map E rows j (e.gsl j r.2.nParams) (maxIter - 1 - r.2.nIter) x0 r.2) fun d => ?_
          rfl
  | succ left ih =>
    unfold refineLoop
    rw [show (mapSt g st).nIter = st.nIter from rfl]
    split
    · rfl
    · refine bind_rel (enable_map oldsize j st) fun a => ?_
      refine bind_rel (chooseNphi_map E nphis j a) fun b => ?_
      rw [show (mapSt g b).fl = b.fl from rfl]
      refine bind_rel (h := id) (by cases initParameters b.fl <;> rfl) fun np => ?_
      refine bind_rel (initQ_map (g := g) order { b with nParams := np.1 }) fun r => ?_
      dsimp only
      split
      · rfl
      · rw [show (mapSt g r.2).nTerms = r.2.nTerms from rfl, show (mapSt g r.2).nParams = r.2.nParams from rfl,
          show (mapSt g r.2).fl = r.2.fl from rfl, show (mapSt g r.2).q = r.2.q from rfl,
          show (mapSt g r.2).nIter = r.2.nIter from rfl, E.gsl]
        split
        · rfl
        · refine bind_rel (h := id) (by cases setStateVector r.2.nParams r.2.fl r.2.q (List.replicate r.2.nParams 0) <;> rfl)
            fun x0 => ?_
          refine bind_rel (drive_map E rows j (e.gsl j r.2.nParams) (maxIter - 1 - r.2.nIter) x0 r.2) fun d => ?_
          exact ih (j + 1) d

theorem optimize_map [Zero K] (s : Settings) (order : String) (q : Config K) (nphi : Nat) :
    optimize e' s order q nphi = (optimize e s order q nphi).map (mapSt g) := by
  unfold optimize
  dsimp only
  split
  · rfl
  split
  · rfl
  split
  · rfl
  split
  · rfl
  iterate 8
    refine Eq.trans ?_ (bind_map _ _ (mapSt g)).symm
    refine bind_congr' _ fun _ => ?_
  rw [← refineLoop_map E]
  simp [mapSt]

end

end Qsc.OptLoop

namespace Qsc.Pipeline
open Qsc.OptLoop Qsc.OptState

theorem runOpt_map {F P Q : Type} [Zero F] {g : P → Q} {e : Env F P} {e' : Env F Q} (E : EnvMap g e e') (s : Raw)
    (order : String) (q : Config F) (nphi : Int) :
    runOpt e' s order q nphi = (runOpt e s order q nphi).map (mapSt g) := by
  unfold runOpt
  iterate 3
    refine Eq.trans ?_ (OptLoop.bind_map _ _ (mapSt g)).symm
    refine OptLoop.bind_congr' _ fun _ => ?_
  split
  · rw [optimize_map E]
    cases optimize e _ order q _ <;> rfl
  · refine Eq.trans ?_ (OptLoop.bind_map _ _ (mapSt g)).symm
    refine OptLoop.bind_congr' _ fun _ => ?_
    split
    · rfl
    split
    · rfl
    split
    · rfl
    split <;> rfl

end Qsc.Pipeline
