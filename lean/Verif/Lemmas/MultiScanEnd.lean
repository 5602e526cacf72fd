import Verif.Lemmas.MultiScan
import Verif.Lemmas.MultiScanPack

/-!
Consequences of the invariant of the master/worker system.
-/

namespace Qsc.MultiScan
open Qsc.Mpi Qsc.Spec.MultiScan Function

variable {F : Type} {W : Nat}

theorem Waits.not_done {rep : Nat → Report F} {N : Nat} {ev : List Nat} {st : Bool} {p : P W F}
    {c : List (Msg F)} {r : Nat} (h : Waits rep N ev st p c r) (hN : ev.length < N) {x}
    (e : p = .done x) : False := by
  cases h with
  | wait =>
    obtain ⟨f, hf⟩ : ∃ f, N - ev.length = f + 1 := ⟨N - ev.length - 1, by omega⟩
    rw [hf, worker_succ] at e
    cases e
  | stopped => cases e

theorem Loc.not_done {rep : Nat → Report F} {N : Nat} {ev : List Nat} {o : Option Nat} {st md : Bool}
    {p : P W F} {c0 cw : List (Msg F)} {r : Nat} (h : Loc rep N ev o st md p c0 cw r)
    (hN : ev.length + busy o < N) {x} (e : p = .done x) : False := by
  cases h with
  | idle hw => exact hw.not_done (by omega) e
  | assigned =>
    obtain ⟨f, hf⟩ : ∃ f, N - ev.length = f + 1 := ⟨N - ev.length - 1, by omega⟩
    rw [hf, worker_succ] at e
    cases e
  | sendI => cases e
  | sendF => cases e
  | @sent i _ _ _ _ _ hw =>
    have hb : busy (some i) = 1 := rfl
    exact hw.not_done (by simp; omega) e

section
variable {zero : F} {nPar n N : Nat} {save : Nat → Bool} {rep : Nat → Report F}

theorem Run.not_done {r : Nat} {s : St (Fin (W + 1)) (Msg F) (Res F)} {out : Fin W → Option Nat}
    {stop : Fin W → Bool} {rem : Fin W → Nat} {log : List (Fin W × Nat)} {md : Option (Fin W)}
    {a r0 : Nat} (h : Run zero nPar n N save rep r s out stop rem log md a r0)
    (hN : n < N) (i : Fin (W + 1)) {x} (e : s.procs i = .done x) : False := by
  revert e
  refine Fin.cases ?_ (fun w => ?_) i
  · intro e
    have ph := h.phase
    rw [e] at ph
    generalize hp : (Proc.done x : P W F) = p at ph
    cases ph with
    | @init _ _ hd => rw [ranks_drop a hd] at hp; cases hp
    | recv => cases hp
    | mid => cases hp
    | @send c => cases c <;> cases hp
    | bar => cases hp
  · intro e
    exact (h.loc w).not_done (h.fuel hN w) e

/-- Every reachable state. -/
theorem reach (hW : 0 < W) (hWn : W ≤ n) (hN : n < N) (passed : Nat → Bool)
    (hok : ∀ i, i < n → RepOk nPar i (rep i) (passed i))
    {cb : Fin (W + 1) → Fin (W + 1) → Msg F → Prop} {w : Nat}
    {t : St (Fin (W + 1)) (Msg F) (Res F)}
    (h : Steps cb w (St.start (system (W := W) zero nPar n N save rep)) t) :
    ∃ r, 6 * n + 2 * W + 1 = w + r ∧ Inv zero nPar n N save rep r t :=
  Steps.invariant (fun hb hi => inv_step hW hWn hN passed hok hb hi) h (inv_start hW hWn)

/-- Every finished state. -/
theorem reach_finished (hW : 0 < W) (hWn : W ≤ n) (hN : n < N) (passed : Nat → Bool)
    (hok : ∀ i, i < n → RepOk nPar i (rep i) (passed i))
    {cb : Fin (W + 1) → Fin (W + 1) → Msg F → Prop} {w : Nat}
    {t : St (Fin (W + 1)) (Msg F) (Res F)}
    (h : Steps cb w (St.start (system (W := W) zero nPar n N save rep)) t) (hf : t.Finished) :
    ∃ log sv, Final' zero nPar n rep t log sv := by
  obtain ⟨r, _, hi⟩ := reach hW hWn hN passed hok h
  rcases hi with ⟨out, stop, rem, log, md, a, r0, hr⟩ | ⟨_, log, sv, hr⟩
  · obtain ⟨x, hx⟩ := hf 0
    exact (hr.not_done hN 0 hx).elim
  · exact ⟨log, sv, hr⟩

end

/-- All columns arrived. -/
theorem keptColumns_all (n : Nat) (rep : Nat → Report F) (passed : Nat → Bool) (l : List Nat)
    (h : l.Perm (List.range n)) :
    keptColumns n rep passed l =
      ((List.range n).filter passed).map fun i => ((rep i).ints.take 4, (rep i).flts) := by
  unfold keptColumns
  congr 1
  apply List.filter_congr
  intro i hi
  rw [decide_eq_true (h.mem_iff.mpr hi), Bool.true_and]

theorem sum_perm {l l' : List Nat} (h : l.Perm l') (f : Nat → Int) : (l.map f).sum = (l'.map f).sum :=
  (h.map f).sum_eq

theorem sum_ite (l : List Nat) (p : Nat → Bool) :
    (l.map fun i => if p i then (1 : Int) else 0).sum = (l.countP p : Nat) := by
  induction l with
  | nil => rfl
  | cons a l ih =>
    rw [List.map_cons, List.sum_cons, ih, List.countP_cons]
    cases p a <;> simp
    omega

end Qsc.MultiScan
