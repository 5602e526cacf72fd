import Verif.Lemmas.Mpi
import Verif.Lemmas.MultiScanData
import Mathlib.Algebra.BigOperators.Fin
import Mathlib.Algebra.BigOperators.Group.Finset.Piecewise
import Mathlib.Algebra.Order.BigOperators.Group.Finset

/-!
The invariant of the master/worker system.
-/

namespace Qsc.MultiScan
open Qsc.Mpi Function

variable {F : Type} {W : Nat}

/-! ## Sums over workers -/

theorem sum_update {α : Type} (g : α → Nat) (f : Fin W → α) (w : Fin W) (x : α) :
    ∑ v, g (update f w x v) + g (f w) = ∑ v, g (f v) + g x := by
  rw [← Finset.add_sum_erase Finset.univ (fun v => g (f v)) (Finset.mem_univ w),
    ← Finset.add_sum_erase Finset.univ (fun v => g (update f w x v)) (Finset.mem_univ w)]
  have : ∑ v ∈ Finset.univ.erase w, g (update f w x v) = ∑ v ∈ Finset.univ.erase w, g (f v) := by
    apply Finset.sum_congr rfl
    intro v hv
    rw [update_of_ne (Finset.ne_of_mem_erase hv)]
  rw [this, update_self]
  omega

/-- 1 for an outstanding index. -/
def busy (o : Option Nat) : Nat := if o.isSome then 1 else 0

/-- 1 if the outstanding index is `i`. -/
def isIdx (i : Nat) (o : Option Nat) : Nat := if o = some i then 1 else 0

/-! ## The part of the state that belongs to one worker -/

/-- Indices of the results received from worker `w`, in order. -/
def mine (log : List (Fin W × Nat)) (w : Fin W) : List Nat :=
  (log.filter fun x => decide (x.1 = w)).map Prod.snd

theorem mine_append_self (log : List (Fin W × Nat)) (w : Fin W) (i : Nat) :
    mine (log ++ [(w, i)]) w = mine log w ++ [i] := by
  simp [mine]

theorem mine_append_ne (log : List (Fin W × Nat)) (w v : Fin W) (i : Nat) (h : v ≠ w) :
    mine (log ++ [(w, i)]) v = mine log v := by
  simp [mine, Ne.symm h]

theorem mine_length (log : List (Fin W × Nat)) (w : Fin W) : (mine log w).length ≤ log.length := by
  rw [mine, List.length_map]; exact List.length_filter_le _ _

/-- The stop message, if it was sent. -/
def stopMsgs (stop : Bool) : List (Msg F) := if stop then [.idx (-1)] else []

/-- A worker with nothing to do: waiting, perhaps with a stop message underway, or stopped. -/
inductive Waits (rep : Nat → Report F) (N : Nat) (ev : List Nat) :
    Bool → P W F → List (Msg F) → Nat → Prop
  | wait {stop} : Waits rep N ev stop (worker rep (N - ev.length) ev) (stopMsgs stop) stop.toNat
  | stopped : Waits rep N ev true (.barrier (.done (.worker ev))) [] 0

/-- The state of one worker: outstanding index, stop sent, process 0 between the two receives from
this worker, process, messages to it, messages from it, steps left. -/
inductive Loc (rep : Nat → Report F) (N : Nat) (ev : List Nat) :
    Option Nat → Bool → Bool → P W F → List (Msg F) → List (Msg F) → Nat → Prop
  | idle {stop p c r} : Waits rep N ev stop p c r → Loc rep N ev none stop false p c [] r
  | assigned {i stop} : Loc rep N ev (some i) stop false (worker rep (N - ev.length) ev)
      (.idx (i : Int) :: stopMsgs stop) [] (5 + stop.toNat)
  | sendI {i stop} : Loc rep N ev (some i) stop false
      (.send 0 0 (.ints (rep i).ints) (.send 0 0 (.flts (rep i).flts)
        (worker rep (N - (ev ++ [i]).length) (ev ++ [i]))))
      (stopMsgs stop) [] (4 + stop.toNat)
  | sendF {i stop mid} : Loc rep N ev (some i) stop mid
      (.send 0 0 (.flts (rep i).flts) (worker rep (N - (ev ++ [i]).length) (ev ++ [i])))
      (stopMsgs stop) (if mid then [] else [.ints (rep i).ints])
      ((if mid then 2 else 3) + stop.toNat)
  | sent {i stop mid p c r} : Waits rep N (ev ++ [i]) stop p c r → Loc rep N ev (some i) stop mid p c
      ((if mid then [] else [.ints (rep i).ints]) ++ [.flts (rep i).flts])
      ((if mid then 1 else 2) + r)

/-! ## Process 0 -/

section
variable (zero : F) (nPar n N : Nat) (save : Nat → Bool) (rep : Nat → Report F)

/-- Where process 0 is: handing out index `j`, or collecting the last results. -/
inductive Ctl
  | loop (j : Nat)
  | fin (d : Nat)

/-- The final part of process 0. -/
def tail (m : Master F) (sv : List (Master F × Saved F)) : P W F := lastResults nPar (finish sv) (ranks W) m

/-- What follows `proc0_recv`. -/
def kont : Ctl → List (Master F × Saved F) → Fin (W + 1) → Master F → P W F
  | .loop j, sv => fun src m =>
    .send src 0 (.idx j) (handOut nPar save (tail nPar) (n - (j + 1)) (j + 1) m sv)
  | .fin d, sv => fun _ m =>
    .send (if h : d < W then (⟨d, h⟩ : Fin W).succ else 0) 0 (.idx (-1))
      (lastResults nPar (finish sv) ((ranks W).drop (d + 1)) m)

/-- Side conditions while waiting for a result. -/
def Pre (out : Fin W → Option Nat) (stop : Fin W → Bool) (log : List (Fin W × Nat)) (a r0 : Nat) :
    Ctl → Prop
  | .loop j => W ≤ j ∧ j < n ∧ a = j ∧ (∀ w, (out w).isSome) ∧ (∀ w, stop w = false) ∧
      r0 = 6 * (n - j) + 2 * W + 1
  | .fin d => d < W ∧ a = n ∧ log.length + W = n + d ∧ (∀ w : Fin W, stop w = decide (w.val < d)) ∧
      r0 = 2 * (W - d) + 1

/-- Side conditions after the result of worker `w` was stored. -/
def Post (w : Fin W) (out : Fin W → Option Nat) (stop : Fin W → Bool) (log : List (Fin W × Nat))
    (a r0 : Nat) : Ctl → Prop
  | .loop j => W ≤ j ∧ j < n ∧ a = j ∧ out w = none ∧ (∀ v, v ≠ w → (out v).isSome) ∧
      (∀ w, stop w = false) ∧ r0 = 6 * (n - j) + 2 * W + 1
  | .fin d => d < W ∧ a = n ∧ log.length + W = n + d + 1 ∧
      (∀ w : Fin W, stop w = decide (w.val < d)) ∧ r0 = 2 * (W - d) + 1

/-- Checkpoints were taken of prefixes of the log. -/
def SavesOk (log : List (Fin W × Nat)) (sv : List (Master F × Saved F)) : Prop :=
  ∀ s ∈ sv, ∃ pre, pre <+: log ∧ s.1 = stored zero nPar n rep pre ∧ filterGlobal s.1 = .ok s.2

/-- Process 0: outstanding indices, stops sent, log, worker being received from, number of indices
handed out, process, steps left for process 0. -/
inductive Phase (out : Fin W → Option Nat) (stop : Fin W → Bool) (log : List (Fin W × Nat)) :
    Option (Fin W) → Nat → P W F → Nat → Prop
  | init {d r0} : d < W → log = [] → (∀ w : Fin W, (out w).isSome ↔ w.val < d) →
      (∀ w, stop w = false) → r0 = 6 * (n - d) + 2 * W + 1 →
      Phase out stop log none d (firstBatch ((ranks W).drop d)
        (handOut nPar save (tail nPar) (n - W) W (Master.init zero nPar n W) [])) r0
  | recv {c sv a r0} : Pre n out stop log a r0 c → SavesOk zero nPar n rep log sv →
      Phase out stop log none a
        (proc0Recv nPar (stored zero nPar n rep log) (kont nPar n save c sv)) r0
  | mid {c sv a w i r0} : Pre n out stop log a r0 c → SavesOk zero nPar n rep log sv →
      out w = some i →
      Phase out stop log (some w) a
        (recvFloats nPar (stored zero nPar n rep log) w.succ (rep i).ints (kont nPar n save c sv)) r0
  | send {c sv a w r0} : Post n w out stop log a r0 c → SavesOk zero nPar n rep log sv →
      Phase out stop log none a (kont nPar n save c sv w.succ (stored zero nPar n rep log)) r0
  | bar {sv} : log.length = n → (∀ w, stop w = true) → SavesOk zero nPar n rep log sv →
      Phase out stop log none n (finish sv (stored zero nPar n rep log)) 1

/-- Running states. -/
structure Run (r : Nat) (s : St (Fin (W + 1)) (Msg F) (Res F)) (out : Fin W → Option Nat)
    (stop : Fin W → Bool) (rem : Fin W → Nat) (log : List (Fin W × Nat)) (md : Option (Fin W))
    (a r0 : Nat) : Prop where
  loc : ∀ w, Loc rep N (mine log w) (out w) (stop w) (decide (md = some w)) (s.procs w.succ)
    (s.chan (0, w.succ, 0)) (s.chan (w.succ, 0, 0)) (rem w)
  other : ∀ src tag, tag ≠ 0 ∨ src = 0 → s.chan (src, 0, tag) = []
  once : ∀ i, (log.map Prod.snd).count i + ∑ w, isIdx i (out w) = if i < a then 1 else 0
  total : log.length + ∑ w, busy (out w) = a
  le : a ≤ n
  phase : Phase zero nPar n save rep out stop log md a (s.procs 0) r0
  weight : r = r0 + ∑ w, rem w

/-- The final state. -/
structure Final' (s : St (Fin (W + 1)) (Msg F) (Res F)) (log : List (Fin W × Nat))
    (sv : List (Master F × Saved F)) : Prop where
  perm : (log.map Prod.snd).Perm (List.range n)
  master : ∃ f, filterGlobal (stored zero nPar n rep log) = .ok f ∧
    s.procs 0 = .done (.master (stored zero nPar n rep log) sv f)
  workers : ∀ w : Fin W, s.procs w.succ = .done (.worker (mine log w))
  chans : ∀ w : Fin W, s.chan (0, w.succ, 0) = [] ∧ s.chan (w.succ, 0, 0) = []
  saves : SavesOk zero nPar n rep log sv

/-- The invariant: running with `r` steps left, or finished. -/
def Inv (r : Nat) (s : St (Fin (W + 1)) (Msg F) (Res F)) : Prop :=
  (∃ out stop rem log md a r0, Run zero nPar n N save rep r s out stop rem log md a r0) ∨
  (r = 0 ∧ ∃ log sv, Final' zero nPar n rep s log sv)

end

/-! ## Steps of one worker -/

theorem worker_succ (rep : Nat → Report F) (f : Nat) (ev : List Nat) :
    (worker rep (f + 1) ev : P W F) = .recv 0 0 fun msg => match msg with
    | .idx z =>
      if z < 0 then .barrier (.done (.worker ev))
      else .send 0 0 (.ints (rep z.toNat).ints) <|
        .send 0 0 (.flts (rep z.toNat).flts) <| worker rep f (ev ++ [z.toNat])
    | _ => .done (.fail (.undefined "message type")) := rfl

theorem worker_cases (rep : Nat → Report F) (f : Nat) (ev : List Nat) :
    (∃ r, (worker rep f ev : P W F) = .done r) ∨
      ∃ k, (worker rep f ev : P W F) = .recv 0 0 k := by
  cases f with
  | zero => exact .inl ⟨_, rfl⟩
  | succ f => exact .inr ⟨_, rfl⟩

theorem Waits.not_send {rep : Nat → Report F} {N : Nat} {ev : List Nat} {st : Bool} {p : P W F}
    {c : List (Msg F)} {r : Nat} (h : Waits rep N ev st p c r) {dst tag m k}
    (e : p = .send dst tag m k) : False := by
  cases h with
  | wait =>
    rcases worker_cases (W := W) rep (N - ev.length) ev with ⟨_, h⟩ | ⟨_, h⟩ <;> rw [h] at e <;>
      cases e
  | stopped => cases e

theorem Waits.not_any {rep : Nat → Report F} {N : Nat} {ev : List Nat} {st : Bool} {p : P W F}
    {c : List (Msg F)} {r : Nat} (h : Waits rep N ev st p c r) {k} (e : p = .recvAny k) : False := by
  cases h with
  | wait =>
    rcases worker_cases (W := W) rep (N - ev.length) ev with ⟨_, h⟩ | ⟨_, h⟩ <;> rw [h] at e <;>
      cases e
  | stopped => cases e

theorem Waits.recv {rep : Nat → Report F} {N : Nat} {ev : List Nat} {st : Bool} {p : P W F}
    {c : List (Msg F)} {r : Nat} (h : Waits rep N ev st p c r) (hN : ev.length < N) {src tag k}
    (e : p = .recv src tag k) :
    src = 0 ∧ tag = 0 ∧ ∀ m rest, c = m :: rest →
      ∃ r', r = r' + 1 ∧ Waits rep N ev st (k m) rest r' := by
  cases h with
  | wait =>
    obtain ⟨f, hf⟩ : ∃ f, N - ev.length = f + 1 := ⟨N - ev.length - 1, by omega⟩
    rw [hf, worker_succ] at e
    injection e with e1 e2 e3
    refine ⟨e1.symm, e2.symm, fun m rest hc => ?_⟩
    cases st with
    | false => cases hc
    | true =>
      have hc' : [Msg.idx (-1)] = m :: rest := hc
      injection hc' with h1 h2
      subst h1 h2 e3
      exact ⟨0, rfl, .stopped⟩
  | stopped => cases e

theorem Loc.send {rep : Nat → Report F} {N : Nat} {ev : List Nat} {o : Option Nat} {st md : Bool}
    {p : P W F} {c0 cw : List (Msg F)} {r : Nat} (h : Loc rep N ev o st md p c0 cw r)
    {dst tag m k} (e : p = .send dst tag m k) :
    dst = 0 ∧ tag = 0 ∧ ∃ r', r = r' + 1 ∧ Loc rep N ev o st md k c0 (cw ++ [m]) r' := by
  cases h with
  | idle hw => exact (hw.not_send e).elim
  | assigned =>
    rcases worker_cases (W := W) rep (N - ev.length) ev with ⟨_, h⟩ | ⟨_, h⟩ <;> rw [h] at e <;>
      cases e
  | sendI =>
    injection e with e1 e2 e3 e4
    subst e1 e2 e3 e4
    exact ⟨rfl, rfl, 3 + st.toNat, by omega, Loc.sendF⟩
  | sendF =>
    injection e with e1 e2 e3 e4
    subst e1 e2 e3 e4
    refine ⟨rfl, rfl, (if md then 1 else 2) + st.toNat, ?_, Loc.sent .wait⟩
    cases md <;> simp <;> omega
  | sent hw => exact (hw.not_send e).elim

theorem Loc.recv {rep : Nat → Report F} {N : Nat} {ev : List Nat} {o : Option Nat} {st md : Bool}
    {p : P W F} {c0 cw : List (Msg F)} {r : Nat} (h : Loc rep N ev o st md p c0 cw r)
    (hN : ev.length + busy o < N) {src tag k} (e : p = .recv src tag k) :
    src = 0 ∧ tag = 0 ∧ ∀ m rest, c0 = m :: rest →
      ∃ r', r = r' + 1 ∧ Loc rep N ev o st md (k m) rest cw r' := by
  cases h with
  | idle hw =>
    obtain ⟨h1, h2, h3⟩ := hw.recv (by omega) e
    refine ⟨h1, h2, fun m rest hc => ?_⟩
    obtain ⟨r', e', hw'⟩ := h3 m rest hc
    exact ⟨r', e', .idle hw'⟩
  | @assigned i =>
    obtain ⟨f, hf⟩ : ∃ f, N - ev.length = f + 1 := ⟨N - ev.length - 1, by omega⟩
    rw [hf, worker_succ] at e
    injection e with e1 e2 e3
    refine ⟨e1.symm, e2.symm, fun m rest hc => ?_⟩
    injection hc with h1 h2
    subst h1 h2 e3
    refine ⟨4 + st.toNat, by omega, ?_⟩
    have hnn : ¬ ((i : Int) < 0) := by omega
    dsimp only
    rw [if_neg hnn, Int.toNat_natCast]
    have hf' : f = N - (ev ++ [i]).length := by
      rw [List.length_append, List.length_singleton]; omega
    rw [hf']
    exact .sendI
  | sendI => cases e
  | sendF => cases e
  | @sent i _ _ _ _ r hw =>
    obtain ⟨h1, h2, h3⟩ := hw.recv (by
      have : busy (some i) = 1 := rfl
      rw [List.length_append, List.length_singleton]; omega) e
    refine ⟨h1, h2, fun m rest hc => ?_⟩
    obtain ⟨r', e', hw'⟩ := h3 m rest hc
    exact ⟨(if md then 1 else 2) + r', by omega, .sent hw'⟩

theorem Loc.not_any {rep : Nat → Report F} {N : Nat} {ev : List Nat} {o : Option Nat} {st md : Bool}
    {p : P W F} {c0 cw : List (Msg F)} {r : Nat} (h : Loc rep N ev o st md p c0 cw r)
    {k} (e : p = .recvAny k) : False := by
  cases h with
  | idle hw => exact hw.not_any e
  | assigned =>
    rcases worker_cases (W := W) rep (N - ev.length) ev with ⟨_, h⟩ | ⟨_, h⟩ <;> rw [h] at e <;>
      cases e
  | sendI => cases e
  | sendF => cases e
  | sent hw => exact hw.not_any e

theorem Loc.barrier_none {rep : Nat → Report F} {N : Nat} {ev : List Nat} {st md : Bool}
    {p : P W F} {c0 cw : List (Msg F)} {r : Nat} (h : Loc rep N ev none st md p c0 cw r)
    {k} (e : p = .barrier k) : k = .done (.worker ev) ∧ c0 = [] ∧ cw = [] ∧ r = 0 := by
  cases h with
  | idle hw =>
    cases hw with
    | wait =>
      rcases worker_cases (W := W) rep (N - ev.length) ev with ⟨_, h⟩ | ⟨_, h⟩ <;> rw [h] at e <;>
        cases e
    | stopped =>
      injection e with e
      exact ⟨e.symm, rfl, rfl, rfl⟩

/-! ## Effects of process 0 on one worker -/

theorem Loc.assign {rep : Nat → Report F} {N : Nat} {ev : List Nat} {md : Bool}
    {p : P W F} {c0 cw : List (Msg F)} {r : Nat} (h : Loc rep N ev none false md p c0 cw r)
    (i : Nat) : Loc rep N ev (some i) false md p (c0 ++ [.idx (i : Int)]) cw (r + 5) := by
  cases h with
  | idle hw =>
    cases hw with
    | wait => exact Loc.assigned (i := i) (stop := false)

theorem Waits.stop {rep : Nat → Report F} {N : Nat} {ev : List Nat} {p : P W F}
    {c0 : List (Msg F)} {r : Nat} (h : Waits rep N ev false p c0 r) :
    Waits rep N ev true p (c0 ++ [.idx (-1)]) (r + 1) := by
  cases h with
  | wait => exact Waits.wait (stop := true)

theorem Loc.stop {rep : Nat → Report F} {N : Nat} {ev : List Nat} {o : Option Nat} {md : Bool}
    {p : P W F} {c0 cw : List (Msg F)} {r : Nat} (h : Loc rep N ev o false md p c0 cw r) :
    Loc rep N ev o true md p (c0 ++ [.idx (-1)]) cw (r + 1) := by
  cases h with
  | idle hw => exact .idle hw.stop
  | assigned => exact Loc.assigned (stop := true)
  | sendI => exact Loc.sendI (stop := true)
  | sendF => exact Loc.sendF (stop := true)
  | sent hw => exact Loc.sent hw.stop

theorem Loc.take_ints {rep : Nat → Report F} {N : Nat} {ev : List Nat} {o : Option Nat} {st : Bool}
    {p : P W F} {c0 cw : List (Msg F)} {r : Nat} (h : Loc rep N ev o st false p c0 cw r)
    {m rest} (e : cw = m :: rest) :
    ∃ i r', o = some i ∧ m = .ints (rep i).ints ∧ r = r' + 1 ∧
      Loc rep N ev o st true p c0 rest r' := by
  cases h with
  | idle hw => cases e
  | assigned => cases e
  | sendI => cases e
  | @sendF i =>
    have e' : [Msg.ints (rep i).ints] = m :: rest := e
    injection e' with e1 e2
    subst e1 e2
    exact ⟨i, 2 + st.toNat, rfl, rfl, by simp; omega, Loc.sendF (mid := true)⟩
  | @sent i _ _ _ _ r hw =>
    have e' : [Msg.ints (rep i).ints] ++ [Msg.flts (rep i).flts] = m :: rest := e
    injection e' with e1 e2
    subst e1 e2
    exact ⟨i, 1 + r, rfl, rfl, by simp; omega, Loc.sent (mid := true) hw⟩

theorem Loc.take_flts {rep : Nat → Report F} {N : Nat} {ev : List Nat} {i : Nat} {st : Bool}
    {p : P W F} {c0 cw : List (Msg F)} {r : Nat} (h : Loc rep N ev (some i) st true p c0 cw r)
    {m rest} (e : cw = m :: rest) :
    m = .flts (rep i).flts ∧ ∃ r', r = r' + 1 ∧ Loc rep N (ev ++ [i]) none st false p c0 rest r' := by
  cases h with
  | sendF => cases e
  | @sent _ _ _ _ _ r hw =>
    have e' : [Msg.flts (rep i).flts] = m :: rest := e
    injection e' with e1 e2
    subst e1 e2
    exact ⟨rfl, r, by simp; omega, .idle hw⟩

/-! ## Process 0 moves on -/

theorem ranks_drop (d : Nat) (h : d < W) :
    (ranks W).drop d = (⟨d, h⟩ : Fin W).succ :: (ranks W).drop (d + 1) := by
  have hl : d < (ranks W).length := by simp [ranks, h]
  rw [List.drop_eq_getElem_cons hl]
  congr 1
  simp [ranks]

section
variable {zero : F} {nPar n N : Nat} {save : Nat → Bool} {rep : Nat → Report F}

theorem SavesOk.append {log : List (Fin W × Nat)} {sv : List (Master F × Saved F)}
    (h : SavesOk zero nPar n rep log sv) (x : Fin W × Nat) :
    SavesOk zero nPar n rep (log ++ [x]) sv := by
  intro s hs
  obtain ⟨pre, h1, h2⟩ := h s hs
  exact ⟨pre, h1.trans (List.prefix_append _ _), h2⟩

theorem enter_fin {out : Fin W → Option Nat} {stop : Fin W → Bool} {log : List (Fin W × Nat)}
    {sv : List (Master F × Saved F)} (d : Nat) (hd : d ≤ W) (hlen : log.length + W = n + d)
    (hstop : ∀ w : Fin W, stop w = decide (w.val < d)) (hsv : SavesOk zero nPar n rep log sv) :
    Phase zero nPar n save rep out stop log none n
      (lastResults nPar (finish sv) ((ranks W).drop d) (stored zero nPar n rep log))
      (2 * (W - d) + 1) := by
  by_cases h : d < W
  · rw [ranks_drop d h]
    have := Phase.recv (zero := zero) (nPar := nPar) (n := n) (save := save) (rep := rep)
      (out := out) (stop := stop) (log := log) (c := .fin d) (sv := sv) (a := n)
      (r0 := 2 * (W - d) + 1) ⟨h, rfl, hlen, hstop, rfl⟩ hsv
    rw [kont, dif_pos h] at this
    exact this
  · have e : d = W := by omega
    subst e
    have hdrop : (ranks d).drop d = [] := List.drop_eq_nil_of_le (by simp [ranks])
    rw [hdrop, Nat.sub_self]
    exact .bar (by omega) (fun w => by rw [hstop]; simp) hsv

theorem enter_loop {out : Fin W → Option Nat} {stop : Fin W → Bool} {log : List (Fin W × Nat)}
    {sv : List (Master F × Saved F)} (j : Nat) (hW : W ≤ j) (hj : j ≤ n) (hout : ∀ w, (out w).isSome)
    (hlen : log.length + W = j) (hstop : ∀ w : Fin W, stop w = false)
    (hf : ∃ s, filterGlobal (stored zero nPar n rep log) = .ok s)
    (hsv : SavesOk zero nPar n rep log sv) :
    Phase zero nPar n save rep out stop log none j
      (handOut nPar save (tail nPar) (n - j) j (stored zero nPar n rep log) sv)
      (6 * (n - j) + 2 * W + 1) := by
  by_cases h : j < n
  · have e : n - j = (n - (j + 1)) + 1 := by omega
    have key : ∀ sv, SavesOk zero nPar n rep log sv → Phase zero nPar n save rep out stop log none j
        (proc0Recv nPar (stored zero nPar n rep log) (kont nPar n save (.loop j) sv))
        (6 * (n - j) + 2 * W + 1) := fun sv hsv =>
      .recv ⟨hW, h, rfl, hout, hstop, rfl⟩ hsv
    obtain ⟨s, hs⟩ := hf
    have hsv' : SavesOk zero nPar n rep log (sv ++ [(stored zero nPar n rep log, s)]) := by
      intro x hx
      rcases List.mem_append.mp hx with hx | hx
      · exact hsv x hx
      · rw [List.mem_singleton] at hx
        subst hx
        exact ⟨log, List.prefix_refl _, rfl, hs⟩
    have k1 := key sv hsv
    have k2 := key _ hsv'
    generalize hw : 6 * (n - j) + 2 * W + 1 = wt at k1 k2 ⊢
    rw [e, handOut]
    cases save j with
    | true =>
      rw [if_pos rfl, hs]
      exact k2
    | false =>
      rw [if_neg (by simp)]
      exact k1
  · have e : j = n := by omega
    subst e
    rw [Nat.sub_self, handOut, tail]
    have := enter_fin (zero := zero) (nPar := nPar) (n := j) (save := save) (rep := rep) (out := out)
      (stop := stop) (log := log) (sv := sv) 0 (by omega) (by omega)
      (fun w => by rw [hstop]; simp) hsv
    rw [List.drop_zero] at this
    have e2 : 6 * 0 + 2 * W + 1 = 2 * (W - 0) + 1 := by omega
    rw [e2]
    exact this

theorem sum_busy_all {out : Fin W → Option Nat} (h : ∀ w, (out w).isSome) :
    ∑ w, busy (out w) = W := by
  have : ∀ w, busy (out w) = 1 := fun w => by simp [busy, h w]
  simp [this]

theorem busy_le_sum (out : Fin W → Option Nat) (w : Fin W) : busy (out w) ≤ ∑ v, busy (out v) :=
  Finset.single_le_sum (f := fun v => busy (out v)) (fun _ _ => Nat.zero_le _) (Finset.mem_univ w)

namespace Run
variable {r : Nat} {s : St (Fin (W + 1)) (Msg F) (Res F)} {out : Fin W → Option Nat}
  {stop : Fin W → Bool} {rem : Fin W → Nat} {log : List (Fin W × Nat)} {md : Option (Fin W)}
  {a r0 : Nat}

theorem nodup (h : Run zero nPar n N save rep r s out stop rem log md a r0) :
    (log.map Prod.snd).Nodup := by
  rw [List.nodup_iff_count_le_one]
  intro i
  have := h.once i
  split at this <;> omega

theorem lt (h : Run zero nPar n N save rep r s out stop rem log md a r0) :
    ∀ x ∈ log, x.2 < n := by
  intro x hx
  have h1 := h.once x.2
  have h2 : 0 < (log.map Prod.snd).count x.2 :=
    List.count_pos_iff.mpr (List.mem_map.mpr ⟨x, hx, rfl⟩)
  have := h.le
  split at h1 <;> omega

theorem out_lt (h : Run zero nPar n N save rep r s out stop rem log md a r0) {w : Fin W} {i : Nat}
    (hi : out w = some i) : i < n := by
  have h1 := h.once i
  have h2 : isIdx i (out w) ≤ ∑ v, isIdx i (out v) :=
    Finset.single_le_sum (f := fun v => isIdx i (out v)) (fun _ _ => Nat.zero_le _)
      (Finset.mem_univ w)
  have h3 : isIdx i (out w) = 1 := by rw [hi]; simp [isIdx]
  have := h.le
  split at h1 <;> omega

theorem fuel (h : Run zero nPar n N save rep r s out stop rem log md a r0) (hN : n < N)
    (w : Fin W) : (mine log w).length + busy (out w) < N := by
  have h1 := mine_length log w
  have h2 := busy_le_sum out w
  have h3 := h.total
  have h4 := h.le
  omega

/-- A step of worker `w` (or a message taken from it) that only changes its own part. -/
theorem step_worker (h : Run zero nPar n N save rep r s out stop rem log md a r0) (w : Fin W)
    {t : St (Fin (W + 1)) (Msg F) (Res F)} {r' : Nat}
    (hp : ∀ i, i ≠ w.succ → t.procs i = s.procs i)
    (hc0 : ∀ v, v ≠ w → t.chan (0, v.succ, 0) = s.chan (0, v.succ, 0))
    (hcw : ∀ v, v ≠ w → t.chan (v.succ, 0, 0) = s.chan (v.succ, 0, 0))
    (ho : ∀ src tag, tag ≠ 0 ∨ src = 0 → t.chan (src, 0, tag) = s.chan (src, 0, tag))
    (hr : rem w = r' + 1)
    (hl : Loc rep N (mine log w) (out w) (stop w) (decide (md = some w)) (t.procs w.succ)
      (t.chan (0, w.succ, 0)) (t.chan (w.succ, 0, 0)) r') :
    ∃ r1, r = r1 + 1 ∧ Inv zero nPar n N save rep r1 t := by
  have hs := sum_update id rem w r'
  simp only [id] at hs
  refine ⟨r0 + ∑ v, update rem w r' v, by have := h.weight; omega,
    .inl ⟨out, stop, update rem w r', log, md, a, r0, ?_⟩⟩
  refine ⟨fun v => ?_, fun src tag hst => (ho src tag hst).trans (h.other src tag hst), h.once,
    h.total, h.le, ?_, rfl⟩
  · by_cases hv : v = w
    · subst hv; rw [update_self]; exact hl
    · rw [update_of_ne hv, hp _ (fun e => hv (Fin.succ_injective _ e)), hc0 v hv, hcw v hv]
      exact h.loc v
  · rw [hp 0 (Fin.succ_ne_zero w).symm]; exact h.phase

end Run

theorem key0w (w v : Fin W) : ((w.succ, 0, 0) : Fin (W + 1) × Fin (W + 1) × Nat) ≠ (0, v.succ, 0) := by
  intro h
  injection h with h
  exact Fin.succ_ne_zero w h

theorem key_ww {w v : Fin W} (h : v ≠ w) :
    ((v.succ, 0, 0) : Fin (W + 1) × Fin (W + 1) × Nat) ≠ (w.succ, 0, 0) := by
  intro e
  injection e with e
  exact h (Fin.succ_injective _ e)

theorem key_00 {w v : Fin W} (h : v ≠ w) :
    ((0, v.succ, 0) : Fin (W + 1) × Fin (W + 1) × Nat) ≠ (0, w.succ, 0) := by
  intro e
  injection e with _ e
  injection e with e
  exact h (Fin.succ_injective _ e)

theorem key_other {w : Fin W} {src : Fin (W + 1)} {tag : Nat} (h : tag ≠ 0 ∨ src = 0) :
    ((src, 0, tag) : Fin (W + 1) × Fin (W + 1) × Nat) ≠ (w.succ, 0, 0) := by
  intro e
  injection e with e1 e
  injection e with e2 e3
  rcases h with h | h
  · exact h e3
  · exact Fin.succ_ne_zero w (e1.symm.trans h)

theorem key_other0 {w : Fin W} {src : Fin (W + 1)} {tag : Nat} :
    ((src, 0, tag) : Fin (W + 1) × Fin (W + 1) × Nat) ≠ (0, w.succ, 0) := by
  intro e
  injection e with e1 e
  injection e with e2 e3
  exact Fin.succ_ne_zero w e2.symm

/-- Process 0 handed index `a` to worker `w`. -/
theorem assign_step {r : Nat} {s : St (Fin (W + 1)) (Msg F) (Res F)} {out : Fin W → Option Nat}
    {stop : Fin W → Bool} {rem : Fin W → Nat} {log : List (Fin W × Nat)} {a r0 : Nat}
    (h : Run zero nPar n N save rep r s out stop rem log none a r0) (w : Fin W)
    (ho : out w = none) (hst : stop w = false) {r1 : Nat} {p : P W F} (han : a < n)
    (hr : r0 = r1 + 6)
    (hph : Phase zero nPar n save rep (update out w (some a)) stop log none (a + 1) p r1) :
    ∃ r', r = r' + 1 ∧ Inv zero nPar n N save rep r' ⟨update s.procs 0 p,
      update s.chan (0, w.succ, 0) (s.chan (0, w.succ, 0) ++ [.idx (a : Int)])⟩ := by
  have hs := sum_update id rem w (rem w + 5)
  simp only [id] at hs
  refine ⟨r1 + ∑ v, update rem w (rem w + 5) v, by have := h.weight; omega,
    .inl ⟨update out w (some a), stop, update rem w (rem w + 5), log, none, a + 1, r1, ?_⟩⟩
  refine ⟨fun v => ?_, fun src tag hst => ?_, fun i => ?_, ?_, by omega, ?_, rfl⟩
  · dsimp only
    rw [update_of_ne (Fin.succ_ne_zero v), update_of_ne (key0w v w)]
    by_cases hv : v = w
    · subst hv
      rw [update_self, update_self, update_self, hst]
      have := h.loc v
      rw [ho, hst] at this
      exact this.assign a
    · rw [update_of_ne hv, update_of_ne hv, update_of_ne (key_00 hv)]
      exact h.loc v
  · dsimp only
    rw [update_of_ne key_other0]
    exact h.other src tag hst
  · have h1 := h.once i
    have h2 := sum_update (isIdx i) out w (some a)
    have h3 : isIdx i (out w) = 0 := by rw [ho]; simp [isIdx]
    have h4 : isIdx i (some a) = if a = i then 1 else 0 := by simp [isIdx]
    rw [h4] at h2
    by_cases e : a = i
    · subst e
      rw [if_pos rfl] at h2
      rw [if_neg (Nat.lt_irrefl a)] at h1
      rw [if_pos (Nat.lt_succ_self a)]
      omega
    · rw [if_neg e] at h2
      have : (if i < a + 1 then 1 else 0) = if i < a then 1 else 0 := by
        by_cases h5 : i < a
        · rw [if_pos h5, if_pos (by omega)]
        · rw [if_neg h5, if_neg (by omega)]
      rw [this, ← h1]
      omega
  · have h1 := h.total
    have h2 := sum_update busy out w (some a)
    have h3 : busy (out w) = 0 := by rw [ho]; rfl
    have h4 : busy (some a) = 1 := rfl
    omega
  · dsimp only
    rw [update_self]
    exact hph

/-- Process 0 sent a stop message to worker `w`. -/
theorem stop_step {r : Nat} {s : St (Fin (W + 1)) (Msg F) (Res F)} {out : Fin W → Option Nat}
    {stop : Fin W → Bool} {rem : Fin W → Nat} {log : List (Fin W × Nat)} {a r0 : Nat}
    (h : Run zero nPar n N save rep r s out stop rem log none a r0) (w : Fin W)
    (hst : stop w = false) {r1 : Nat} {p : P W F} (hr : r0 = r1 + 2)
    (hph : Phase zero nPar n save rep out (update stop w true) log none a p r1) :
    ∃ r', r = r' + 1 ∧ Inv zero nPar n N save rep r' ⟨update s.procs 0 p,
      update s.chan (0, w.succ, 0) (s.chan (0, w.succ, 0) ++ [.idx (-1)])⟩ := by
  have hs := sum_update id rem w (rem w + 1)
  simp only [id] at hs
  refine ⟨r1 + ∑ v, update rem w (rem w + 1) v, by have := h.weight; omega,
    .inl ⟨out, update stop w true, update rem w (rem w + 1), log, none, a, r1, ?_⟩⟩
  refine ⟨fun v => ?_, fun src tag hst => ?_, h.once, h.total, h.le, ?_, rfl⟩
  · dsimp only
    rw [update_of_ne (Fin.succ_ne_zero v), update_of_ne (key0w v w)]
    by_cases hv : v = w
    · subst hv
      rw [update_self, update_self, update_self]
      have := h.loc v
      rw [hst] at this
      exact this.stop
    · rw [update_of_ne hv, update_of_ne hv, update_of_ne (key_00 hv)]
      exact h.loc v
  · dsimp only
    rw [update_of_ne key_other0]
    exact h.other src tag hst
  · dsimp only
    rw [update_self]
    exact hph

theorem perm_of_count {l : List Nat} (h : ∀ i, l.count i = if i < n then 1 else 0) :
    l.Perm (List.range n) := by
  rw [List.perm_iff_count]
  intro i
  rw [h]
  by_cases hi : i < n
  · rw [if_pos hi, List.count_eq_one_of_mem List.nodup_range (List.mem_range.mpr hi)]
  · rw [if_neg hi, List.count_eq_zero_of_not_mem (by simpa using hi)]

/-- Every buffered step keeps the invariant and uses up one unit. -/
theorem inv_step (hW : 0 < W) (hWn : W ≤ n) (hN : n < N) (passed : Nat → Bool)
    (hok : ∀ i, i < n → RepOk nPar i (rep i) (passed i))
    {r : Nat} {s t : St (Fin (W + 1)) (Msg F) (Res F)} (hb : BStep s t)
    (hi : Inv zero nPar n N save rep r s) :
    ∃ r', r = r' + 1 ∧ Inv zero nPar n N save rep r' t := by
  rcases hi with ⟨out, stop, rem, log, md, a, r0, h⟩ | ⟨rfl, log, sv, h⟩
  · have hfilt : ∃ s, filterGlobal (stored zero nPar n rep log) = .ok s :=
      ⟨_, filterGlobal_stored zero nPar n rep passed log h.nodup h.lt hok⟩
    cases hb with
    | @send i dst tag m k h1 =>
      revert h1
      refine Fin.cases ?_ (fun w => ?_) i
      · intro h1
        have ph := h.phase
        generalize hp : s.procs 0 = p at ph
        rw [hp] at h1
        cases ph with
        | @init _ _ hd hlog hout hstop hr =>
          rw [ranks_drop a hd] at h1
          injection h1 with e1 e2 e3 e4
          subst e1 e2 e3 e4
          have hz : out ⟨a, hd⟩ = none := by
            have := (hout ⟨a, hd⟩).not.mpr (Nat.lt_irrefl a)
            simpa using this
          have hcast : (((⟨a, hd⟩ : Fin W).succ : Fin (W + 1)) : Int) - 1 = (a : Int) := by
            simp [Fin.val_succ]
          rw [hcast]
          refine assign_step h ⟨a, hd⟩ hz (hstop _) (by omega)
            (r1 := 6 * (n - (a + 1)) + 2 * W + 1) (by omega) ?_
          have hout' : ∀ v : Fin W, (update out ⟨a, hd⟩ (some a) v).isSome ↔ v.val < a + 1 := by
            intro v
            by_cases hv : v = ⟨a, hd⟩
            · subst hv; simp
            · rw [update_of_ne hv, hout]
              have : v.val ≠ a := fun e => hv (Fin.ext e)
              omega
          by_cases hd' : a + 1 < W
          · exact .init hd' hlog hout' hstop rfl
          · have e : a + 1 = W := by omega
            rw [List.drop_eq_nil_of_le (by simp [ranks]; omega)]
            subst hlog
            have := enter_loop (zero := zero) (nPar := nPar) (n := n) (save := save) (rep := rep)
              (out := update out ⟨a, hd⟩ (some a)) (stop := stop) (log := []) (sv := []) W
              (Nat.le_refl W) hWn (fun v => (hout' v).mpr (by have := v.isLt; omega)) (by simp)
              hstop hfilt (fun _ hx => by cases hx)
            rw [e]
            exact this
        | recv => cases h1
        | mid => cases h1
        | @send c sv _ w _ hpost hsv =>
          cases c with
          | loop j =>
            obtain ⟨p1, p2, p3, p4, p5, p6, p7⟩ := hpost
            subst p3
            injection h1 with e1 e2 e3 e4
            subst e1 e2 e3 e4
            refine assign_step h w p4 (p6 w) p2 (r1 := 6 * (n - (a + 1)) + 2 * W + 1) (by omega) ?_
            have hout' : ∀ v, (update out w (some a) v).isSome := by
              intro v
              by_cases hv : v = w
              · subst hv; simp
              · rw [update_of_ne hv]; exact p5 v hv
            have hs := sum_update busy out w (some a)
            rw [sum_busy_all hout', p4] at hs
            have hb0 : busy none = 0 := rfl
            have hb1 : busy (some a) = 1 := rfl
            have := h.total
            exact enter_loop (a + 1) (by omega) (by omega) hout' (by omega) p6 hfilt hsv
          | fin d =>
            obtain ⟨p1, p2, p3, p4, p5⟩ := hpost
            rw [kont, dif_pos p1] at h1
            injection h1 with e1 e2 e3 e4
            subst e1 e2 e3 e4 p2
            refine stop_step h ⟨d, p1⟩ (by rw [p4]; simp) (r1 := 2 * (W - (d + 1)) + 1) (by omega) ?_
            refine enter_fin (d + 1) (by omega) (by omega) (fun v => ?_) hsv
            by_cases hv : v = ⟨d, p1⟩
            · subst hv; simp
            · rw [update_of_ne hv, p4]
              have : v.val ≠ d := fun e => hv (Fin.ext e)
              simp; omega
        | bar => cases h1
      · intro h1
        obtain ⟨e1, e2, r', hr, hl⟩ := (h.loc w).send h1
        subst e1 e2
        refine h.step_worker w (fun i hi => by dsimp only; rw [update_of_ne hi])
          (fun v _ => by dsimp only; rw [update_of_ne (key0w w v).symm])
          (fun v hv => by dsimp only; rw [update_of_ne (key_ww hv)])
          (fun src tag hst => by dsimp only; rw [update_of_ne (key_other hst)]) hr ?_
        dsimp only
        rw [update_self, update_self, update_of_ne (key0w w w).symm]
        exact hl
    | @recv i src tag k m rest h1 h2 =>
      revert h1 h2
      refine Fin.cases ?_ (fun w => ?_) i
      · intro h1 h2
        have ph := h.phase
        generalize hp : s.procs 0 = p at ph
        rw [hp] at h1
        cases ph with
        | @init _ _ hd hlog hout hstop hr =>
          rw [ranks_drop a hd] at h1
          cases h1
        | recv => cases h1
        | @mid c sv _ w i _ hpre hsv hout =>
          injection h1 with e1 e2 e3
          subst e1 e2 e3
          have hl := h.loc w
          rw [hout, decide_eq_true rfl] at hl
          obtain ⟨hm, r', hr, hl'⟩ := hl.take_flts h2
          subst hm
          dsimp only
          have hin := h.out_lt hout
          rw [store_ok zero nPar n rep log w i hin (passed i) (hok i hin)]
          dsimp only
          have hs := sum_update id rem w r'
          simp only [id] at hs
          refine ⟨r0 + ∑ v, update rem w r' v, by have := h.weight; omega,
            .inl ⟨update out w none, stop, update rem w r', log ++ [(w, i)], none, a, r0, ?_⟩⟩
          refine ⟨fun v => ?_, fun src tag hst => ?_, fun j => ?_, ?_, h.le, ?_, rfl⟩
          · dsimp only
            rw [update_of_ne (Fin.succ_ne_zero v), update_of_ne (key0w w v).symm]
            by_cases hv : v = w
            · subst hv
              rw [update_self, update_self, update_self, mine_append_self]
              exact hl'
            · rw [update_of_ne hv, update_of_ne hv, update_of_ne (key_ww hv),
                mine_append_ne _ _ _ _ hv]
              have := h.loc v
              rw [decide_eq_false (fun e => hv (Option.some.inj e).symm)] at this
              exact this
          · dsimp only
            rw [update_of_ne (key_other hst)]
            exact h.other src tag hst
          · have h3 := h.once j
            have h4 := sum_update (isIdx j) out w none
            have h5 : isIdx j none = 0 := by simp [isIdx]
            have h6 : isIdx j (out w) = if i = j then 1 else 0 := by rw [hout]; simp [isIdx]
            rw [List.map_append, List.count_append]
            have h7 : ([(w, i)].map Prod.snd).count j = if i = j then 1 else 0 := by
              simp [List.count_singleton]
            rw [h7, ← h3]
            omega
          · have h3 := h.total
            have h4 := sum_update busy out w none
            have h5 : busy none = 0 := rfl
            have h6 : busy (out w) = 1 := by rw [hout]; rfl
            rw [List.length_append, List.length_singleton]
            omega
          · dsimp only
            rw [update_self]
            refine .send ?_ (hsv.append _)
            cases c with
            | loop j =>
              obtain ⟨p1, p2, p3, p4, p5, p6⟩ := hpre
              refine ⟨p1, p2, p3, update_self .., fun v hv => ?_, p5, p6⟩
              rw [update_of_ne hv]
              exact p4 v
            | fin d =>
              obtain ⟨p1, p2, p3, p4, p5⟩ := hpre
              refine ⟨p1, p2, ?_, p4, p5⟩
              rw [List.length_append, List.length_singleton]
              omega
        | @send c sv _ w _ hpost hsv => cases c <;> cases h1
        | bar => cases h1
      · intro h1 h2
        obtain ⟨e1, e2, h3⟩ := (h.loc w).recv (h.fuel hN w) h1
        subst e1 e2
        obtain ⟨r', hr, hl⟩ := h3 m rest h2
        refine h.step_worker w (fun i hi => by dsimp only; rw [update_of_ne hi])
          (fun v hv => by dsimp only; rw [update_of_ne (key_00 hv)])
          (fun v _ => by dsimp only; rw [update_of_ne (key0w v w)])
          (fun src tag hst => by dsimp only; rw [update_of_ne key_other0]) hr ?_
        dsimp only
        rw [update_self, update_self, update_of_ne (key0w w w)]
        exact hl
    | @recvAny i src tag k m rest h1 h2 =>
      revert h1 h2
      refine Fin.cases ?_ (fun w => ?_) i
      · intro h1 h2
        by_cases hst : tag ≠ 0 ∨ src = 0
        · rw [h.other src tag hst] at h2; cases h2
        have htag : tag = 0 := by
          by_contra hc; exact hst (.inl hc)
        have hsrc : src ≠ 0 := fun hc => hst (.inr hc)
        obtain ⟨w, rfl⟩ := Fin.exists_succ_eq.mpr hsrc
        subst htag
        have ph := h.phase
        generalize hp : s.procs 0 = p at ph
        rw [hp] at h1
        cases ph with
        | @init _ _ hd hlog hout hstop hr =>
          rw [ranks_drop a hd] at h1
          cases h1
        | @recv c sv _ _ hpre hsv =>
          injection h1 with e1
          subst e1
          have hl := h.loc w
          rw [decide_eq_false (by simp)] at hl
          obtain ⟨i, r', hout, hm, hr, hl'⟩ := hl.take_ints h2
          subst hm
          have hs := sum_update id rem w r'
          simp only [id] at hs
          refine ⟨r0 + ∑ v, update rem w r' v, by have := h.weight; omega,
            .inl ⟨out, stop, update rem w r', log, some w, a, r0, ?_⟩⟩
          refine ⟨fun v => ?_, fun src tag hst => ?_, h.once, h.total, h.le, ?_, rfl⟩
          · dsimp only
            rw [update_of_ne (Fin.succ_ne_zero v), update_of_ne (key0w w v).symm]
            by_cases hv : v = w
            · subst hv
              rw [update_self, update_self, decide_eq_true rfl]
              exact hl'
            · rw [update_of_ne hv, update_of_ne (key_ww hv),
                decide_eq_false (fun e => hv (Option.some.inj e).symm)]
              have := h.loc v
              rw [decide_eq_false (by simp)] at this
              exact this
          · dsimp only
            rw [update_of_ne (key_other hst)]
            exact h.other src tag hst
          · dsimp only
            rw [update_self]
            exact .mid hpre hsv hout
        | mid => cases h1
        | @send c sv _ w _ hpost hsv => cases c <;> cases h1
        | bar => cases h1
      · intro h1 _
        exact ((h.loc w).not_any h1).elim
    | @barrier k hk =>
      have ph := h.phase
      have h1 := hk 0
      generalize hp : s.procs 0 = p at ph
      rw [hp] at h1
      cases ph with
      | @init _ _ hd hlog hout hstop hr =>
        rw [ranks_drop a hd] at h1
        cases h1
      | recv => cases h1
      | mid => cases h1
      | @send c sv _ w _ hpost hsv => cases c <;> cases h1
      | @bar sv hlen hst hsv =>
        injection h1 with e
        have hz : ∑ w, busy (out w) = 0 := by have := h.total; omega
        have hnone : ∀ w, out w = none := by
          intro w
          have := busy_le_sum out w
          cases ho : out w with
          | none => rfl
          | some i => rw [ho] at this; have hb : busy (some i) = 1 := rfl; omega
        have hw : ∀ w : Fin W, k w.succ = .done (.worker (mine log w)) ∧
            s.chan (0, w.succ, 0) = [] ∧ s.chan (w.succ, 0, 0) = [] ∧ rem w = 0 := by
          intro w
          have := h.loc w
          rw [hnone w] at this
          exact this.barrier_none (hk w.succ)
        have hrem : ∑ w, rem w = 0 := Finset.sum_eq_zero fun w _ => (hw w).2.2.2
        refine ⟨0, by have := h.weight; omega, .inr ⟨rfl, log, sv, ?_⟩⟩
        obtain ⟨f, hf⟩ := hfilt
        refine ⟨perm_of_count fun i => ?_, ⟨f, hf, ?_⟩, fun w => (hw w).1,
          fun w => ⟨(hw w).2.1, (hw w).2.2.1⟩, hsv⟩
        · have h3 := h.once i
          have h4 : ∑ w, isIdx i (out w) = 0 :=
            Finset.sum_eq_zero fun w _ => by rw [hnone w]; simp [isIdx]
          omega
        · dsimp only
          rw [← e, hf]
  · obtain ⟨f, hf, hm⟩ := h.master
    have hdone : ∀ i, ∃ x, s.procs i = .done x :=
      fun i => Fin.cases ⟨_, hm⟩ (fun w => ⟨_, h.workers w⟩) i
    exfalso
    cases hb with
    | @send i _ _ _ _ h1 => obtain ⟨x, hx⟩ := hdone i; rw [h1] at hx; cases hx
    | @recv i _ _ _ _ _ h1 _ => obtain ⟨x, hx⟩ := hdone i; rw [h1] at hx; cases hx
    | @recvAny i _ _ _ _ _ h1 _ => obtain ⟨x, hx⟩ := hdone i; rw [h1] at hx; cases hx
    | @barrier k hk => obtain ⟨x, hx⟩ := hdone 0; rw [hk 0] at hx; cases hx

/-! ## Progress -/

theorem worker_recv (rep : Nat → Report F) (ev : List Nat) (h : ev.length < N) :
    ∃ k, (worker rep (N - ev.length) ev : P W F) = .recv 0 0 k := by
  obtain ⟨f, hf⟩ : ∃ f, N - ev.length = f + 1 := ⟨N - ev.length - 1, by omega⟩
  rw [hf]
  exact ⟨_, rfl⟩

theorem Loc.busy_cases {ev : List Nat} {i : Nat} {st : Bool}
    {p : P W F} {c0 cw : List (Msg F)} {r : Nat} (h : Loc rep N ev (some i) st false p c0 cw r)
    (hN : ev.length + 1 < N) :
    (∃ k m rest, p = .recv 0 0 k ∧ c0 = m :: rest) ∨ (∃ m k, p = .send 0 0 m k ∧ cw = []) ∨
      ∃ m rest, cw = m :: rest := by
  cases h with
  | assigned =>
    obtain ⟨k, hk⟩ := worker_recv (W := W) rep ev (N := N) (by omega)
    exact .inl ⟨k, _, _, hk, rfl⟩
  | sendI => exact .inr (.inl ⟨_, _, rfl, rfl⟩)
  | sendF => exact .inr (.inr ⟨_, _, rfl⟩)
  | sent hw => exact .inr (.inr ⟨_, _, rfl⟩)

theorem Loc.mid_cases {ev : List Nat} {o : Option Nat} {st : Bool}
    {p : P W F} {c0 cw : List (Msg F)} {r : Nat} (h : Loc rep N ev o st true p c0 cw r) :
    (∃ m k, p = .send 0 0 m k ∧ cw = []) ∨ ∃ m rest, cw = m :: rest := by
  cases h with
  | sendF => exact .inl ⟨_, _, rfl, rfl⟩
  | sent hw => exact .inr ⟨_, _, rfl⟩

theorem Loc.unstopped_cases {ev : List Nat} {o : Option Nat} {md : Bool}
    {p : P W F} {c0 cw : List (Msg F)} {r : Nat} (h : Loc rep N ev o false md p c0 cw r)
    (hN : ev.length + busy o < N) :
    (∃ k, p = .recv 0 0 k) ∨ ∃ m k, p = .send 0 0 m k := by
  cases h with
  | idle hw =>
    cases hw with
    | wait => exact .inl (worker_recv rep ev (by omega))
  | assigned => exact .inl (worker_recv rep ev (by omega))
  | sendI => exact .inr ⟨_, _, rfl⟩
  | sendF => exact .inr ⟨_, _, rfl⟩
  | @sent i _ _ _ _ _ hw =>
    have : busy (some i) = 1 := rfl
    cases hw with
    | wait => exact .inl (worker_recv rep _ (by rw [List.length_append, List.length_singleton]; omega))

theorem Loc.stop_cases {ev : List Nat} {md : Bool}
    {p : P W F} {c0 cw : List (Msg F)} {r : Nat} (h : Loc rep N ev none true md p c0 cw r)
    (hN : ev.length < N) :
    (∃ k m rest, p = .recv 0 0 k ∧ c0 = m :: rest) ∨ ∃ k, p = .barrier k := by
  cases h with
  | idle hw =>
    cases hw with
    | wait =>
      obtain ⟨k, hk⟩ := worker_recv (W := W) rep ev (N := N) hN
      exact .inl ⟨k, _, _, hk, rfl⟩
    | stopped => exact .inr ⟨_, rfl⟩

/-- A running system can always move, if the sends of process 0 or the sends of the workers may be
buffered. -/
theorem Run.progress {r : Nat} {s : St (Fin (W + 1)) (Msg F) (Res F)} {out : Fin W → Option Nat}
    {stop : Fin W → Bool} {rem : Fin W → Nat} {log : List (Fin W × Nat)} {md : Option (Fin W)}
    {a r0 : Nat} (h : Run zero nPar n N save rep r s out stop rem log md a r0) (hW : 0 < W)
    (hN : n < N) {cb : Fin (W + 1) → Fin (W + 1) → Msg F → Prop}
    (hcb : (∀ j m, cb 0 j m) ∨ ∀ i m, cb i 0 m) : ∃ w t, Step cb w s t := by
  have sendTo : ∀ (w : Fin W) (m : Msg F) (k : P W F), stop w = false →
      s.procs 0 = .send w.succ 0 m k → ∃ w t, Step cb w s t := by
    intro w m k hst hp
    rcases hcb with hcb | hcb
    · exact ⟨_, _, .sendBuf hp (hcb _ _)⟩
    · have hl := h.loc w
      rw [hst] at hl
      rcases hl.unstopped_cases (h.fuel hN w) with ⟨k', hk⟩ | ⟨m', k', hk⟩
      · cases hc : s.chan (0, w.succ, 0) with
        | nil => exact ⟨_, _, .sync hp hk hc⟩
        | cons m' rest => exact ⟨_, _, .recv hk hc⟩
      · exact ⟨_, _, .sendBuf hk (hcb _ _)⟩
  have ph := h.phase
  generalize hp : s.procs 0 = p at ph
  cases ph with
  | @init _ _ hd hlog hout hstop hr =>
    rw [ranks_drop a hd] at hp
    exact sendTo _ _ _ (hstop _) hp
  | @recv c sv _ _ hpre hsv =>
    have : ∃ w i, out w = some i := by
      cases c with
      | loop j =>
        obtain ⟨_, _, _, h4, _⟩ := hpre
        have := h4 ⟨0, hW⟩
        obtain ⟨i, hi⟩ := Option.isSome_iff_exists.mp this
        exact ⟨_, i, hi⟩
      | fin d =>
        obtain ⟨h1, h2, h3, _⟩ := hpre
        by_contra hc
        have hz : ∑ w, busy (out w) = 0 := Finset.sum_eq_zero fun w _ => by
          cases ho : out w with
          | none => rfl
          | some i => exact absurd ⟨w, i, ho⟩ hc
        have := h.total
        omega
    obtain ⟨w, i, ho⟩ := this
    have hl := h.loc w
    have hf := h.fuel hN w
    rw [ho] at hl hf
    rw [decide_eq_false (by simp)] at hl
    have hb : busy (some i) = 1 := rfl
    rcases hl.busy_cases (by omega) with ⟨k, m, rest, h1, h2⟩ | ⟨m, k, h1, h2⟩ | ⟨m, rest, h2⟩
    · exact ⟨_, _, .recv h1 h2⟩
    · exact ⟨_, _, .syncAny h1 hp h2⟩
    · exact ⟨_, _, .recvAny hp h2⟩
  | @mid c sv _ w i _ hpre hsv ho =>
    have hl := h.loc w
    rw [decide_eq_true rfl] at hl
    rcases hl.mid_cases with ⟨m, k, h1, h2⟩ | ⟨m, rest, h2⟩
    · exact ⟨_, _, .sync h1 hp h2⟩
    · exact ⟨_, _, .recv hp h2⟩
  | @send c sv _ w _ hpost hsv =>
    cases c with
    | loop j =>
      obtain ⟨_, _, _, _, _, h6, _⟩ := hpost
      exact sendTo w _ _ (h6 w) hp
    | fin d =>
      obtain ⟨h1, _, _, h4, _⟩ := hpost
      rw [kont, dif_pos h1] at hp
      exact sendTo ⟨d, h1⟩ _ _ (by rw [h4]; simp) hp
  | @bar sv hlen hst hsv =>
    have hz : ∑ w, busy (out w) = 0 := by have := h.total; omega
    have hnone : ∀ w, out w = none := by
      intro w
      have := busy_le_sum out w
      cases ho : out w with
      | none => rfl
      | some i => rw [ho] at this; have hb : busy (some i) = 1 := rfl; omega
    have hw : ∀ w : Fin W, (∃ k m rest, s.procs w.succ = .recv 0 0 k ∧
        s.chan (0, w.succ, 0) = m :: rest) ∨ ∃ k, s.procs w.succ = .barrier k := by
      intro w
      have hl := h.loc w
      have hf := h.fuel hN w
      rw [hnone w, hst w] at hl
      exact hl.stop_cases (by omega)
    by_cases hall : ∀ w : Fin W, ∃ k, s.procs w.succ = .barrier k
    · choose k hk using hall
      refine ⟨_, _, .barrier (Fin.cases (match filterGlobal (stored zero nPar n rep log) with
        | .ok s => .done (.master (stored zero nPar n rep log) sv s)
        | .error e => .done (.fail e)) k) fun i => ?_⟩
      refine Fin.cases ?_ (fun w => ?_) i
      · exact hp
      · exact hk w
    · obtain ⟨w, hw'⟩ := not_forall.mp hall
      rcases hw w with ⟨k, m, rest, h1, h2⟩ | hk
      · exact ⟨_, _, .recv h1 h2⟩
      · exact absurd hk hw'

/-- The start state satisfies the invariant with `6 n + 2 W + 1` units. -/
theorem inv_start (hW : 0 < W) (hWn : W ≤ n) :
    Inv zero nPar n N save rep (6 * n + 2 * W + 1)
      (St.start (system (W := W) zero nPar n N save rep)) := by
  have h0 : system (W := W) zero nPar n N save rep 0 = master zero nPar n save := by
    rw [system, if_neg (by omega), if_neg (by omega), if_pos rfl]
  have hw : ∀ w : Fin W, system (W := W) zero nPar n N save rep w.succ = worker rep N [] := by
    intro w
    rw [system, if_neg (by omega), if_neg (by omega), if_neg (Fin.succ_ne_zero w)]
  refine .inl ⟨fun _ => none, fun _ => false, fun _ => 0, [], none, 0, 6 * n + 2 * W + 1, ?_⟩
  refine ⟨fun w => ?_, fun _ _ _ => rfl, fun i => ?_, ?_, by omega, ?_, by simp⟩
  · show Loc rep N [] none false false (system (W := W) zero nPar n N save rep w.succ) [] [] 0
    rw [hw]
    exact .idle (Waits.wait (stop := false) (ev := []))
  · simp [isIdx]
  · simp [busy]
  · show Phase zero nPar n save rep _ _ _ none 0 (system (W := W) zero nPar n N save rep 0) _
    rw [h0]
    exact Phase.init (d := 0) hW rfl (fun w => by simp) (fun _ => rfl) (by omega)

end

end Qsc.MultiScan
