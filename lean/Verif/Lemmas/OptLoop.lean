import Verif.Spec.OptLoop
import Verif.Props.OptState
import Verif.Props.Setup

/-!
# Lemmas on the optimization loop
-/

namespace Qsc.OptLoop

open Qsc.OptState Qsc.Spec.OptState Qsc.Spec.OptLoop

variable {K P : Type}

theorem Safe.bind {α β : Type} {Q : α → Prop} {R : β → Prop} {x : Except Err α}
    {f : α → Except Err β} (hx : Safe Q x) (hf : ∀ a, Q a → Safe R (f a)) : Safe R (x.bind f) := by
  cases x with
  | ok a => exact hf a hx
  | error e => exact hx

theorem Safe.mono {α : Type} {Q R : α → Prop} {x : Except Err α} (hx : Safe Q x)
    (h : ∀ a, Q a → R a) : Safe R x := by
  cases x with
  | ok a => exact h a hx
  | error e => exact hx

theorem Ends.bind {T : String → Prop} {α β : Type} {Q : α → Prop} {R : β → Prop} {x : Except Err α}
    {f : α → Except Err β} (hx : Ends T Q x) (hf : ∀ a, Q a → Ends T R (f a)) : Ends T R (x.bind f) := by
  cases x with
  | ok a => exact hf a hx
  | error e => exact hx

theorem Ends.mono {T : String → Prop} {α : Type} {Q R : α → Prop} {x : Except Err α} (hx : Ends T Q x)
    (h : ∀ a, Q a → R a) : Ends T R x := by
  cases x with
  | ok a => exact h a hx
  | error e => exact hx

theorem Ends.safe {T : String → Prop} {α : Type} {Q : α → Prop} {x : Except Err α} (hx : Ends T Q x) : Safe Q x := by
  cases x with
  | ok a => exact hx
  | error e => exact ⟨hx.choose, hx.choose_spec.1⟩

/-- What a number of evaluations, with records `new`, does to the state. -/
structure Moved (e : Env K P) (j : Nat) (a b : St K P) (new : List (Rec K P)) : Prop where
  fl : b.fl = a.fl
  nphi : b.nphi = a.nphi
  nParams : b.nParams = a.nParams
  nTerms : b.nTerms = a.nTerms
  log : b.log = a.log ++ new
  sized : Sized a.fl b.q
  fixed : ∀ p, ¬ Varied a.fl p → get b.q p = get a.q p
  recs : ∀ r ∈ new, r.step = j ∧ Sized a.fl r.q ∧ (∀ p, ¬ Varied a.fl p → get r.q p = get a.q p) ∧
    r.x.length = a.nParams ∧ (layout a.fl).map (get r.q) = r.x.map some ∧
    e.calculate r.q a.nphi = .ok r.phys

theorem Moved.trans {e : Env K P} {j : Nat} {a b c : St K P} {n1 n2 : List (Rec K P)}
    (h1 : Moved e j a b n1) (h2 : Moved e j b c n2) : Moved e j a c (n1 ++ n2) := by
  constructor
  · rw [h2.fl, h1.fl]
  · rw [h2.nphi, h1.nphi]
  · rw [h2.nParams, h1.nParams]
  · rw [h2.nTerms, h1.nTerms]
  · rw [h2.log, h1.log, List.append_assoc]
  · have := h2.sized; rwa [h1.fl] at this
  · intro p hp
    rw [h2.fixed p (by rwa [h1.fl]), h1.fixed p hp]
  · intro r hr
    rcases List.mem_append.1 hr with hr | hr
    · exact h1.recs r hr
    · obtain ⟨x1, x2, x3, x4, x5, x6⟩ := h2.recs r hr
      rw [h1.fl] at x2 x3 x5
      rw [h1.nParams] at x4
      rw [h1.nphi] at x6
      refine ⟨x1, x2, fun p hp => ?_, x4, x5, x6⟩
      rw [x3 p hp, h1.fixed p hp]

/-- The context in which the library calls back. -/
structure Ctx (e : Env K P) (st : St K P) : Prop where
  sized : Sized st.fl st.q
  np : st.nParams = (layout st.fl).length
  nt : e.terms st.nphi = st.nTerms

theorem Moved.ctx {e : Env K P} {j : Nat} {a b : St K P} {n1 : List (Rec K P)}
    (h : Moved e j a b n1) (c : Ctx e a) : Ctx e b :=
  ⟨h.fl ▸ h.sized, by rw [h.nParams, h.fl]; exact c.np, by rw [h.nphi, h.nTerms]; exact c.nt⟩

/-- The history array agrees with the log. -/
structure HistOk (M : Nat) (st : St K P) : Prop where
  hist : st.hist = st.log.map some ++ List.replicate (M - st.nIter) none
  len : st.log.length = st.nIter
  le : st.nIter ≤ M

/-- Evaluations of the configurations that differ from `st` in varied parameters only throw what `T` allows. -/
def Allowed (T : String → Prop) (e : Env K P) (st : St K P) : Prop :=
  ∀ q m, Sized st.fl q → (∀ p, ¬ Varied st.fl p → get q p = get st.q p) → e.calculate q st.nphi = .error m → T m

theorem Moved.allowed {T : String → Prop} {e : Env K P} {j : Nat} {a b : St K P} {n1 : List (Rec K P)}
    (h : Moved e j a b n1) (c : Allowed T e a) : Allowed T e b := by
  intro q m h1 h2 h3
  rw [h.fl] at h1 h2
  rw [h.nphi] at h3
  exact c q m h1 (fun p hp => (h2 p hp).trans (h.fixed p hp)) h3

theorem unpack_safe {e : Env K P} {st : St K P} (c : Ctx e st) (x : List K)
    (hx : x.length = st.nParams) :
    ∃ q', unpackStateVector st.nParams st.fl st.q x = .ok q' ∧
      (layout st.fl).map (get q') = x.map some ∧
      (∀ p, ¬ Varied st.fl p → get q' p = get st.q p) ∧ Sized st.fl q' := by
  obtain ⟨q', h1, h2, h3, h4⟩ := unpack_values c.sized (layout_ok st.fl) x (hx.trans c.np)
  exact ⟨q', by rw [c.np]; exact h1, h2,
    fun p hp => h3 p fun hm => hp (((layout_ok st.fl).mem p).1 hm), h4⟩

theorem evalAt_safe {T : String → Prop} {e : Env K P} {st : St K P} (c : Ctx e st) (hT : Allowed T e st) (x : List K)
    (hx : x.length = st.nParams) :
    Ends T (fun r => r.1 = { st with q := r.1.q } ∧
      unpackStateVector st.nParams st.fl st.q x = .ok r.1.q ∧
      (layout st.fl).map (get r.1.q) = x.map some ∧
      (∀ p, ¬ Varied st.fl p → get r.1.q p = get st.q p) ∧ Sized st.fl r.1.q ∧
      e.calculate r.1.q st.nphi = .ok r.2) (evalAt e x st) := by
  obtain ⟨q', h1, h2, h3, h4⟩ := unpack_safe c x hx
  unfold evalAt
  rw [h1]
  simp only [Except.bind]
  cases hc : e.calculate q' st.nphi with
  | error m => exact ⟨m, rfl, hT q' m h4 h3 hc⟩
  | ok ph =>
    simp only [liftThrow]
    rw [if_pos c.nt]
    exact ⟨rfl, rfl, h2, h3, h4, hc⟩

theorem residualFn_safe {T : String → Prop} {e : Env K P} {st : St K P} (c : Ctx e st) (hT : Allowed T e st) (j : Nat) (x : List K)
    (hx : x.length = st.nParams) :
    Ends T (fun b => Moved e j st b [] ∧ b.hist = st.hist ∧ b.nIter = st.nIter)
      (residualFn e x st) := by
  unfold residualFn
  refine Ends.bind (evalAt_safe c hT x hx) ?_
  rintro ⟨a, ph⟩ ⟨h1, -, h2, h3, h4, h5⟩
  simp only at h1 h2 h3 h4 h5
  refine ⟨⟨?_, ?_, ?_, ?_, ?_, h4, h3, by simp⟩, ?_, ?_⟩ <;> dsimp only <;> rw [h1]
  simp

theorem evalAll_safe {T : String → Prop} {e : Env K P} (j : Nat) {p : Nat} (xs : List (Vector K p)) (st : St K P)
    (c : Ctx e st) (hT : Allowed T e st) (hp : st.nParams = p) :
    Ends T (fun b => Moved e j st b [] ∧ b.hist = st.hist ∧ b.nIter = st.nIter)
      (evalAll e (xs.map Vector.toList) st) := by
  induction xs generalizing st with
  | nil => exact ⟨⟨rfl, rfl, rfl, rfl, by simp, c.sized, fun _ _ => rfl, by simp⟩, rfl, rfl⟩
  | cons x xs ih =>
    rw [List.map_cons, evalAll]
    refine Ends.bind (residualFn_safe c hT j x.toList (by simp [hp])) ?_
    rintro b ⟨h1, h2, h3⟩
    refine Ends.mono (ih b (h1.ctx c) (h1.allowed hT) (by rw [h1.nParams, hp])) ?_
    rintro d ⟨g1, g2, g3⟩
    exact ⟨h1.trans g1, g2.trans h2, g3.trans h3⟩

/-- A callback: one more record, whose configuration is the current one. -/
theorem callback_safe {T : String → Prop} {e : Env K P} {st : St K P} (c : Ctx e st) (hT : Allowed T e st) (rows j M : Nat) (x : List K)
    (hx : x.length = st.nParams) (hr : AllSize rows st.q) (hh : HistOk M st) (hM : st.nIter < M) :
    Ends T (fun b => ∃ r, Moved e j st b [r] ∧ HistOk M b ∧ b.nIter = st.nIter + 1 ∧ r.q = b.q ∧
      unpackStateVector st.nParams st.fl st.q x = .ok b.q ∧ r.x = x) (callback e rows j x st) := by
  unfold callback
  refine Ends.bind (evalAt_safe c hT x hx) ?_
  rintro ⟨a, ph⟩ ⟨h1, h0, h2, h3, h4, h5⟩
  simp only at h0 h1 h2 h3 h4 h5
  have hl : a.hist.length = M := by
    rw [h1]; dsimp only; rw [hh.hist]
    have := hh.len
    have := hh.le
    simp; omega
  have l1 : a.q.R0c.length = rows := by rw [← h4.R0c, c.sized.R0c, hr.R0c]
  have l2 : a.q.R0s.length = rows := by rw [← h4.R0s, c.sized.R0s, hr.R0s]
  have l3 : a.q.Z0c.length = rows := by rw [← h4.Z0c, c.sized.Z0c, hr.Z0c]
  have l4 : a.q.Z0s.length = rows := by rw [← h4.Z0s, c.sized.Z0s, hr.Z0s]
  have hn : a.nIter = st.nIter := by rw [h1]
  dsimp only
  rw [if_pos ⟨by omega, by omega, by omega, by omega, by omega⟩]
  refine ⟨⟨j, x, a.q, ph⟩, ⟨?_, ?_, ?_, ?_, ?_, h4, h3, ?_⟩, ?_, ?_, rfl, h0, rfl⟩
  · dsimp only; rw [h1]
  · dsimp only; rw [h1]
  · dsimp only; rw [h1]
  · dsimp only; rw [h1]
  · dsimp only; rw [h1]
  · intro r hr
    obtain rfl := List.mem_singleton.1 hr
    exact ⟨rfl, h4, h3, hx, h2, h5⟩
  · have hlog : a.log = st.log := by rw [h1]
    have hhist : a.hist = st.hist := by rw [h1]
    constructor
    · dsimp only
      rw [hhist, hlog, hn, hh.hist, List.set_append_right _ _ (by simp [hh.len])]
      simp only [List.length_map, hh.len, Nat.sub_self, List.map_append, List.map_cons,
        List.map_nil, List.append_assoc]
      obtain ⟨m, hm⟩ : ∃ m, M - st.nIter = m + 1 := ⟨M - st.nIter - 1, by omega⟩
      rw [hm, show M - (st.nIter + 1) = m by omega]
      rfl
    · dsimp only; rw [hlog, hn, List.length_append, hh.len]; rfl
    · dsimp only; omega
  · dsimp only; rw [hn]

theorem Moved.size {e : Env K P} {j rows : Nat} {a b : St K P} {new : List (Rec K P)}
    (h : Moved e j a b new) (c : Ctx e a) (hr : AllSize rows a.q) : AllSize rows b.q :=
  ⟨by rw [← h.sized.R0c, c.sized.R0c, hr.R0c], by rw [← h.sized.R0s, c.sized.R0s, hr.R0s],
   by rw [← h.sized.Z0c, c.sized.Z0c, hr.Z0c], by rw [← h.sized.Z0s, c.sized.Z0s, hr.Z0s]⟩

theorem HistOk.moved {M : Nat} {a b : St K P} (h : HistOk M a) (h1 : b.hist = a.hist)
    (h2 : b.nIter = a.nIter) (h3 : b.log = a.log) : HistOk M b :=
  ⟨by rw [h1, h2, h3]; exact h.hist, by rw [h2, h3]; exact h.len, by rw [h2]; exact h.le⟩

/-- The iterations: at most `left + 1` records; unless the first iteration made no progress, the
last of them is the current configuration. -/
theorem iterate_safe {T : String → Prop} {e : Env K P} (rows j M : Nat) {p : Nat} (g : Gsl K p) (left i : Nat)
    (st : St K P) (c : Ctx e st) (hT : Allowed T e st) (hp : st.nParams = p) (hr : AllSize rows st.q)
    (hh : HistOk M st) (hM : st.nIter + (left + 1) ≤ M) :
    Ends T (fun b => ∃ new, Moved e j st b new ∧ HistOk M b ∧ b.nIter ≤ st.nIter + (left + 1) ∧
      (¬ ((g.iters 0).noProgress = true ∧ i = 0) → new.getLast?.map (·.q) = some b.q) ∧
      ((g.iters 0).noProgress = true ∧ i = 0 → new = []))
      (iterate e rows j g left i st) := by
  induction left generalizing i st with
  | zero =>
    rw [iterate]
    refine Ends.bind (evalAll_safe j _ st c hT hp) ?_
    rintro b ⟨h1, h2, h3⟩
    have hb := hh.moved h2 h3 (by rw [h1.log, List.append_nil])
    by_cases hn : (g.iters i).noProgress = true ∧ i = 0
    · rw [if_pos hn]
      obtain ⟨hn, rfl⟩ := hn
      exact ⟨[], h1, hb, by omega, fun h => absurd ⟨hn, rfl⟩ h, fun _ => rfl⟩
    · rw [if_neg hn]
      refine Ends.bind (callback_safe (h1.ctx c) (h1.allowed hT) rows j M _ (by simp [h1.nParams, hp])
        (h1.size c hr) hb (by omega)) ?_
      rintro d ⟨r, g1, g2, g3, g4, -, -⟩
      refine ⟨[r], h1.trans g1, g2, by omega, fun _ => by simp [g4], ?_⟩
      rintro ⟨a1, rfl⟩
      exact absurd ⟨a1, rfl⟩ hn
  | succ left ih =>
    rw [iterate]
    refine Ends.bind (evalAll_safe j _ st c hT hp) ?_
    rintro b ⟨h1, h2, h3⟩
    have hb := hh.moved h2 h3 (by rw [h1.log, List.append_nil])
    by_cases hn : (g.iters i).noProgress = true ∧ i = 0
    · rw [if_pos hn]
      obtain ⟨hn, rfl⟩ := hn
      exact ⟨[], h1, hb, by omega, fun h => absurd ⟨hn, rfl⟩ h, fun _ => rfl⟩
    · rw [if_neg hn]
      refine Ends.bind (callback_safe (h1.ctx c) (h1.allowed hT) rows j M _ (by simp [h1.nParams, hp])
        (h1.size c hr) hb (by omega)) ?_
      rintro d ⟨r, g1, g2, g3, g4, -, -⟩
      have hm := h1.trans g1
      dsimp only
      split
      · refine Ends.mono (ih (i + 1) d (hm.ctx c) (hm.allowed hT) (by rw [hm.nParams, hp]) (hm.size c hr) g2
          (by omega)) ?_
        rintro f ⟨new, k1, k2, k3, k4, k5⟩
        refine ⟨_, hm.trans k1, k2, by omega, fun _ => ?_, ?_⟩
        · have := k4 (by omega)
          cases hg : new.getLast? with
          | none => rw [hg] at this; simp at this
          | some z =>
            rw [hg] at this
            have hz : ([] ++ [r] ++ new).getLast? = some z := by simp [List.getLast?_cons, hg]
            rw [hz]; simpa using this
        · rintro ⟨a1, rfl⟩
          exact absurd ⟨a1, rfl⟩ hn
      · refine ⟨[r], hm, g2, by omega, fun _ => by simp [g4], ?_⟩
        rintro ⟨a1, rfl⟩
        exact absurd ⟨a1, rfl⟩ hn

/-- Unpacking determines the varied parameters, the rest is kept: two configurations that agree on
the rest give the same result. -/
theorem unpack_back {e : Env K P} {a b : St K P} {j : Nat} {new : List (Rec K P)} (c : Ctx e a)
    (h : Moved e j a b new) (x0 : List K) (hx : x0.map some = (layout a.fl).map (get a.q)) :
    unpackStateVector b.nParams b.fl b.q x0 = .ok a.q := by
  have hlen : x0.length = b.nParams := by
    rw [h.nParams, c.np]; simpa using congrArg List.length hx
  obtain ⟨q', h1, h2, h3, -⟩ := unpack_safe (h.ctx c) x0 hlen
  rw [h1]
  congr 1
  refine get_ext fun p => ?_
  rw [h.fl] at h2 h3
  by_cases hp : Varied a.fl p
  · exact List.map_inj_left.1 (h2.trans hx) p (((layout_ok a.fl).mem p).2 hp)
  · rw [h3 p hp, h.fixed p hp]

/-- A whole call of the library. -/
theorem drive_safe {T : String → Prop} {e : Env K P} (rows j M : Nat) {p : Nat} (g : Gsl K p) (maxiter : Nat)
    (hmi : 1 ≤ maxiter) (x0 : List K) (st : St K P) (c : Ctx e st) (hT : Allowed T e st) (hp : st.nParams = p)
    (hr : AllSize rows st.q) (hh : HistOk M st) (hM : st.nIter + 1 + maxiter ≤ M)
    (hx : x0.map some = (layout st.fl).map (get st.q)) :
    Ends T (fun b => ∃ r new, Moved e j st b (r :: new) ∧ HistOk M b ∧
      r.q = st.q ∧
      (¬ (g.iters 0).noProgress = true → (r :: new).getLast?.map (·.q) = some b.q) ∧
      ((g.iters 0).noProgress = true → new = []))
      (drive e rows j g maxiter x0 st) := by
  unfold drive
  refine Ends.bind (evalAll_safe j _ st c hT hp) ?_
  rintro b ⟨h1, h2, h3⟩
  have hb := hh.moved h2 h3 (by rw [h1.log, List.append_nil])
  have hlen : x0.length = b.nParams := by
    rw [h1.nParams, c.np]; simpa using congrArg List.length hx
  refine Ends.bind (callback_safe (h1.ctx c) (h1.allowed hT) rows j M x0 hlen (h1.size c hr) hb (by omega)) ?_
  rintro d ⟨r, g1, g2, g3, g4, g5, -⟩
  have hm := h1.trans g1
  have hq : r.q = st.q := by
    rw [unpack_back c h1 x0 hx] at g5
    rw [g4]; exact (Except.ok.inj g5).symm
  refine Ends.mono (iterate_safe rows j M g (maxiter - 1) 0 d (hm.ctx c) (hm.allowed hT)
    (by rw [hm.nParams, hp]) (hm.size c hr) g2 (by omega)) ?_
  rintro f ⟨new, k1, k2, k3, k4, k5⟩
  refine ⟨r, new, hm.trans k1, k2, hq, fun hn => ?_, fun hn => k5 ⟨hn, rfl⟩⟩
  have := k4 fun h => hn h.1
  cases hg : new.getLast? with
  | none => rw [hg] at this; simp at this
  | some z => rw [hg] at this; simp [List.getLast?_cons, hg]; simpa using this

/-! ## Refinement -/

theorem on_append (a b : List Bool) (k : Nat) : on (a ++ b) k = on a k ++ on b (k + a.length) := by
  induction a generalizing k with
  | nil => simp [on]
  | cons x a ih =>
    simp only [List.cons_append, on, ih, List.append_assoc, List.length_cons]
    rw [show k + 1 + a.length = k + (a.length + 1) by omega]
    cases x <;> simp

theorem on_true (n k : Nat) : (on (List.replicate n true) k).length = n := by
  induction n generalizing k with
  | zero => rfl
  | succ n ih => simp [List.replicate_succ, on, ih]

theorem on_false (n k : Nat) : on (List.replicate n false) k = [] := by
  induction n generalizing k with
  | zero => rfl
  | succ n ih => simp [List.replicate_succ, on, ih]

/-- The flags in step `j`. -/
def flagsAt (fl : Flags) (F j : Nat) : Flags :=
  { fl with
    R0c := fl.R0c ++ (List.replicate j true ++ List.replicate (F - j) false)
    R0s := fl.R0s ++ List.replicate F false
    Z0c := fl.Z0c ++ List.replicate F false
    Z0s := fl.Z0s ++ (List.replicate j true ++ List.replicate (F - j) false) }

theorem layout_length (fl : Flags) : (layout fl).length = fl.etaBar.toNat + fl.sigma0.toNat +
    fl.B2c.toNat + fl.B2s.toNat + (on fl.R0c 0).length + (on fl.R0s 0).length +
    (on fl.Z0c 0).length + (on fl.Z0s 0).length := by
  have one : ∀ (b : Bool) (p : Param), (if b then [p] else []).length = b.toNat := by
    intro b p; cases b <;> rfl
  simp only [layout, List.length_append, List.length_map, one]
  omega

theorem layout_flagsAt (fl : Flags) (F j : Nat) :
    (layout (flagsAt fl F j)).length = (layout fl).length + 2 * j := by
  simp only [layout_length, flagsAt, on_append, on_false, List.length_append, on_true,
    List.append_nil]
  omega

theorem get_pad (a : List Bool) (N F j k : Nat) (h : a.length = N) :
    (a ++ (List.replicate j true ++ List.replicate (F - j) false))[k]? = some true ↔
      a[k]? = some true ∨ (N ≤ k ∧ k < N + j) := by
  by_cases hk : k < N
  · rw [List.getElem?_append_left (by omega)]
    constructor
    · exact .inl
    · rintro (h | h)
      · exact h
      · omega
  · rw [List.getElem?_append_right (by omega), List.getElem?_eq_none (l := a) (by omega)]
    by_cases hj : k - a.length < j
    · rw [List.getElem?_append_left (by simpa using hj)]
      simp only [List.getElem?_replicate, hj, if_true, true_iff]
      right; omega
    · rw [List.getElem?_append_right (by simpa using hj)]
      simp only [List.getElem?_replicate]
      constructor
      · intro h; split at h <;> simp at h
      · rintro (h | h)
        · simp at h
        · omega

theorem get_pad' (a : List Bool) (F k : Nat) :
    (a ++ List.replicate F false)[k]? = some true ↔ a[k]? = some true := by
  by_cases hk : k < a.length
  · rw [List.getElem?_append_left hk]
  · rw [List.getElem?_append_right (by omega), List.getElem?_eq_none (l := a) (by omega)]
    simp only [List.getElem?_replicate]
    constructor
    · intro h; split at h <;> simp at h
    · intro h; simp at h

theorem varied_flagsAt (fl : Flags) (N F j : Nat) (h1 : fl.R0c.length = N)
    (h2 : fl.Z0s.length = N) (p : Param) : Varied (flagsAt fl F j) p ↔ MayVary fl N j p := by
  cases p with
  | R0c k => exact get_pad _ N F j k h1
  | Z0s k => exact get_pad _ N F j k h2
  | R0s k => exact get_pad' _ F k
  | Z0c k => exact get_pad' _ F k
  | _ => exact Iff.rfl

theorem set_pad (a : List Bool) (F j : Nat) (hj : j + 1 ≤ F) :
    setTrue (a ++ (List.replicate j true ++ List.replicate (F - j) false)) (a.length + (j + 1) - 1) =
      .ok (a ++ (List.replicate (j + 1) true ++ List.replicate (F - (j + 1)) false)) := by
  unfold setTrue
  rw [if_pos (by simp; omega), List.set_append_right _ _ (by omega),
    List.set_append_right _ _ (by simp)]
  congr 2
  obtain ⟨m, hm⟩ : ∃ m, F - j = m + 1 := ⟨F - j - 1, by omega⟩
  rw [hm, show F - (j + 1) = m by omega, List.length_replicate,
    show a.length + (j + 1) - 1 - a.length - j = 0 by omega, List.replicate_succ' (n := j)]
  simp [List.replicate_succ]

theorem enable_eq (s : Settings) (N j : Nat) (st : St K P) (h1 : s.fl.R0c.length = N)
    (h2 : s.fl.Z0s.length = N) (hj : j ≤ s.extra) (hf : st.fl = flagsAt s.fl s.extra (j - 1)) :
    enable N j st = .ok { st with fl := flagsAt s.fl s.extra j } := by
  unfold enable
  by_cases h0 : 0 < j
  · rw [if_pos h0]
    obtain ⟨i, rfl⟩ : ∃ i, j = i + 1 := ⟨j - 1, by omega⟩
    rw [hf]
    have e1 := set_pad s.fl.R0c s.extra i hj
    have e2 := set_pad s.fl.Z0s s.extra i hj
    rw [h1] at e1
    rw [h2] at e2
    simp only [flagsAt, Nat.add_sub_cancel] at e1 e2 ⊢
    rw [e1]
    simp only [Except.bind]
    rw [e2]
  · rw [if_neg h0]
    obtain rfl : j = 0 := by omega
    simp only [Nat.zero_sub] at hf
    rw [← hf]

theorem gridAt_odd (nphis : List Nat) (nphi j : Nat) :
    Setup.oddNphi (gridAt nphis nphi j) = gridAt nphis nphi j := by
  unfold gridAt Setup.oddNphi
  dsimp only
  repeat' split
  all_goals omega

/-- The resolution and the number of terms of step `j`. -/
theorem chooseNphi_safe {T : String → Prop} (e : Env K P) (s : Settings) (nphi j : Nat) (st : St K P)
    (hn : s.nphis = [] ∨ s.nphis.length = s.extra + 1) (hj : j ≤ s.extra)
    (h0 : j = 0 → st.nphi = Setup.oddNphi nphi)
    (h1 : 0 < j → st.nphi = gridAt s.nphis nphi (j - 1) ∧ e.terms st.nphi = st.nTerms)
    (hT : e.terms (gridAt s.nphis nphi j) = 0 → T "There must be at least 1 residual term.") :
    Ends T (fun b => b = { st with nphi := gridAt s.nphis nphi j, nTerms := b.nTerms } ∧
      e.terms b.nphi = b.nTerms) (chooseNphi e s.nphis j st) := by
  unfold chooseNphi
  rcases hn with hn | hn
  · rw [hn] at h1 hT ⊢
    rw [if_neg (by simp)]
    have hg : ∀ j, gridAt ([] : List Nat) nphi j = Setup.oddNphi nphi := fun j => rfl
    by_cases hj0 : j = 0
    · rw [if_pos hj0]
      unfold countTerms
      split
      · rename_i hlt
        refine ⟨_, rfl, hT ?_⟩
        rw [hg, ← h0 hj0]
        omega
      · refine ⟨?_, rfl⟩
        rw [hg, ← h0 hj0]
    · rw [if_neg hj0]
      obtain ⟨a, b⟩ := h1 (by omega)
      rw [hg] at a
      refine ⟨?_, b⟩
      rw [hg, ← a]
  · rw [if_pos (by omega)]
    have hlt : j < s.nphis.length := by omega
    rw [List.getElem?_eq_getElem hlt]
    have hg : gridAt s.nphis nphi j = Setup.oddNphi s.nphis[j] := by
      unfold gridAt Setup.oddNphi
      have : s.nphis ≠ [] := by intro h; rw [h] at hn; simp at hn
      simp [this, List.getElem?_eq_getElem hlt]
    dsimp only
    unfold countTerms
    split
    · rename_i hlt
      refine ⟨_, rfl, hT ?_⟩
      rw [hg]
      dsimp only at hlt
      omega
    · refine ⟨?_, rfl⟩
      rw [hg]

variable [Zero K]

/-- The invariant between steps: `m` steps are done. -/
structure Inv (e : Env K P) (s : Settings) (N nphi : Nat) (q0 : Config K) (m : Nat)
    (st : St K P) : Prop where
  fl : st.fl = flagsAt s.fl s.extra (m - 1)
  size : AllSize (N + s.extra) st.q
  fixed : ∀ p, ¬ MayVary s.fl N (m - 1) p → get st.q p = get q0 p
  hist : HistOk s.maxIter st
  recs : ∀ r ∈ st.log, RecOk e s N nphi q0 (layout s.fl) r ∧ r.step < m
  nphi0 : m = 0 → st.nphi = Setup.oddNphi nphi ∧ st.q = q0 ∧ st.log = []
  nphi1 : 0 < m → st.nphi = gridAt s.nphis nphi (m - 1) ∧ e.terms st.nphi = st.nTerms
  first : ∀ r, st.log.head? = some r → r.q = q0 ∧ r.step = 0
  last : 0 < m → st.log.getLast?.map (·.step) = some (m - 1)
  steps : Linked (fun a b => b.step = a.step ∨ b.step = a.step + 1) st.log

/-- Every step's first iteration makes progress. -/
def Progress (e : Env K P) : Prop := ∀ j p, ((e.gsl j p).iters 0).noProgress = false

/-- With progress, the current configuration is the last record and steps start where the last one
ended. -/
structure Cont (q0 : Config K) (st : St K P) : Prop where
  cur : st.log.getLast?.map (·.q) = some st.q ∨ (st.log = [] ∧ st.q = q0)
  chain : Linked (fun a b => b.step ≠ a.step → b.q = a.q) st.log

/-- What is known at the end. -/
structure Out (e : Env K P) (s : Settings) (order : String) (N nphi : Nat) (q0 : Config K)
    (st : St K P) : Prop where
  size : AllSize (N + s.extra) st.q
  fixed : ∀ p, ¬ MayVary s.fl N s.extra p → get st.q p = get q0 p
  hist : HistOk s.maxIter st
  recs : ∀ r ∈ st.log, RecOk e s N nphi q0 (layout s.fl) r
  first : ∀ r, st.log.head? = some r → r.q = q0 ∧ r.step = 0
  steps : Linked (fun a b => b.step = a.step ∨ b.step = a.step + 1) st.log
  empty : st.log = [] → st.q = q0
  ran : st.log ≠ [] ↔ order = "r2.1" ∧ 2 ≤ s.maxIter
  cont : Progress e → Cont q0 st

theorem mayVary_mono (fl : Flags) (N : Nat) {i j : Nat} (h : i ≤ j) (p : Param)
    (hp : MayVary fl N i p) : MayVary fl N j p := by
  cases p with
  | R0c k => exact hp.imp id fun ⟨a, b⟩ => ⟨a, by omega⟩
  | Z0s k => exact hp.imp id fun ⟨a, b⟩ => ⟨a, by omega⟩
  | _ => exact hp

theorem Linked.append {α : Type} {R : α → α → Prop} {l : List α} {r : α} {t : List α}
    (h1 : Linked R l) (h2 : Linked R (r :: t)) (h : ∀ a, l.getLast? = some a → R a r) :
    Linked R (l ++ r :: t) := by
  intro i a b ha hb
  by_cases h3 : i + 1 < l.length
  · rw [List.getElem?_append_left (by omega)] at ha hb
    exact h1 i a b ha hb
  · by_cases h4 : i + 1 = l.length
    · rw [List.getElem?_append_left (by omega)] at ha
      rw [List.getElem?_append_right (by omega)] at hb
      have : l.getLast? = some a := by
        rw [List.getLast?_eq_getElem?, show l.length - 1 = i by omega]; exact ha
      rw [show i + 1 - l.length = 0 by omega] at hb
      obtain rfl : r = b := by simpa using hb
      exact h a this
    · rw [List.getElem?_append_right (by omega)] at ha hb
      rw [show i + 1 - l.length = i - l.length + 1 by omega] at hb
      exact h2 _ a b ha hb

theorem Linked.all {α : Type} {R : α → α → Prop} {l : List α} (h : ∀ a ∈ l, ∀ b ∈ l, R a b) :
    Linked R l := fun _ a b ha hb =>
  h a (List.mem_of_getElem? ha) b (List.mem_of_getElem? hb)

theorem Inv.out {e : Env K P} {s : Settings} {order : String} {N nphi : Nat} {q0 : Config K}
    {m : Nat} {st : St K P} (h : Inv e s N nphi q0 m st) (hm : m ≤ s.extra + 1)
    (hr : st.log ≠ [] ↔ order = "r2.1" ∧ 2 ≤ s.maxIter) (hc : Progress e → Cont q0 st) :
    Out e s order N nphi q0 st :=
  ⟨h.size, fun p hp => h.fixed p fun hv => hp (mayVary_mono _ _ (by omega) p hv), h.hist,
   fun r hr => (h.recs r hr).1, h.first, h.steps, fun he => by
     by_cases h0 : m = 0
     · exact (h.nphi0 h0).2.1
     · have := h.last (by omega)
       rw [he] at this; simp at this, hr, hc⟩

/-- One refinement step keeps the invariant. -/
theorem step_inv {e : Env K P} {s : Settings} {N nphi : Nat} {q0 : Config K} {j : Nat}
    {a st b : St K P} {r : Rec K P} {new : List (Rec K P)} (hi : Inv e s N nphi q0 j a)
    (hj : j ≤ s.extra) (l1 : s.fl.R0c.length = N) (l2 : s.fl.Z0s.length = N)
    (h1 : st.fl = flagsAt s.fl s.extra j) (h2 : st.q = a.q) (h3 : st.log = a.log)
    (h4 : st.nphi = gridAt s.nphis nphi j) (h5 : e.terms st.nphi = st.nTerms)
    (h6 : st.nParams = (layout st.fl).length) (hz : AllSize (N + s.extra) b.q)
    (hm : Moved e j st b (r :: new)) (hh : HistOk s.maxIter b) (hq : r.q = st.q) :
    Inv e s N nphi q0 (j + 1) b := by
  have hv : ∀ p, Varied st.fl p ↔ MayVary s.fl N j p := by
    intro p; rw [h1]; exact varied_flagsAt s.fl N s.extra j l1 l2 p
  have hfix : ∀ p, ¬ MayVary s.fl N j p → get st.q p = get q0 p := by
    intro p hp
    rw [h2]
    exact hi.fixed p fun h => hp (mayVary_mono _ _ (by omega) p h)
  have hnew : ∀ x ∈ r :: new, RecOk e s N nphi q0 (layout s.fl) x ∧ x.step = j := by
    intro x hx
    obtain ⟨y1, y2, y3, y4, y5, y6⟩ := hm.recs x hx
    refine ⟨⟨by omega, ?_, ?_, ?_, ?_, ?_⟩, y1⟩
    · have k := hm.sized
      exact ⟨by rw [← y2.R0c, k.R0c, hz.R0c], by rw [← y2.R0s, k.R0s, hz.R0s],
        by rw [← y2.Z0c, k.Z0c, hz.Z0c], by rw [← y2.Z0s, k.Z0s, hz.Z0s]⟩
    · rw [y1]
      intro p hp
      rw [y3 p fun h => hp ((hv p).1 h), hfix p hp]
    · rw [y4, h6, h1, y1, layout_flagsAt]
    · refine ⟨layout st.fl, fun p => ?_, (layout_ok st.fl).sorted, y5.symm⟩
      rw [y1, ← hv p]; exact (layout_ok st.fl).mem p
    · rw [y1, ← h4]; exact y6
  have hr0 : r.step = j := (hnew r (by simp)).2
  have hlog : b.log = a.log ++ r :: new := by rw [hm.log, h3]
  constructor
  · rw [hm.fl, h1, Nat.add_sub_cancel]
  · exact hz
  · intro p hp
    rw [Nat.add_sub_cancel] at hp
    rw [hm.fixed p fun h => hp ((hv p).1 h), hfix p hp]
  · exact hh
  · intro x hx
    rw [hlog] at hx
    rcases List.mem_append.1 hx with hx | hx
    · have := hi.recs x hx
      exact ⟨this.1, by omega⟩
    · exact ⟨(hnew x hx).1, by rw [(hnew x hx).2]; omega⟩
  · omega
  · intro _
    rw [Nat.add_sub_cancel, hm.nphi, hm.nTerms]
    exact ⟨h4, h5⟩
  · intro x hx
    rw [hlog] at hx
    by_cases h0 : j = 0
    · obtain ⟨-, z1, z2⟩ := hi.nphi0 h0
      rw [z2] at hx
      obtain rfl : r = x := by simpa using hx
      exact ⟨by rw [hq, h2, z1], by omega⟩
    · have := hi.last (by omega)
      cases hl : a.log with
      | nil => rw [hl] at this; simp at this
      | cons y ys =>
        rw [hl] at hx
        exact hi.first x (by rw [hl]; simpa using hx)
  · intro _
    rw [hlog, Nat.add_sub_cancel, List.getLast?_append]
    cases hg : (r :: new).getLast? with
    | none => simp at hg
    | some z =>
      have := (hnew z (List.mem_of_getLast? hg)).2
      simp [this]
  · rw [hlog]
    refine Linked.append hi.steps (Linked.all fun x hx y hy => .inl ?_) ?_
    · rw [(hnew x hx).2, (hnew y hy).2]
    · intro x hx
      by_cases h0 : j = 0
      · rw [(hi.nphi0 h0).2.2] at hx; simp at hx
      · have := hi.last (by omega)
        rw [hx] at this
        simp only [Option.map_some, Option.some.injEq] at this
        right; omega

theorem step_cont {e : Env K P} {q0 : Config K} {j : Nat}
    {a st b : St K P} {r : Rec K P} {new : List (Rec K P)} (hc : Cont q0 a)
    (h2 : st.q = a.q) (h3 : st.log = a.log)
    (hm : Moved e j st b (r :: new)) (hq : r.q = st.q)
    (hl : (r :: new).getLast?.map (·.q) = some b.q) : Cont q0 b := by
  have hlog : b.log = a.log ++ r :: new := by rw [hm.log, h3]
  have hnew : ∀ x ∈ r :: new, x.step = j := fun x hx => (hm.recs x hx).1
  constructor
  · left
    rw [hlog, List.getLast?_append]
    cases hg : (r :: new).getLast? with
    | none => simp at hg
    | some z => rw [hg] at hl; simpa using hl
  · rw [hlog]
    refine Linked.append hc.chain (Linked.all fun x hx y hy h => ?_) ?_
    · exact absurd ((hnew y hy).trans (hnew x hx).symm) h
    · intro x hx _
      rcases hc.cur with h | h
      · rw [hx] at h
        simp only [Option.map_some, Option.some.injEq] at h
        rw [hq, h2, ← h]
      · rw [h.1] at hx; simp at hx

theorem Inv.log_ne {e : Env K P} {s : Settings} {N nphi : Nat} {q0 : Config K}
    {m : Nat} {st : St K P} (h : Inv e s N nphi q0 m st) (hm : 0 < m) : st.log ≠ [] := by
  intro he
  have := h.last hm
  rw [he] at this; simp at this

/-- One pass of the loop, with whatever follows it. -/
theorem pass_safe (e : Env K P) (s : Settings) (order : String) (N nphi : Nat)
    (q0 : Config K) (l1 : s.fl.R0c.length = N) (l2 : s.fl.R0s.length = N)
    (l3 : s.fl.Z0c.length = N) (l4 : s.fl.Z0s.length = N)
    (hn : s.nphis = [] ∨ s.nphis.length = s.extra + 1) (j : Nat) (hj : j ≤ s.extra)
    (st : St K P) (hi : Inv e s N nphi q0 j st) (hc : Progress e → Cont q0 st)
    (hord : 0 < j → order = "r2.1" ∧ 2 ≤ s.maxIter) (k : St K P → Except Err (St K P))
    (hk : ∀ b, Inv e s N nphi q0 (j + 1) b → (Progress e → Cont q0 b) → order = "r2.1" →
      2 ≤ s.maxIter → Ends (Reason e s order N nphi q0) (Out e s order N nphi q0) (k b)) :
    Ends (Reason e s order N nphi q0) (Out e s order N nphi q0)
      (if s.maxIter ≤ st.nIter + 1 then .ok st
      else
        (enable N j st).bind fun st =>
        (chooseNphi e s.nphis j st).bind fun st =>
        (initParameters st.fl).bind fun np =>
        let st := { st with nParams := np.1 }
        (initQ order st).bind fun r =>
        let st := r.2
        if ¬ r.1 then .ok st
        else if st.nTerms < st.nParams then .error (.throw "insufficient data points, n < p")
        else
          (setStateVector st.nParams st.fl st.q (List.replicate st.nParams 0)).bind fun x0 =>
          (drive e (N + s.extra) j (e.gsl j st.nParams) (s.maxIter - 1 - st.nIter) x0 st).bind k) := by
  have hz : j = 0 → st.nIter = 0 ∧ st.log = [] := by
    intro h0
    have h1 := (hi.nphi0 h0).2.2
    exact ⟨by rw [← hi.hist.len, h1]; rfl, h1⟩
  split
  · rename_i hM
    refine hi.out (by omega) ?_ hc
    by_cases h0 : 0 < j
    · exact ⟨fun _ => hord h0, fun _ => hi.log_ne h0⟩
    · obtain ⟨z1, z2⟩ := hz (by omega)
      constructor
      · intro h; exact absurd z2 h
      · rintro ⟨-, h⟩; omega
  · rename_i hM
    rw [enable_eq s N j st l1 l4 hj hi.fl]
    simp only [Except.bind]
    refine Ends.bind (chooseNphi_safe e s nphi j { st with fl := flagsAt s.fl s.extra j } hn hj
      (fun h => (hi.nphi0 h).1) (fun h => hi.nphi1 h) (.residuals rfl j hj)) ?_
    rintro a ⟨ha, hat⟩
    have ha1 : a.fl = flagsAt s.fl s.extra j := by rw [ha]
    have ha2 : a.q = st.q := by rw [ha]
    have ha3 : a.log = st.log := by rw [ha]
    have ha4 : a.nphi = gridAt s.nphis nphi j := by rw [ha]
    have ha5 : a.hist = st.hist := by rw [ha]
    have ha6 : a.nIter = st.nIter := by rw [ha]
    clear ha
    rw [initParameters_eq]
    by_cases hlay : (layout a.fl).length < 1
    · rw [if_pos hlay]
      refine ⟨_, rfl, .parameters rfl fun p hp => ?_⟩
      have h0 : (layout a.fl).length = 0 := by omega
      rw [ha1, layout_flagsAt] at h0
      have := ((layout_ok s.fl).mem p).2 hp
      rw [List.length_eq_zero_iff.1 (show (layout s.fl).length = 0 by omega)] at this
      cases this
    rw [if_neg hlay]
    simp only
    have hsz : Sized a.fl a.q := by
      have := hi.size
      rw [ha1, ha2]
      constructor <;> simp [flagsAt, this.R0c, this.R0s, this.Z0c, this.Z0s] <;> omega
    unfold initQ
    have hv := Setup.validate_spec order
    cases ho : Setup.validate order with
    | error er =>
      by_cases hx : order = "r1" ∨ order = "r2" ∨ order = "r2.1"
      · obtain ⟨o, h⟩ := hv.2.1 hx
        rw [ho] at h; simp at h
      · have h := hv.2.2 hx
        rw [ho] at h
        simp only [Except.bind]
        exact ⟨_, Except.error.inj h, .order rfl (by simpa using hx)⟩
    | ok o =>
      have hr3 : o.r2p1 = true ↔ order = "r2.1" := (hv.1 o ho).2.2.1
      simp only [Except.bind, ha4, gridAt_odd]
      split
      · rename_i hno
        have hno' : order ≠ "r2.1" := fun h => hno (by simpa using hr3.2 h)
        have h0 : j = 0 := by
          by_contra h
          exact hno' (hord (by omega)).1
        obtain ⟨z1, z2⟩ := hz h0
        obtain ⟨-, z4, -⟩ := hi.nphi0 h0
        refine ⟨?_, ?_, ?_, ?_, ?_, ?_, ?_, ?_, ?_⟩
        · dsimp only; rw [ha2]; exact hi.size
        · intro p _; dsimp only; rw [ha2, z4]
        · exact hi.hist.moved ha5 ha6 ha3
        · dsimp only; rw [ha3, z2]; simp
        · dsimp only; rw [ha3, z2]; simp
        · dsimp only; rw [ha3, z2]; intro i a b h; simp at h
        · intro _; dsimp only; rw [ha2, z4]
        · dsimp only; rw [ha3, z2]
          simp [hno']
        · intro hp
          have := hc hp
          constructor
          · dsimp only; rw [ha3, ha2]; exact this.cur
          · dsimp only; rw [ha3]; exact this.chain
      · rename_i hyes
        have hr : order = "r2.1" := hr3.1 (by simpa using hyes)
        have h2 : 2 ≤ s.maxIter := by omega
        split
        · rename_i hlt
          refine ⟨_, rfl, .points rfl j hj (layout a.fl) (fun p => ?_) (layout_ok a.fl).sorted ?_⟩
          · rw [(layout_ok a.fl).mem p, ha1]
            exact varied_flagsAt s.fl N s.extra j l1 l4 p
          · rw [← ha4, hat]
            exact hlt
        · obtain ⟨x0, e1, e2⟩ := set_values hsz (layout_ok a.fl)
            (List.replicate (layout a.fl).length 0) (by simp)
          rw [e1]
          simp only
          let b : St K P := { a with nphi := gridAt s.nphis nphi j, nParams := (layout a.fl).length }
          have hb : AllSize (N + s.extra) b.q := by
            change AllSize _ a.q; rw [ha2]; exact hi.size
          have hbt : e.terms b.nphi = b.nTerms := by
            change e.terms (gridAt s.nphis nphi j) = a.nTerms
            rw [← ha4]; exact hat
          have hbc : Ctx e b := ⟨hsz, rfl, hbt⟩
          have hbT : Allowed (Reason e s order N nphi q0) e b := by
            intro q m z1 z2 z3
            have hv : ∀ p, Varied b.fl p ↔ MayVary s.fl N j p := by
              intro p
              rw [show b.fl = flagsAt s.fl s.extra j from ha1]
              exact varied_flagsAt s.fl N s.extra j l1 l4 p
            refine .physics j hj q ?_ (fun p hp => ?_) hr z3
            · exact ⟨by rw [← z1.R0c, hsz.R0c, hb.R0c], by rw [← z1.R0s, hsz.R0s, hb.R0s],
                by rw [← z1.Z0c, hsz.Z0c, hb.Z0c], by rw [← z1.Z0s, hsz.Z0s, hb.Z0s]⟩
            · rw [z2 p fun h => hp ((hv p).1 h)]
              change get a.q p = get q0 p
              rw [ha2]
              exact hi.fixed p fun h => hp (mayVary_mono _ _ (by omega) p h)
          have hbh : HistOk s.maxIter b := hi.hist.moved ha5 ha6 ha3
          have hbn : b.nIter = st.nIter := ha6
          refine Ends.bind (drive_safe (N + s.extra) j s.maxIter (e.gsl j b.nParams)
            (s.maxIter - 1 - a.nIter) (by omega) x0 b hbc hbT rfl hb hbh (by omega) e2) ?_
          rintro d ⟨r, new, d1, d2, d3, d4, d5⟩
          refine hk d ?_ ?_ hr h2
          · exact step_inv (st := b) hi hj l1 l4 ha1 ha2 ha3 rfl hbt rfl (d1.size hbc hb) d1 d2 d3
          · intro hp
            exact step_cont (st := b) (hc hp) ha2 ha3 d1 d3 (d4 (by rw [hp]; simp))

theorem refineLoop_safe (e : Env K P) (s : Settings) (order : String) (N nphi : Nat)
    (q0 : Config K) (l1 : s.fl.R0c.length = N) (l2 : s.fl.R0s.length = N)
    (l3 : s.fl.Z0c.length = N) (l4 : s.fl.Z0s.length = N)
    (hn : s.nphis = [] ∨ s.nphis.length = s.extra + 1) (left j : Nat) (hj : j + left = s.extra)
    (st : St K P) (hi : Inv e s N nphi q0 j st) (hc : Progress e → Cont q0 st)
    (hord : 0 < j → order = "r2.1" ∧ 2 ≤ s.maxIter) :
    Ends (Reason e s order N nphi q0) (Out e s order N nphi q0) (refineLoop e order (N + s.extra) N s.maxIter s.nphis
      left j st) := by
  induction left generalizing j st with
  | zero =>
    rw [refineLoop]
    refine pass_safe e s order N nphi q0 l1 l2 l3 l4 hn j (by omega) st hi hc hord
      (fun st => .ok st) ?_
    intro b hb hc' hr h2
    exact hb.out (by omega) ⟨fun _ => ⟨hr, h2⟩, fun _ => hb.log_ne (by omega)⟩ hc'
  | succ left ih =>
    rw [refineLoop]
    refine pass_safe e s order N nphi q0 l1 l2 l3 l4 hn j (by omega) st hi hc hord
      (fun st => refineLoop e order (N + s.extra) N s.maxIter s.nphis left (j + 1) st) ?_
    intro b hb hc' hr h2
    exact ih (j + 1) (by omega) b hb hc' fun _ => ⟨hr, h2⟩

theorem pad_eq {α : Type} (xs : List α) (N F : Nat) (z : α) (h : xs.length = N) :
    pad xs N F z = .ok (xs ++ List.replicate F z) := by
  unfold pad
  rw [if_pos (by omega), ← h, List.take_length]

/-- The whole of `optimize`. -/
theorem optimize_ends (e : Env K P) (s : Settings) (order : String) (q : Config K) (nphi N : Nat)
    (hq : AllSize N q) (hn : s.nphis = [] ∨ s.nphis.length = s.extra + 1) :
    Ends (Reason e s order N nphi (grow s.extra q)) (fun st => Sized s.fl q ∧ Out e s order N nphi (grow s.extra q) st)
      (optimize e s order q nphi) := by
  unfold optimize
  dsimp only
  split
  · rename_i h
    exact ⟨_, rfl, .size (Or.inl ⟨rfl, by rwa [hq.R0c] at h⟩)⟩
  split
  · rename_i h
    exact ⟨_, rfl, .size (Or.inr (Or.inl ⟨rfl, by rwa [hq.R0s] at h⟩))⟩
  split
  · rename_i h
    exact ⟨_, rfl, .size (Or.inr (Or.inr (Or.inl ⟨rfl, by rwa [hq.Z0c] at h⟩)))⟩
  split
  · rename_i h
    exact ⟨_, rfl, .size (Or.inr (Or.inr (Or.inr ⟨rfl, by rwa [hq.Z0s] at h⟩)))⟩
  rename_i m1 m2 m3 m4
  simp only [ne_eq, Decidable.not_not] at m1 m2 m3 m4
  have f1 := m1.trans hq.R0c
  have f2 := m2.trans hq.R0s
  have f3 := m3.trans hq.Z0c
  have f4 := m4.trans hq.Z0s
  rw [hq.R0c, pad_eq _ N _ _ hq.R0c, pad_eq _ N _ _ hq.R0s, pad_eq _ N _ _ hq.Z0c,
    pad_eq _ N _ _ hq.Z0s, pad_eq _ N _ _ f1, pad_eq _ N _ _ f2, pad_eq _ N _ _ f3,
    pad_eq _ N _ _ f4]
  simp only [Except.bind]
  refine Ends.mono (refineLoop_safe e s order N nphi (grow s.extra q) f1 f2 f3 f4 hn s.extra 0
    (by omega) _ ?_ ?_ (by omega)) fun st h => ⟨⟨m1, m2, m3, m4⟩, h⟩
  · refine ⟨?_, ?_, fun _ _ => rfl, ⟨?_, rfl, Nat.zero_le _⟩, by simp, fun _ => ⟨rfl, rfl, rfl⟩,
      by omega, by simp, by omega, ?_⟩
    · simp [flagsAt]
    · constructor <;> simp [hq.R0c, hq.R0s, hq.Z0c, hq.Z0s]
    · simp
    · intro i a b h; simp at h
  · intro _
    exact ⟨.inr ⟨rfl, rfl⟩, by intro i a b h; simp at h⟩

theorem optimize_safe (e : Env K P) (s : Settings) (order : String) (q : Config K) (nphi N : Nat)
    (hq : AllSize N q) (hn : s.nphis = [] ∨ s.nphis.length = s.extra + 1) :
    Safe (fun st => Sized s.fl q ∧ Out e s order N nphi (grow s.extra q) st)
      (optimize e s order q nphi) :=
  Ends.safe (optimize_ends e s order q nphi N hq hn)

end Qsc.OptLoop
