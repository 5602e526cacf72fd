import Verif.Model.ScanDraws
import Verif.Props.Random
import Verif.Props.ScanLoop

/-!
# Property C15: a deterministic scan does not depend on the split over processes
-/

namespace Qsc.ScanDraws
open Qsc.Random Qsc.Spec.Random

/-! ## Specification: the value at a position of the quasi random sequence -/

open Classical in
/-- Value number `n` (from 0) of a deterministic scanned quantity. -/
noncomputable def nth (name : String) (r : Range) (n : Nat) : ℝ :=
  if r.min = r.max then r.min else value name r.min r.max (Int.fract ((n + 1) * gamma))

/-- The inputs of global attempt `n`: every quantity is a function of `n` alone. -/
noncomputable def global (c : Settings) (n : Nat) : Drawn where
  etaBar := nth c.etaBarOption c.etaBar n
  sigma0 := nth c.sigma0Option c.sigma0 (n + 1)
  B2c := if c.r2 then nth c.B2cOption c.B2c (n + 2) else c.oldB2c
  B2s := if c.r2 then nth c.B2sOption c.B2s (n + 3) else c.oldB2s
  p2 := if c.r2 then nth c.p2Option c.p2 (n + 4) else c.oldP2
  R0c := (c.modes.zipIdx).map fun p =>
    nth (if p.2 = 0 ∧ c.fourierOption = "2 sided log" then "log" else c.fourierOption) p.1.R0c (n + 4)
  R0s := c.modes.map fun m => nth c.fourierOption m.R0s (n + 5)
  Z0c := c.modes.map fun m => nth c.fourierOption m.Z0c (n + 6)
  Z0s := c.modes.map fun m => nth c.fourierOption m.Z0s (n + 7)

/-! ## Helpers -/

/-- `r` is generator `name` at position `n`. -/
def At (u : Nat → ℝ) (name : String) (rg : Range) (n : Nat) (r : Rand) : Prop :=
  ∃ l0 r0, construct l0 true name rg.min rg.max = .ok r0 ∧ r = setToNth u n r0

theorem At.value {u : Nat → ℝ} {name : String} {rg : Range} {n : Nat} {r : Rand}
    (h : At u name rg n r) : (get u r).1 = nth name rg n := by
  obtain ⟨l0, r0, h0, rfl⟩ := h
  unfold nth
  by_cases hab : rg.min = rg.max
  · rw [if_pos hab]
    have h0' := h0
    rw [hab] at h0'
    rw [degenerate_never_advances h0']
    obtain ⟨e1, e2, _⟩ := construct_fields h0'
    unfold Qsc.Random.get
    rw [if_pos (e2.trans e1.symm)]
    exact e2.trans hab.symm
  · rw [if_neg hab]
    exact nth_value h0 .init hab n

theorem At.next {u : Nat → ℝ} {name : String} {rg : Range} {n : Nat} {r : Rand}
    (h : At u name rg n r) : At u name rg (n + 1) (get u r).2 := by
  obtain ⟨l0, r0, h0, rfl⟩ := h
  refine ⟨l0, r0, h0, ?_⟩
  by_cases hab : rg.min = rg.max
  · have h0' := h0
    rw [hab] at h0'
    rw [degenerate_never_advances h0', degenerate_never_advances h0']
    obtain ⟨e1, e2, _⟩ := construct_fields h0'
    unfold Qsc.Random.get
    rw [if_pos (e2.trans e1.symm)]
  · have := seek_draw_add (u := u) h0 .init hab n 1
    rw [← this]
    rfl

theorem At.ofInt {u : Nat → ℝ} {name : String} {rg : Range} {n : Nat} {z : Int} {l0 : ℝ} {r0 : Rand}
    (h0 : construct l0 true name rg.min rg.max = .ok r0) (hz : z = n) :
    At u name rg n (setToNth u z r0) := ⟨l0, r0, h0, by rw [hz]⟩

/-- The generators of a mode are at their positions for global attempt `n`. -/
structure ModeAt (u : Nat → ℝ) (c : Settings) (n j : Nat) (m : Mode) (g : ModeGens) : Prop where
  R0c : At u (if j = 0 ∧ c.fourierOption = "2 sided log" then "log" else c.fourierOption) m.R0c
    (n + 4) g.R0c
  R0s : At u c.fourierOption m.R0s (n + 5) g.R0s
  Z0c : At u c.fourierOption m.Z0c (n + 6) g.Z0c
  Z0s : At u c.fourierOption m.Z0s (n + 7) g.Z0s

/-- Modes from index `j` on. -/
inductive ModesAt (u : Nat → ℝ) (c : Settings) (n : Nat) : Nat → List Mode → List ModeGens → Prop
  | nil {j} : ModesAt u c n j [] []
  | cons {j m ms g gs} : ModeAt u c n j m g → ModesAt u c n (j + 1) ms gs →
      ModesAt u c n j (m :: ms) (g :: gs)

/-- All generators are at their positions for global attempt `n`. -/
structure GensAt (u : Nat → ℝ) (c : Settings) (n : Nat) (g : Gens) : Prop where
  etaBar : At u c.etaBarOption c.etaBar n g.etaBar
  sigma0 : At u c.sigma0Option c.sigma0 (n + 1) g.sigma0
  B2c : c.r2 = true → At u c.B2cOption c.B2c (n + 2) g.B2c
  B2s : c.r2 = true → At u c.B2sOption c.B2s (n + 3) g.B2s
  p2 : c.r2 = true → At u c.p2Option c.p2 (n + 4) g.p2
  modes : ModesAt u c n 0 c.modes g.modes

theorem ModesAt.next {u : Nat → ℝ} {c : Settings} {n j : Nat} {ms : List Mode}
    {gs : List ModeGens} (h : ModesAt u c n j ms gs) :
    ModesAt u c (n + 1) j ms (gs.map fun m =>
      { R0c := (get u m.R0c).2, R0s := (get u m.R0s).2
        Z0c := (get u m.Z0c).2, Z0s := (get u m.Z0s).2 }) := by
  induction h with
  | nil => exact .nil
  | cons h1 _ ih =>
    refine .cons ⟨?_, ?_, ?_, ?_⟩ ih
    · have := h1.R0c.next; rwa [show n + 4 + 1 = n + 1 + 4 by omega] at this
    · have := h1.R0s.next; rwa [show n + 5 + 1 = n + 1 + 5 by omega] at this
    · have := h1.Z0c.next; rwa [show n + 6 + 1 = n + 1 + 6 by omega] at this
    · have := h1.Z0s.next; rwa [show n + 7 + 1 = n + 1 + 7 by omega] at this

theorem ModesAt.values {u : Nat → ℝ} {c : Settings} {n j : Nat} {ms : List Mode}
    {gs : List ModeGens} (h : ModesAt u c n j ms gs) :
    gs.map (fun m => (get u m.R0c).1) = ((ms.zipIdx j).map fun p =>
        nth (if p.2 = 0 ∧ c.fourierOption = "2 sided log" then "log" else c.fourierOption)
          p.1.R0c (n + 4)) ∧
    gs.map (fun m => (get u m.R0s).1) = ms.map (fun m => nth c.fourierOption m.R0s (n + 5)) ∧
    gs.map (fun m => (get u m.Z0c).1) = ms.map (fun m => nth c.fourierOption m.Z0c (n + 6)) ∧
    gs.map (fun m => (get u m.Z0s).1) = ms.map (fun m => nth c.fourierOption m.Z0s (n + 7)) := by
  induction h with
  | nil => simp
  | cons h1 _ ih =>
    obtain ⟨i1, i2, i3, i4⟩ := ih
    simp only [List.map_cons, List.zipIdx_cons, i1, i2, i3, i4, h1.R0c.value, h1.R0s.value,
      h1.Z0c.value, h1.Z0s.value, and_self]

theorem GensAt.next {u : Nat → ℝ} {c : Settings} {n : Nat} {g : Gens} (h : GensAt u c n g) :
    GensAt u c (n + 1) (draw u c g).2 where
  etaBar := h.etaBar.next
  sigma0 := h.sigma0.next
  B2c hr := by simpa [draw, hr] using (h.B2c hr).next
  B2s hr := by simpa [draw, hr] using (h.B2s hr).next
  p2 hr := by simpa [draw, hr] using (h.p2 hr).next
  modes := h.modes.next

theorem GensAt.value {u : Nat → ℝ} {c : Settings} {n : Nat} {g : Gens} (h : GensAt u c n g) :
    (draw u c g).1 = global c n := by
  obtain ⟨i1, i2, i3, i4⟩ := h.modes.values
  unfold draw global
  dsimp only
  rw [i1, i2, i3, i4, h.etaBar.value, h.sigma0.value]
  by_cases hr : c.r2 = true
  · simp only [hr, if_true, (h.B2c hr).value, (h.B2s hr).value, (h.p2 hr).value]
  · simp only [hr]
    rfl

theorem drawsFrom_eq {u : Nat → ℝ} {c : Settings} (k n : Nat) {g : Gens} (h : GensAt u c n g) :
    drawsFrom u c k g = (List.range k).map fun i => global c (n + i) := by
  induction k generalizing n g with
  | zero => rfl
  | succ k ih =>
    rw [drawsFrom, h.value, ih (n + 1) h.next, List.range_succ_eq_map]
    simp [Function.comp_def, Nat.add_comm, Nat.add_left_comm]

theorem ok_bind {α β ε : Type} {x : Except ε α} {f : α → Except ε β} {b : β}
    (h : (x >>= f) = .ok b) : ∃ a, x = .ok a ∧ f a = .ok b := by
  cases x with
  | error e => cases h
  | ok a => exact ⟨a, rfl, h⟩

theorem allModes_at {l0 : ℝ} {u : Nat → ℝ} {c : Settings} (hd : c.deterministic = true)
    {rank A : Nat} (hA : c.attempts = A) (ms : List Mode) :
    ∀ (j : Nat) (gs : List ModeGens), allModes l0 u c rank j ms = .ok gs →
      ModesAt u c (rank * A) j ms gs := by
  induction ms with
  | nil =>
    intro j gs h
    simp only [allModes, Except.ok.injEq] at h
    subst h
    exact .nil
  | cons m ms ih =>
    intro j gs h
    rw [allModes] at h
    obtain ⟨g, h1, h⟩ := ok_bind h
    obtain ⟨gs', h2, h⟩ := ok_bind h
    obtain rfl : g :: gs' = gs := by injection h
    refine .cons ?_ (ih _ _ h2)
    unfold modeGens at h1
    rw [hd, hA] at h1
    obtain ⟨a, ha, h1⟩ := ok_bind h1
    obtain ⟨b, hb, h1⟩ := ok_bind h1
    obtain ⟨d, hd', h1⟩ := ok_bind h1
    obtain ⟨e, he, h1⟩ := ok_bind h1
    injection h1 with h1
    subst h1
    exact ⟨.ofInt ha (by push_cast; ring), .ofInt hb (by push_cast; ring),
      .ofInt hd' (by push_cast; ring), .ofInt he (by push_cast; ring)⟩

theorem start_at {l0 : ℝ} {u : Nat → ℝ} {c : Settings} (hd : c.deterministic = true)
    {rank A : Nat} (hA : c.attempts = A) {g : Gens} (h : start l0 u c rank = .ok g) :
    GensAt u c (rank * A) g := by
  unfold start at h
  rw [hd, hA] at h
  obtain ⟨a, h1, h⟩ := ok_bind h
  obtain ⟨b, h2, h⟩ := ok_bind h
  obtain ⟨d, h3, h⟩ := ok_bind h
  obtain ⟨e, h4, h⟩ := ok_bind h
  obtain ⟨f, h5, h⟩ := ok_bind h
  obtain ⟨ms, h6, h⟩ := ok_bind h
  injection h with h
  subst h
  exact ⟨.ofInt h1 (by push_cast; ring), .ofInt h2 (by push_cast; ring),
    fun _ => .ofInt h3 (by push_cast; ring), fun _ => .ofInt h4 (by push_cast; ring),
    fun _ => .ofInt h5 (by push_cast; ring), allModes_at hd hA c.modes 0 ms h6⟩

theorem flatMap_range_split {α : Type} (f : Nat → α) (P A : Nat) :
    (List.range P).flatMap (fun r => (List.range A).map fun i => f (r * A + i))
      = (List.range (P * A)).map f := by
  induction P with
  | zero => simp
  | succ P ih =>
    rw [List.range_succ, List.flatMap_append, ih, Nat.succ_mul, List.range_add, List.map_append]
    simp [Function.comp_def]

/-! ## C15 -/

/-- **C15.** If the scan starts, then in deterministic mode the inputs tried by `P` processes
with `A` attempts each, taken in rank order, are the inputs of global attempts
`0, 1, ..., P*A-1`; hence they do not depend on how `P*A` is factored. -/
theorem deterministic_split {l0 : ℝ} {u : Nat → ℝ} {c : Settings} (hd : c.deterministic = true)
    (A : Nat) (hA : c.attempts = A) (P : Nat) (ds : Nat → List Drawn)
    (hds : ∀ r < P, processDraws l0 u c r A = .ok (ds r)) :
    (List.range P).flatMap ds = (List.range (P * A)).map (global c) := by
  rw [← flatMap_range_split]
  refine List.flatMap_congr fun r hr => ?_
  obtain ⟨g, h1, h2⟩ := ok_bind (hds r (List.mem_range.mp hr))
  injection h2 with h2
  rw [← h2, drawsFrom_eq A (r * A) (start_at hd hA h1)]

/-- Whether the scan starts does not depend on the rank or on the attempt limit. -/
theorem start_ok_iff (l0 : ℝ) (u : Nat → ℝ) (c : Settings) (rank : Nat) :
    (∃ g, start l0 u c rank = .ok g) ↔
      Acceptable c.etaBarOption c.etaBar.min c.etaBar.max ∧
      Acceptable c.sigma0Option c.sigma0.min c.sigma0.max ∧
      Acceptable c.B2cOption c.B2c.min c.B2c.max ∧
      Acceptable c.B2sOption c.B2s.min c.B2s.max ∧
      Acceptable c.p2Option c.p2.min c.p2.max ∧
      ∀ j m, c.modes[j]? = some m →
        Acceptable (if j = 0 ∧ c.fourierOption = "2 sided log" then "log" else c.fourierOption)
          m.R0c.min m.R0c.max ∧
        Acceptable c.fourierOption m.R0s.min m.R0s.max ∧
        Acceptable c.fourierOption m.Z0c.min m.Z0c.max ∧
        Acceptable c.fourierOption m.Z0s.min m.Z0s.max := by
  have hmode : ∀ j m, (∃ g, modeGens l0 u c rank j m = .ok g) ↔
        Acceptable (if j = 0 ∧ c.fourierOption = "2 sided log" then "log" else c.fourierOption)
          m.R0c.min m.R0c.max ∧
        Acceptable c.fourierOption m.R0s.min m.R0s.max ∧
        Acceptable c.fourierOption m.Z0c.min m.Z0c.max ∧
        Acceptable c.fourierOption m.Z0s.min m.Z0s.max := by
    intro j m
    rw [← acceptable_iff l0 c.deterministic, ← acceptable_iff l0 c.deterministic,
      ← acceptable_iff l0 c.deterministic, ← acceptable_iff l0 c.deterministic]
    unfold modeGens
    constructor
    · rintro ⟨g, h⟩
      obtain ⟨a, ha, h⟩ := ok_bind h
      obtain ⟨b, hb, h⟩ := ok_bind h
      obtain ⟨d, hd', h⟩ := ok_bind h
      obtain ⟨e, he, h⟩ := ok_bind h
      exact ⟨⟨a, ha⟩, ⟨b, hb⟩, ⟨d, hd'⟩, ⟨e, he⟩⟩
    · rintro ⟨⟨a, ha⟩, ⟨b, hb⟩, ⟨d, hd'⟩, ⟨e, he⟩⟩
      rw [ha, hb, hd', he]
      exact ⟨_, rfl⟩
  have hmodes : ∀ (ms : List Mode) (k : Nat), (∃ gs, allModes l0 u c rank k ms = .ok gs) ↔
      ∀ j m, ms[j]? = some m → ∃ g, modeGens l0 u c rank (k + j) m = .ok g := by
    intro ms
    induction ms with
    | nil => intro k; simp [allModes]
    | cons m ms ih =>
      intro k
      rw [allModes]
      constructor
      · rintro ⟨gs, h⟩
        obtain ⟨g, h1, h⟩ := ok_bind h
        obtain ⟨gs', h2, h⟩ := ok_bind h
        intro j m' hj
        cases j with
        | zero => simp at hj; subst hj; exact ⟨g, h1⟩
        | succ j =>
          have := (ih (k + 1)).mp ⟨gs', h2⟩ j m' (by simpa using hj)
          rwa [show k + 1 + j = k + (j + 1) by omega] at this
      · intro h
        obtain ⟨g, h1⟩ := h 0 m (by simp)
        obtain ⟨gs, h2⟩ := (ih (k + 1)).mpr (fun j m' hj => by
          have := h (j + 1) m' (by simpa using hj)
          rwa [show k + (j + 1) = k + 1 + j by omega] at this)
        rw [show k + 0 = k from rfl] at h1
        rw [h1, h2]
        exact ⟨_, rfl⟩
  have hm' : (∃ gs, allModes l0 u c rank 0 c.modes = .ok gs) ↔
      ∀ j m, c.modes[j]? = some m →
        Acceptable (if j = 0 ∧ c.fourierOption = "2 sided log" then "log" else c.fourierOption)
          m.R0c.min m.R0c.max ∧
        Acceptable c.fourierOption m.R0s.min m.R0s.max ∧
        Acceptable c.fourierOption m.Z0c.min m.Z0c.max ∧
        Acceptable c.fourierOption m.Z0s.min m.Z0s.max := by
    rw [hmodes]
    refine forall_congr' fun j => forall_congr' fun m => imp_congr_right fun _ => ?_
    rw [Nat.zero_add]
    exact hmode j m
  rw [← hm', ← acceptable_iff l0 c.deterministic, ← acceptable_iff l0 c.deterministic,
    ← acceptable_iff l0 c.deterministic, ← acceptable_iff l0 c.deterministic,
    ← acceptable_iff l0 c.deterministic]
  unfold start
  constructor
  · rintro ⟨g, h⟩
    obtain ⟨a, h1, h⟩ := ok_bind h
    obtain ⟨b, h2, h⟩ := ok_bind h
    obtain ⟨d, h3, h⟩ := ok_bind h
    obtain ⟨e, h4, h⟩ := ok_bind h
    obtain ⟨f, h5, h⟩ := ok_bind h
    obtain ⟨ms, h6, h⟩ := ok_bind h
    exact ⟨⟨a, h1⟩, ⟨b, h2⟩, ⟨d, h3⟩, ⟨e, h4⟩, ⟨f, h5⟩, ⟨ms, h6⟩⟩
  · rintro ⟨⟨a, h1⟩, ⟨b, h2⟩, ⟨d, h3⟩, ⟨e, h4⟩, ⟨f, h5⟩, ⟨ms, h6⟩⟩
    rw [h1, h2, h3, h4, h5, h6]
    exact ⟨_, rfl⟩

/-- A scan of eta bar (linear) and two axis modes ("2 sided log"), with degenerate rest. -/
noncomputable def exSettings : Settings where
  deterministic := true
  etaBarOption := "linear"
  etaBar := ⟨1 / 2, 2⟩
  sigma0Option := "linear"
  sigma0 := ⟨0, 0⟩
  B2cOption := "linear"
  B2c := ⟨-1, 1⟩
  B2sOption := "log"
  B2s := ⟨-2, -1⟩
  p2Option := "linear"
  p2 := ⟨0, 0⟩
  fourierOption := "2 sided log"
  modes := [⟨⟨1, 1⟩, ⟨0, 0⟩, ⟨0, 0⟩, ⟨0, 0⟩⟩, ⟨⟨1 / 100, 1⟩, ⟨0, 0⟩, ⟨0, 0⟩, ⟨1 / 100, 1⟩⟩]
  attempts := 10
  r2 := true
  oldB2c := 0
  oldB2s := 0
  oldP2 := 0

/-- Non-vacuity: the example scan starts on every rank. -/
example (l0 : ℝ) (u : Nat → ℝ) (rank : Nat) : ∃ g, start l0 u exSettings rank = .ok g := by
  rw [start_ok_iff]
  refine ⟨.inl rfl, .inl rfl, .inl rfl, .inr (.inl ⟨rfl, .inr (.inl ?_)⟩), .inl rfl, ?_⟩
  · norm_num [exSettings]
  · intro j m hj
    match j with
    | 0 =>
      simp only [exSettings, List.getElem?_cons_zero, Option.some.injEq] at hj
      subst hj
      simp [exSettings, Acceptable]
    | 1 =>
      simp only [exSettings, List.getElem?_cons_succ, List.getElem?_cons_zero,
        Option.some.injEq] at hj
      subst hj
      simp [exSettings, Acceptable]
    | j + 2 => simp [exSettings] at hj

/-! ## End to end: what is saved -/

open Qsc.Scan Qsc.Spec.Scan

/-- While the clock never says stop and neither limit is hit, every pass attempts. -/
theorem run_attempts {F : Type} (o : Ops F) (cfg : Cfg F) (env : List (Step F))
    (htime : ∀ e ∈ env, e.timeUp = false) (hk : (env.length : Int) ≤ cfg.maxKeep)
    (hk1 : 1 ≤ cfg.maxKeep)
    (hlim : 0 < cfg.maxAttempts → (env.length : Int) ≤ cfg.maxAttempts) :
    (run o cfg env).filters .attempts = env.length := by
  have key : ∀ env : List (Step F), (∀ e ∈ env, e.timeUp = false) →
      (env.length : Int) ≤ cfg.maxKeep →
      (0 < cfg.maxAttempts → (env.length : Int) ≤ cfg.maxAttempts) →
      (run o cfg env).filters .attempts = env.length ∧
        ((env.length : Int) < cfg.maxKeep → (run o cfg env).status = .running) := by
    intro env
    induction env using List.reverseRecOn with
    | nil => intro _ _ _; exact ⟨rfl, fun _ => rfl⟩
    | append_singleton env e ih =>
      intro ht hk hl
      simp only [List.length_append, List.length_cons, List.length_nil] at hk hl
      obtain ⟨i1, i2⟩ := ih (fun x hx => ht x (by simp [hx])) (by omega) (fun h => by
        have := hl h; omega)
      have hrun := i2 (by push_cast at hk; omega)
      obtain ⟨s1, s2⟩ := scan_stops_iff o cfg hk1 env e hrun
      have hnl : ¬ (0 < cfg.maxAttempts ∧
          cfg.maxAttempts ≤ ((run o cfg env).filters .attempts : Int)) := by
        rintro ⟨a, b⟩
        have := hl a
        rw [i1] at b
        push_cast at this
        omega
      rw [if_neg hnl, i1] at s2
      refine ⟨by rw [s2]; simp, fun hlt => ?_⟩
      have hub := (scan_within_limits o cfg hk1 (env ++ [e])).1
      have hj : ((run o cfg (env ++ [e])).jScan : Int) ≤ (env.length + 1 : Nat) := by
        have := (inv_run o cfg hk1 (env ++ [e])).saved
        rw [this, s2]
        have h3 := List.length_filter_le (Passes o cfg) (firstCands (env ++ [e]) (env.length + 1))
        have h4 : (firstCands (env ++ [e]) (env.length + 1)).length ≤ env.length + 1 := by
          unfold firstCands; simp
        exact_mod_cast h3.trans h4
      have hnf : (run o cfg (env ++ [e])).status ≠ .finished := by
        intro hf
        rcases s1.mp hf with h | h | h
        · exact hnl h
        · rw [ht e (by simp)] at h; cases h
        · simp only [List.length_append, List.length_cons, List.length_nil] at hlt
          omega
      cases hs : (run o cfg (env ++ [e])).status
      · rfl
      · exact absurd hs hnf
      · exact absurd hs hub
  exact (key env htime hk hlim).1

/-- **C15 (end to end).** Let `phys` be any computation of a candidate from its inputs.  In a
deterministic scan in which no process is stopped by the clock and the result arrays are large
enough, the columns saved by `P` processes with `A` attempts each, concatenated in rank order,
are those of the passing candidates among global attempts `0 .. P*A-1`, in order; in particular
they equal the columns saved by one process making `P*A` attempts. -/
theorem deterministic_results {l0 : ℝ} {u : Nat → ℝ} {c : Settings} {F : Type} (o : Ops F)
    (phys : Drawn → Cand F)
    (hd : c.deterministic = true) (A P : Nat) (hA : c.attempts = A) (hA1 : 1 ≤ A)
    (cfg : Cfg F) (hcfg : cfg.maxAttempts = A) (hkeep : (A : Int) ≤ cfg.maxKeep)
    (ds : Nat → List Drawn) (hds : ∀ r < P, processDraws l0 u c r A = .ok (ds r))
    (checkpoint : Nat → Drawn → Bool) :
    (List.range P).flatMap (fun r =>
        (run o cfg ((ds r).map fun d => ⟨false, checkpoint r d, phys d⟩)).cols.filterMap id)
      = (((List.range (P * A)).map fun n => phys (global c n)).filter (Passes o cfg)).map
          Cand.column := by
  have h1 : ∀ r < P, (run o cfg ((ds r).map fun d => ⟨false, checkpoint r d, phys d⟩)).cols.filterMap id
      = (((ds r).map phys).filter (Passes o cfg)).map Cand.column := by
    intro r hr
    obtain ⟨n, hn, _, hcols, _⟩ := scan_saves_exactly o cfg (by omega)
      ((ds r).map fun d => ⟨false, checkpoint r d, phys d⟩)
    have hlen : (ds r).length = A := by
      obtain ⟨g, h1, h2⟩ := ok_bind (hds r hr)
      injection h2 with h2
      rw [← h2, drawsFrom_eq A (r * A) (start_at hd hA h1)]
      simp
    rw [run_attempts o cfg _ (by simp) (by simpa [hlen] using hkeep) (by omega)
      (by intro _; rw [hcfg]; simp [hlen])] at hn
    rw [hcols, hn, List.take_length, List.map_map]
    rfl
  rw [List.flatMap_congr (fun r hr => h1 r (List.mem_range.mp hr)), ← List.map_flatMap,
    ← List.filter_flatMap, ← List.map_flatMap, deterministic_split hd A hA P ds hds, List.map_map]
  rfl

/-- **C15 (what goes wrong without an attempt limit).** `max_attempts_per_proc` defaults to -1
(scan.cpp 26), meaning no limit.  Then the start position `-rank` is negative, the positioning
loop is empty, and in deterministic mode every process draws the very same values of eta bar:
a deterministic scan without an attempt limit repeats its work on every process. -/
theorem deterministic_no_limit {l0 : ℝ} {u : Nat → ℝ} {c : Settings}
    (hA : c.attempts = -1) (rank : Nat) {g g0 : Gens}
    (hg : start l0 u c rank = .ok g) (h0 : start l0 u c 0 = .ok g0) :
    g.etaBar = g0.etaBar := by
  unfold start at hg h0
  rw [hA] at hg h0
  obtain ⟨a, h1, hg⟩ := ok_bind hg
  obtain ⟨_, _, hg⟩ := ok_bind hg
  obtain ⟨_, _, hg⟩ := ok_bind hg
  obtain ⟨_, _, hg⟩ := ok_bind hg
  obtain ⟨_, _, hg⟩ := ok_bind hg
  obtain ⟨_, _, hg⟩ := ok_bind hg
  obtain ⟨a', h1', h0⟩ := ok_bind h0
  obtain ⟨_, _, h0⟩ := ok_bind h0
  obtain ⟨_, _, h0⟩ := ok_bind h0
  obtain ⟨_, _, h0⟩ := ok_bind h0
  obtain ⟨_, _, h0⟩ := ok_bind h0
  obtain ⟨_, _, h0⟩ := ok_bind h0
  rw [h1] at h1'
  injection h1' with h1'
  subst h1'
  injection hg with hg
  injection h0 with h0
  subst hg h0
  unfold setToNth
  rw [show ((rank : Int) * -1 + 0).toNat = 0 by omega,
    show (((0 : Nat) : Int) * -1 + 0).toNat = 0 by omega]

end Qsc.ScanDraws
