import Verif.Lemmas.Reversal
import Verif.Lemmas.NetcdfMap
import Verif.Lemmas.OptReversal
import Verif.Lemmas.ScanRunFile

/-!
# Lemmas on a random scan with the opposite field
-/

namespace Qsc.ScanReversal
open Qsc.Netcdf Qsc.Toml Qsc.ScanRun Qsc.Reversal Qsc.Spec.Reversal Qsc.Spec.ScanReversal
open Qsc.Scan (Cand Local bump save)
open Qsc.ScanDraws (Drawn)

/-! ## One attempt -/

/-- The members with the opposite field. -/
noncomputable def revM (m : Members) : Members := { m with axis := m.axis.map revAxis }

/-- What a process holds, with the opposite field. -/
noncomputable def revX (x : Local ℝ × Members) : Local ℝ × Members := (x.1, revM x.2)

/-- The attempts with the opposite field. -/
def revE (e : Env) (q' : QscIn ℝ) : Env := { e with q := q' }

theorem inputRel_draw {q q' : QscIn ℝ} (h : InputRel q q') (d : Drawn) (n : Nat) :
    InputRel (atDraw q d n) (atDraw q' d n) := by
  have hn := h.nfp
  refine ⟨?_, h.nfp, h.sG, h.spsi, h.B0, rfl, rfl, h.I2, rfl, rfl, rfl, h.tol, h.N, h.M, rfl, h.order⟩
  simp only [Single.coeffs, atDraw, hn]

theorem beyond_rev {e : Env} (ho : e.L.ops = Qsc.realOps) (q' : QscIn ℝ) (i : R2.In ℝ) (a : Axis.Axis ℝ) (s : Local ℝ)
    (m : Members) : beyond (revE e q') (revIn i) (revAxis a) s (revM m) = (beyond e i a s m).map revX := by
  unfold beyond
  rw [matrix_rev, rhs_rev, show (revIn i).cfg.nphi = i.cfg.nphi from rfl, show (revE e q').L = e.L from rfl,
    show (revM m).matrix = m.matrix from rfl, show (revE e q').cfg = e.cfg from rfl,
    show (revE e q').left = e.left from rfl, show (revE e q').n = e.n from rfl]
  dsimp only
  cases e.L.gesv (2 * i.cfg.nphi) (R2.matrix i m.matrix) (R2.rhs i) with
  | none => rfl
  | some x =>
    simp only [ho, finish_rev, mercier_rev, minLgradGradB_rev, sing_rev]
    rw [show (revAxis a).dPhi = a.dPhi from rfl, show (revAxis a).axisLength = a.axisLength from rfl,
      show (revM m).cand = m.cand from rfl]
    split
    · rfl
    · split
      · rfl
      · split
        · rfl
        · split
          · rfl
          · cases RSing.calculate Qsc.realOps (if e.L.single then RSing.tolSingle else RSing.tolDouble) e.L.geev i
              (R2.finish Qsc.realOps i x) with
            | error msg => rfl
            | ok sing =>
              dsimp only
              split
              · rfl
              · split <;> rfl

theorem first_rev {e : Env} (ho : e.L.ops = Qsc.realOps) {q' : QscIn ℝ} (h : InputRel e.q q') (d : Drawn)
    (a : Axis.Axis ℝ) (s : Local ℝ) (m : Members) :
    first (revE e q') d (revAxis a) s (revM m) = (first e d a s m).map revX := by
  have I := inputRel_draw h d e.n
  unfold first
  rw [show (revE e q').L = e.L from rfl, show (revE e q').cfg = e.cfg from rfl, show (revE e q').n = e.n from rfl,
    show (revE e q').q = q' from rfl]
  have hc : R1.Cfg.ofAxis (revAxis a) e.n (atDraw q' d e.n).nfp.toNat (atDraw q' d e.n).sG (atDraw q' d e.n).spsi
      (atDraw q' d e.n).eta_bar (atDraw q' d e.n).sigma0 (atDraw q' d e.n).I2 (atDraw q' d e.n).B0
      = revCfg (R1.Cfg.ofAxis a e.n (atDraw e.q d e.n).nfp.toNat (atDraw e.q d e.n).sG (atDraw e.q d e.n).spsi
        (atDraw e.q d e.n).eta_bar (atDraw e.q d e.n).sigma0 (atDraw e.q d e.n).I2 (atDraw e.q d e.n).B0) := by
    simp only [R1.Cfg.ofAxis, revCfg, revAxis, I.nfp, I.sG, I.spsi, I.etaBar, I.sigma0, I.I2, I.B0]
  simp only [hc, newtonThrows_rev ho, I.tol, I.N, I.M, I.p2, I.B2s, I.B2c, ho, solveSigma_rev, diagnostics_rev]
  generalize R1.Cfg.ofAxis a e.n (atDraw e.q d e.n).nfp.toNat (atDraw e.q d e.n).sG (atDraw e.q d e.n).spsi
    (atDraw e.q d e.n).eta_bar (atDraw e.q d e.n).sigma0 (atDraw e.q d e.n).I2 (atDraw e.q d e.n).B0 = p
  cases Single.newtonThrows e.L p (atDraw e.q d e.n).newton_tolerance (atDraw e.q d e.n).max_newton_iterations
    (atDraw e.q d e.n).max_linesearch_iterations with
  | true => rfl
  | false =>
    simp only [Bool.false_eq_true, if_false]
    rcases R1.solveSigma Qsc.realOps p (Single.newtonSolve e.L e.n) (atDraw e.q d e.n).newton_tolerance
      (atDraw e.q d e.n).max_newton_iterations (atDraw e.q d e.n).max_linesearch_iterations with ⟨x, st⟩
    cases st with
    | none => rfl
    | some st =>
      have hf : ∀ (r : R1.R1 ℝ) (c : Cand ℝ), setFirst Qsc.realOps (revCfg p) st r c = setFirst Qsc.realOps p st r c := by
        intro r c
        simp only [setFirst, minLgradB_rev]
      have hi : ∀ r, R2.In.of (revAxis a) (revCfg p) st r (Single.mu0 Qsc.realOps) (atDraw e.q d e.n).p2
          (atDraw e.q d e.n).B2s (atDraw e.q d e.n).B2c
          = revIn (R2.In.of a p st r (Single.mu0 Qsc.realOps) (atDraw e.q d e.n).p2 (atDraw e.q d e.n).B2s
            (atDraw e.q d e.n).B2c) := fun _ => rfl
      simp only [hf, hi]
      rw [show (revM m).cand = m.cand from rfl]
      split
      · rfl
      · split
        · rfl
        · split
          · rfl
          · split
            · exact beyond_rev ho q' _ a _ { m with cand := _ }
            · rfl

theorem attempt_rev {e : Env} (ho : e.L.ops = Qsc.realOps) {q' : QscIn ℝ} (h : InputRel e.q q') (d : Drawn)
    (s : Local ℝ) (m : Members) :
    attempt (revE e q') d s (revM m) = (attempt e d s m).map revX := by
  have I := inputRel_draw h d e.n
  unfold attempt
  rw [show (revE e q').L = e.L from rfl, show (revE e q').cfg = e.cfg from rfl, show (revE e q').n = e.n from rfl,
    show (revE e q').q = q' from rfl, show (revM m).cand = m.cand from rfl]
  dsimp only
  split
  · rfl
  · rw [I.coeffs, I.sG, I.spsi, I.B0, ho, initAxis_rev]
    cases Axis.initAxis Qsc.realOps (Single.coeffs (atDraw e.q d e.n)) e.n (atDraw e.q d e.n).sG (atDraw e.q d e.n).spsi
      (atDraw e.q d e.n).B0 with
    | error x => rfl
    | ok a =>
      have hs : ∀ c, setAxis (revAxis a) c = setAxis a c := fun _ => rfl
      simp only [Except.map, hs]
      split
      · rfl
      · split
        · rfl
        · split
          · rfl
          · exact first_rev ho h d a _ ⟨_, m.matrix, some a⟩

/-! ## The loop -/

/-- The loop with the opposite field. -/
noncomputable def revS (t : State) : State := ⟨t.loc, revM t.mem, t.snaps.map revX⟩

theorem iter_rev {e : Env} (ho : e.L.ops = Qsc.realOps) {q' : QscIn ℝ} (h : InputRel e.q q') (t : State)
    (x : (Bool × Bool) × Drawn) : iter (revE e q') (revS t) x = (iter e t x).map revS := by
  unfold iter
  rw [show (revS t).loc = t.loc from rfl, show (revS t).mem = revM t.mem from rfl,
    show (revS t).snaps = t.snaps.map revX from rfl, show (revE e q').cfg = e.cfg from rfl]
  by_cases hr : t.loc.status = .running
  · rw [if_pos hr, if_pos hr]
    dsimp only
    have hsn : ∀ s : Local ℝ, (if x.1.2 = true then t.snaps.map revX ++ [(s, revM t.mem)] else t.snaps.map revX)
        = (if x.1.2 = true then t.snaps ++ [(s, t.mem)] else t.snaps).map revX := by
      intro s
      split
      · rw [List.map_append]; rfl
      · rfl
    rw [hsn]
    generalize (if x.1.2 = true then { t.loc with checkpoints := t.loc.checkpoints ++ [t.loc.jScan] } else t.loc) = s
    split
    · rfl
    · rw [attempt_rev ho h]
      cases attempt e x.2 s t.mem with
      | error er => rfl
      | ok y =>
        simp only [Except.map, revX]
        split <;> rfl
  · rw [if_neg hr, if_neg hr]
    rfl

theorem loop_rev {e : Env} (ho : e.L.ops = Qsc.realOps) {q' : QscIn ℝ} (h : InputRel e.q q') (c0 : Cand ℝ)
    (l : List ((Bool × Bool) × Drawn)) : loop (revE e q') (members0 c0) l = (loop e (members0 c0) l).map revS := by
  have key : ∀ (l : List ((Bool × Bool) × Drawn)) (t : State),
      l.foldlM (iter (revE e q')) (revS t) = (l.foldlM (iter e) t).map revS := by
    intro l
    induction l with
    | nil => intro t; rfl
    | cons x l ih =>
      intro t
      rw [List.foldlM_cons, List.foldlM_cons, iter_rev ho h]
      cases iter e t x with
      | error er => rfl
      | ok u => exact ih u
  exact key l ⟨Scan.init e.cfg, members0 c0, []⟩

/-! ## A process -/

theorem prepare_rev {r r' : Sections.ScanObj ℝ} (hm : r'.mem = r.mem) (h : InputRel r.q r'.q) (l0 : ℝ) (rank : Nat)
    (p : ScanPipeline.Proc) : ScanPipeline.prepare l0 r' rank p = ScanPipeline.prepare l0 r rank p := by
  have h1 : ScanPipeline.cfgOf r' = ScanPipeline.cfgOf r := by
    funext b
    simp only [ScanPipeline.cfgOf, hm]
  have h2 : ScanPipeline.settingsOf r' = ScanPipeline.settingsOf r := by
    simp only [ScanPipeline.settingsOf, hm, h.B2c, h.B2s, h.p2]
  simp only [ScanPipeline.prepare, h1, h2, h.order]

theorem process_rev {L : Single.Lib ℝ} (ho : L.ops = Qsc.realOps) {r r' : Sections.ScanObj ℝ} (hm : r'.mem = r.mem)
    (h : InputRel r.q r'.q) (left : (Nat → Nat → ℝ) → Nat → Nat → ℝ) (l0 : ℝ) (c0 : Cand ℝ) (rank : Nat)
    (p : ScanPipeline.Proc) :
    process L left l0 c0 r' rank p
      = (process L left l0 c0 r rank p).map fun x => (x.1, x.2.1, x.2.2.map revX) := by
  unfold process
  rw [prepare_rev hm h, h.nphi, h.nfp]
  cases ScanPipeline.prepare l0 r rank p with
  | error e => rfl
  | ok x =>
    obtain ⟨cfg, ord, l⟩ := x
    dsimp only
    split
    · rfl
    · split
      · rfl
      · rw [show (⟨L, left, r'.q, Setup.oddNphi r.q.nphi.toNat, cfg⟩ : Env)
          = revE ⟨L, left, r.q, Setup.oddNphi r.q.nphi.toNat, cfg⟩ r'.q from rfl, loop_rev (by exact ho) (by exact h)]
        cases loop ⟨L, left, r.q, Setup.oddNphi r.q.nphi.toNat, cfg⟩ (members0 c0) l with
        | error e => rfl
        | ok t =>
          simp only [Except.map]
          rw [show (revS t).loc = t.loc from rfl]
          cases t.loc.status with
          | running => rfl
          | ub => rfl
          | finished =>
            simp only [Except.ok.injEq, Prod.mk.injEq, true_and, List.map_append, List.map_cons, List.map_nil]
            rfl

theorem locals_rev {N : Nat} (w : World N) (i : Fin (N + 1)) (snaps : List (Local ℝ × Members)) :
    w.locals i (snaps.map revX) = w.locals i snaps := by
  unfold World.locals
  rw [List.zipIdx_map, List.map_map]
  rfl

/-! ## Objects with the opposite signs -/

/-- The object with the opposite signs if it is one of `A`. -/
noncomputable def turnObj (A : List String) (a : String) (d : Data ℝ) : Data ℝ := if a ∈ A then negate d else d

/-- The objects with the opposite signs. -/
noncomputable def turnList (A : List String) (l : List (String × Data ℝ)) : List (String × Data ℝ) :=
  l.map fun x => (x.1, turnObj A x.1 x.2)

theorem turnList_append (A : List String) (l l' : List (String × Data ℝ)) :
    turnList A (l ++ l') = turnList A l ++ turnList A l' := List.map_append

theorem turnList_same {A : List String} {l : List (String × Data ℝ)} (h : ∀ a ∈ l.map (·.1), a ∉ A) : turnList A l = l := by
  unfold turnList
  conv_rhs => rw [← List.map_id l]
  refine List.map_congr_left fun x hx => ?_
  rw [turnObj, if_neg (h x.1 (List.mem_map.2 ⟨x, hx, rfl⟩))]
  rfl

theorem assign_turn {A : List String} {m m' : Mem ℝ} (l : List (String × Data ℝ))
    (h : ∀ a, a ∉ l.map (·.1) → m' a = turnObj A a (m a)) (a : String) :
    Single.assign m' (turnList A l) a = turnObj A a (Single.assign m l a) := by
  induction l generalizing m m' with
  | nil => exact h a (by simp)
  | cons x l ih =>
    change Single.assign (Output.set m' x.1 (turnObj A x.1 x.2)) _ a
      = turnObj A a (Single.assign (Output.set m x.1 x.2) l a)
    refine ih fun b hb => ?_
    unfold Output.set
    by_cases hx : b = x.1
    · subst hx; simp
    · simp only [if_neg hx]
      exact h b (by simp only [List.map_cons, List.mem_cons, not_or]; exact ⟨hx, hb⟩)

theorem assign_turn_same {A : List String} (m0 : Mem ℝ) {l : List (String × Data ℝ)} (h : ∀ a ∈ A, a ∈ l.map (·.1))
    (a : String) : Single.assign m0 (turnList A l) a = turnObj A a (Single.assign m0 l a) :=
  assign_turn l (fun a ha => (if_neg fun hx => ha (h a hx)).symm) a

theorem set_turn {A : List String} {m m' : Mem ℝ} {b : String} {d : Data ℝ} (hb : b ∉ A)
    (h : ∀ a, m' a = turnObj A a (m a)) (a : String) : Output.set m' b d a = turnObj A a (Output.set m b d a) := by
  unfold Output.set
  by_cases hx : a = b
  · subst hx
    simp [turnObj, hb]
  · simp only [if_neg hx]
    exact h a

/-- Variables with signs of the field are written from objects in `A`, the others are not. -/
def signCall (A : List String) : Output.Call → Bool
  | .op (.dim ..) => true
  | .op (.big a ..) | .big a _ => decide (a ∉ signs)
  | .op (.int a b _ _) | .op (.flt a b _ _) | .op (.str a b _) | .op (.intVec _ a b _ _) | .op (.fltVec _ a b _ _)
  | .op (.nd _ a b _ _) => decide (a ∈ signs) == decide (b ∈ A)

theorem signCall_turns {A : List String} {m m' : Mem ℝ} (hm : ∀ a, m' a = turnObj A a (m a)) (val : String → Nat)
    {c : Output.Call} (h : signCall A c = true) : Turns m m' signs (c.toOp val) := by
  have key : ∀ a b : String, (decide (a ∈ signs) == decide (b ∈ A)) = true →
      m' b = if a ∈ signs then negate (m b) else m b := by
    intro a b h
    rw [hm b]
    unfold turnObj
    have e : a ∈ signs ↔ b ∈ A := by simpa using h
    simp only [e]
  cases c with
  | big a b => simpa [signCall, Output.Call.toOp, Turns] using h
  | op o =>
    cases o with
    | dim => trivial
    | big => simpa [signCall, Output.Call.toOp, Turns] using h
    | int => exact key _ _ h
    | flt => exact key _ _ h
    | str => exact key _ _ h
    | intVec => exact key _ _ h
    | fltVec => exact key _ _ h
    | nd => exact key _ _ h

theorem mapM_names {α β : Type} (F : α → Option β) (a : α → String) (G : β → Data ℝ) (l : List α) :
    ∀ s, (l.mapM fun x => (F x).map fun y => (a x, G y)) = some s → s.map (·.1) = l.map a := by
  induction l with
  | nil => intro s h; cases h; rfl
  | cons x l ih =>
    intro s h
    rw [List.mapM_cons] at h
    cases hx : F x with
    | none => rw [hx] at h; cases h
    | some y =>
      rw [hx] at h
      cases ht : (l.mapM fun x => (F x).map fun y => (a x, G y)) with
      | none => rw [ht] at h; cases h
      | some t =>
        rw [ht] at h
        cases h
        simp only [List.map_cons, ih t ht]

/-! ## The file -/

/-- The members that say which way the field points. -/
def signMembers : List String := ["q.sG", "q.spsi", "q.I2"]

theorem scan_signs : (Output.scanCalls true false).all (signCall signMembers) = true := by decide +kernel

theorem writeScan_turn (toF : Nat → ℝ) {o : Output.ScanObj ℝ} {m' : Mem ℝ} (hm : ∀ a, m' a = turnObj signMembers a (o.mem a)) :
    Output.writeScan toF { o with mem := m' } = (Output.writeScan toF o).map (turnFile signs) := by
  have h1 : m' "q.nphi" = o.mem "q.nphi" := by rw [hm]; exact if_neg (by decide +kernel)
  have h2 : m' "R0c_max" = o.mem "R0c_max" := by rw [hm]; exact if_neg (by decide +kernel)
  have hs : ∀ a, Output.scanScope { o with mem := m' } a = turnObj signMembers a (Output.scanScope o a) := by
    intro a
    unfold Output.scanScope
    exact set_turn (by decide +kernel) (set_turn (by decide +kernel) (set_turn (by decide +kernel)
      (set_turn (by decide +kernel) (set_turn (by decide +kernel) hm)))) a
  unfold Output.writeScan
  simp only [Output.intMember, Output.vectorSize, h1, h2]
  split
  · rfl
  · rfl
  · split
    · rfl
    · refine run_turn toF _ fun op hop => ?_
      rcases List.mem_append.1 hop with hop | hop
      · simp only [List.mem_cons, List.not_mem_nil, or_false] at hop
        rcases hop with rfl | rfl | rfl <;> trivial
      · obtain ⟨c, hc, rfl⟩ := List.mem_map.1 hop
        exact signCall_turns hs _ (List.all_eq_true.1 scan_signs c ((Output.scanCalls_sublist _ _).subset hc))

theorem qMembers_rev {q q' : QscIn ℝ} (h : InputRel q q') (n : Nat) (m : Members) (junk : ℝ) :
    qMembers q' n (revM m) junk = turnList signMembers (qMembers q n m junk) := by
  have e1 : (revM m).axis.elim junk (fun a => a.dPhi) = m.axis.elim junk fun a => a.dPhi := by
    cases hx : m.axis <;> simp only [revM, hx] <;> rfl
  have e2 : (revM m).axis.elim (fun _ => 0) (fun a => a.phi) = m.axis.elim (fun _ => (0 : ℝ)) fun a => a.phi := by
    cases hx : m.axis <;> simp only [revM, hx] <;> rfl
  have e3 : (revM m).cand = m.cand := rfl
  simp only [qMembers, e1, e2, e3, h.nfp, h.sG, h.spsi, h.N, h.M, h.tol, h.I2, h.B0, h.order, turnList, List.map_cons, List.map_nil]
  simp [turnObj, signMembers, negate]

theorem arrays_names {g : Collect.Gathered ℝ} {nm : Nat} {a : List (String × Data ℝ)} (h : arrays g nm = some a) :
    a.map (·.1) = Collect.unpackRows.map (·.1) ++ ["scan_helicity"] ++ Collect.unpackBlocks.map (·.1) := by
  unfold arrays at h
  obtain ⟨s, h1, h⟩ := Option.bind_eq_some_iff.1 h
  obtain ⟨t, h2, h⟩ := Option.bind_eq_some_iff.1 h
  obtain ⟨b, h3, h⟩ := Option.bind_eq_some_iff.1 h
  cases h
  rw [List.map_append, List.map_append, mapM_names _ _ _ _ s h1, mapM_names _ _ _ _ b h3]
  rfl

theorem sign_names : (∀ a ∈ settingNames, a ∉ signMembers) ∧
    (∀ a ∈ counterNames.map (fun x => "filter_fractions[" ++ x.1 ++ "]"), a ∉ signMembers) ∧
    (∀ a ∈ Collect.unpackRows.map (·.1) ++ ["scan_helicity"] ++ Collect.unpackBlocks.map (·.1), a ∉ signMembers) := by
  refine ⟨by decide +kernel, by decide +kernel, by decide +kernel⟩

theorem sign_members : ∀ a ∈ signMembers, a ∈ memberNames := by decide +kernel

theorem writeScan_members (toF : Nat → ℝ) (r2 keepAll det : Bool) (b : String → Nat) (m0 : Mem ℝ)
    (l : List (String × Data ℝ)) (h : ∀ a ∈ signMembers, a ∈ l.map (·.1)) :
    Output.writeScan toF ⟨r2, keepAll, det, b, Single.assign m0 (turnList signMembers l)⟩
      = (Output.writeScan toF ⟨r2, keepAll, det, b, Single.assign m0 l⟩).map (turnFile signs) :=
  writeScan_turn toF (o := ⟨r2, keepAll, det, b, Single.assign m0 l⟩)
    (assign_turn_same m0 h)

theorem qMembers_names (q : QscIn ℝ) (n : Nat) (m : Members) (junk : ℝ) :
    ∀ a ∈ signMembers, a ∈ (qMembers q n m junk).map (·.1) := by
  intro a ha
  simp only [signMembers, List.mem_cons, List.not_mem_nil, or_false] at ha
  rcases ha with rfl | rfl | rfl <;> simp [qMembers]

theorem members_rev {r r' : Sections.ScanObj ℝ} (h : InputRel r.q r'.q) (n : Nat) (junk : ℝ) {g : Collect.Gathered ℝ}
    (m : Members) {nm : Nat} {a : List (String × Data ℝ)} (ha : arrays g nm = some a) :
    settingNames.map (fun a => (a, dataOf (r.mem a))) ++ qMembers r'.q n (revM m) junk ++ fractions g ++ a
      = turnList signMembers
        (settingNames.map (fun a => (a, dataOf (r.mem a))) ++ qMembers r.q n m junk ++ fractions g ++ a) := by
  obtain ⟨n1, n2, n3⟩ := sign_names
  have e1 := turnList_same (A := signMembers) (l := a) (by rw [arrays_names ha]; exact n3)
  have e2 := turnList_same (A := signMembers) (l := fractions g) (by unfold fractions; rw [List.map_map]; exact n2)
  have e3 := turnList_same (A := signMembers) (l := settingNames.map (fun a => (a, dataOf (r.mem a)))) (by
    rw [List.map_map]
    intro a ha
    refine n1 a ?_
    obtain ⟨b, hb, rfl⟩ := List.mem_map.1 ha
    exact hb)
  rw [turnList_append, turnList_append, turnList_append, qMembers_rev h, e1, e2, e3]

theorem write_rev (toF : Nat → ℝ) {r r' : Sections.ScanObj ℝ} (hm : r'.mem = r.mem) (h : InputRel r.q r'.q) (n : Nat)
    (ord : Setup.Order) (m0 : Mem ℝ) (junk : ℝ) (g : Collect.Gathered ℝ) (m : Members) :
    write toF r' n ord m0 junk g (revM m) = (write toF r n ord m0 junk g m).map (turnFile signs) := by
  unfold write
  rw [hm]
  split
  · rename_i keepAll det l _ _ _
    cases ha : arrays g l.length with
    | none => rfl
    | some a =>
      dsimp only
      rw [members_rev h n junk m ha, writeScan_members toF _ _ _ _ _ _ (fun b hb => by
        rw [List.map_append, List.map_append, List.map_append]
        exact List.mem_append_left _ (List.mem_append_left _ (List.mem_append_right _ (qMembers_names _ _ _ _ b hb))))]
      generalize Output.writeScan toF _ = x
      cases x <;> rfl
  · rfl

end Qsc.ScanReversal
