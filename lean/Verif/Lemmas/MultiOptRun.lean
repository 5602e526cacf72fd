import Verif.Model.MultiOptRun
import Verif.Spec.MultiOptRun
import Verif.Props.OptRun
import Verif.Props.Pipeline

/-!
# Lemmas: the stages of a multi-stage optimization
-/

namespace Qsc.MultiOptRun
open Qsc.Netcdf Qsc.Toml Qsc.Single Qsc.OptState
open Qsc.OptRun (world Stage stage_of liftRun_ok natural targetsOf_typed)
open Qsc.Spec.OptRun Qsc.Spec.OptLoop Qsc.Spec.Pipeline Qsc.Spec.MultiOptRun

variable {L : Lib ℝ} {gsl : Nat → Nat → (p : Nat) → OptLoop.Gsl ℝ p} {m0 m1 : Nat → Mem ℝ} {q : QscIn ℝ}

/-- The stages from stage `j` on, from `c` on a grid of `n` points. -/
inductive Chain (L : Lib ℝ) (gsl : Nat → Nat → (p : Nat) → OptLoop.Gsl ℝ p) (q : QscIn ℝ) :
    Nat → List (Sections.OptObj ℝ) → Config ℝ → Int → List (OptLoop.St ℝ (Result ℝ)) → Prop
  | nil {j c n} : Chain L gsl q j [] c n []
  | cons {j o os c n e s st sts} (h1 : Pipeline.readyOpt (world L (gsl j) q) o = .ok (e, s))
      (h2 : Pipeline.runOpt e s q.order_r_option c n = .ok st)
      (h3 : Chain L gsl q (j + 1) os st.q st.nphi sts) : Chain L gsl q j (o :: os) c n (st :: sts)

theorem ebind_ok {ε α β : Type} {x : Except ε α} {g : α → Except ε β} {b : β} (h : x.bind g = .ok b) :
    ∃ a, x = .ok a ∧ g a = .ok b := by
  cases x with
  | error e => cases h
  | ok a => exact ⟨a, rfl, h⟩

theorem chain_some {j : Nat} {os : List (Sections.OptObj ℝ)} {c : Config ℝ} {n k : Nat}
    {r : List (OptLoop.St ℝ (Result ℝ)) × Nat}
    (h : Pipeline.runStages (fun j => world L (gsl j) q) j os (some ⟨c, n, q.order_r_option⟩) k = .ok r) :
    Chain L gsl q j os c n r.1 ∧ r.2 = k + (r.1.map (·.nEvals)).sum := by
  induction os generalizing j c n k r with
  | nil =>
    injection h with h
    subst h
    exact ⟨.nil, by simp⟩
  | cons o os ih =>
    rw [Pipeline.runStages] at h
    obtain ⟨⟨e, s⟩, h1, h⟩ := ebind_ok h
    obtain ⟨st, h2, h⟩ := ebind_ok h
    obtain ⟨r', h3, h⟩ := ebind_ok h
    injection h with h
    subst h
    obtain ⟨i1, i2⟩ := ih h3
    exact ⟨.cons h1 h2 i1, by simp [i2]; omega⟩

theorem chain_none {o : Sections.OptObj ℝ} {os : List (Sections.OptObj ℝ)} (hq : o.q = q)
    {r : List (OptLoop.St ℝ (Result ℝ)) × Nat}
    (h : Pipeline.runStages (fun j => world L (gsl j) q) 0 (o :: os) none 0 = .ok r) :
    Chain L gsl q 0 (o :: os) (Pipeline.configOf q) q.nphi r.1 ∧ r.2 = (r.1.map (·.nEvals)).sum := by
  subst hq
  rw [Pipeline.runStages] at h
  obtain ⟨⟨e, s⟩, h1, h⟩ := ebind_ok h
  obtain ⟨st, h2, h⟩ := ebind_ok h
  obtain ⟨r', h3, h⟩ := ebind_ok h
  injection h with h
  subst h
  obtain ⟨i1, i2⟩ := chain_some h3
  exact ⟨.cons h1 h2 i1, by simp [i2]⟩

/-- What is known about the settings of a stage that was read. -/
structure Readable (o : Sections.OptObj ℝ) : Prop where
  typed : Spec.Sections.Typed Spec.Sections.optDoc o.mem
  small : ∀ s, IsRaw o.mem s → s.refine < 2 ^ 31
  grids : ∀ s, IsRaw o.mem s → Natural s → s.nphis = [] ∨ s.nphis.length = s.refine.toNat + 1

theorem Readable.parts {o : Sections.OptObj ℝ} (h : Readable o) : ∃ s w t, Pipeline.rawOf o.mem = some s ∧
    Pipeline.weightsOf o.mem = some w ∧ OptRun.targetsOf o.mem = some t ∧ IsRaw o.mem s ∧ IsWeights o.mem w ∧
    IsTargets o.mem t ∧ ∀ W : Pipeline.World ℝ (Result ℝ), Pipeline.readyOpt W o = .ok (W.env w, s) := by
  obtain ⟨s, a1, a2⟩ := Pipeline.rawOf_typed h.typed
  obtain ⟨w, b1, b2⟩ := Pipeline.weightsOf_typed h.typed
  obtain ⟨t, c1, c2⟩ := targetsOf_typed h.typed
  exact ⟨s, w, t, a1, b1, c1, a2, b2, c2, fun W => by simp [Pipeline.readyOpt, a1, b1, Pipeline.member, Except.bind]⟩

/-- A stage and its file. -/
def IsStage (L : Lib ℝ) (gsl : Nat → Nat → (p : Nat) → OptLoop.Gsl ℝ p) (m0 m1 : Nat → Mem ℝ) (q : QscIn ℝ) (j : Nat)
    (o : Sections.OptObj ℝ) (c : Config ℝ) (n N : Nat) (st : OptLoop.St ℝ (Result ℝ)) (f : Netcdf.File ℝ) : Prop :=
  ∃ s w t, IsRaw o.mem s ∧ Stage L (gsl j) (m0 j) (m1 j) ⟨q, o.group, o.mem⟩ s w t c n N st f

theorem refineOf_raw {o : Sections.OptObj ℝ} {s : Pipeline.Raw} (h : IsRaw o.mem s) :
    Pipeline.refineOf o = s.refine.toNat := by
  simp [Pipeline.refineOf, h.refine]

theorem chain_stages (hd : L.single = false) (hnfp : 0 < q.nfp) {j : Nat} {os : List (Sections.OptObj ℝ)}
    {c : Config ℝ} {n : Int} {sts : List (OptLoop.St ℝ (Result ℝ))} (h : Chain L gsl q j os c n sts) :
    ∀ {N : Nat} {fs : List (Netcdf.File ℝ)}, (∀ o ∈ os, Readable o) → AllSize N c → 0 < N →
      writeStages L m0 m1 q j N os sts = .ok fs →
      (os ≠ [] → 0 ≤ n) ∧ sts.length = os.length ∧ fs.length = os.length ∧
      ∀ i o st f, os[i]? = some o → sts[i]? = some st → fs[i]? = some f → ∃ c0 n0,
        (i = 0 → c0 = c ∧ n0 = n.toNat) ∧ (∀ k st', i = k + 1 → sts[k]? = some st' → c0 = st'.q ∧ n0 = st'.nphi) ∧
        AllSize (N + ((os.take i).map Pipeline.refineOf).sum) c0 ∧
        IsStage L gsl m0 m1 q (j + i) o c0 n0 (N + ((os.take i).map Pipeline.refineOf).sum) st f := by
  induction h with
  | nil =>
    intro N fs _ _ _ hw
    rw [writeStages] at hw
    · injection hw with hw
      subst hw
      simp
    · simp
  | @cons j o os c n e s st sts h1 h2 h3 ih =>
    intro N fs ho hc hN hw
    obtain ⟨s', w, t, a1, a2, a3, a4, a5, a6, a7⟩ := (ho o (by simp)).parts
    rw [a7] at h1
    injection h1 with h1
    injection h1 with e1 e2
    subst e1 e2
    obtain ⟨z1, z2⟩ := natural (K := ℝ) ((ho o (by simp)).small _ a4) h2
    have hnp := (ho o (by simp)).grids _ a4 z2
    rw [Pipeline.runOpt_eq _ _ z2 _ _ _ z1] at h2
    have h2' := liftRun_ok h2
    rw [writeStages, a1, a2, a3] at hw
    dsimp only at hw
    split at hw
    · cases hw
    · rename_i h0
      split at hw
      · cases hw
      · rename_i f hf
        split at hw
        · cases hw
        · rename_i fs' hfs
          injection hw with hw
          subst hw
          have S : Stage L (gsl j) (m0 j) (m1 j) ⟨q, o.group, o.mem⟩ s' w t c n.toNat N st f :=
            stage_of (o := ⟨q, o.group, o.mem⟩) a5 a6 hnfp hd z2 hc hN hnp h2' h0 hf
          have hs : AllSize (N + s'.refine.toNat) st.q := S.out.size
          rw [hs.R0c] at hfs
          obtain ⟨-, i1, i2, i3⟩ := ih (fun o' h => ho o' (by simp [h])) hs (by omega) hfs
          refine ⟨fun _ => z1, by simp [i1], by simp [i2], fun i o' st' f' b1 b2 b3 => ?_⟩
          cases i with
          | zero =>
            obtain rfl : o = o' := by simpa using b1
            obtain rfl : st = st' := by simpa using b2
            obtain rfl : f = f' := by simpa using b3
            exact ⟨c, n.toNat, fun _ => ⟨rfl, rfl⟩, fun k _ h => by omega, by simpa using hc, s', w, t, a4,
              by simpa using S⟩
          | succ i =>
            obtain ⟨c0, n0, d1, d2, d3, d4⟩ := i3 i o' st' f' (by simpa using b1) (by simpa using b2) (by simpa using b3)
            have hsum : N + s'.refine.toNat + ((os.take i).map Pipeline.refineOf).sum =
                N + (((o :: os).take (i + 1)).map Pipeline.refineOf).sum := by
              rw [List.take_succ_cons, List.map_cons, List.sum_cons, refineOf_raw a4]
              omega
            rw [hsum] at d3 d4
            rw [show j + 1 + i = j + (i + 1) by omega] at d4
            refine ⟨c0, n0, fun h => by omega, fun k x hk hx => ?_, d3, d4⟩
            cases k with
            | zero =>
              obtain rfl : i = 0 := by omega
              obtain rfl : st = x := by simpa using hx
              obtain ⟨y1, y2⟩ := d1 rfl
              exact ⟨y1, by simpa using y2⟩
            | succ k => exact d2 k x (by omega) (by simpa using hx)

/-! ## How the stages end -/

theorem gridBefore_cons {n m : Nat} {s : Pipeline.Raw} {ss : List Pipeline.Raw} {k i x : Nat} (hk : k ≤ s.refine.toNat)
    (hm : m = gridAt (s.nphis.map Int.toNat) n k) (h : GridBefore m ss i x) : GridBefore n (s :: ss) (i + 1) x := by
  induction h with
  | first => rw [hm]; exact .next .first (by simp) k hk
  | next _ hs k' hk' ih => exact .next ih (by simpa using hs) k' hk'

/-- Why the stages from stage `j` on end with the exception `m`: stage `i` of them, which starts with `c0` on a grid of
`n0` points. -/
def Fails (L : Lib ℝ) (q : QscIn ℝ) (os : List (Sections.OptObj ℝ)) (ss : List Pipeline.Raw) (c : Config ℝ) (n N : Nat)
    (m : String) : Prop :=
  ∃ i o s w c0 n0, os[i]? = some o ∧ ss[i]? = some s ∧ IsWeights o.mem w ∧ (i = 0 → c0 = c ∧ n0 = n) ∧
    AllSize (N + ((ss.take i).map fun s => s.refine.toNat).sum) c0 ∧
    (q.order_r_option = "r2.1" → (∀ s' ∈ ss.take i, 2 ≤ s'.maxIter) → GridBefore n ss i n0) ∧
    Refused L s w (configuration q c0 n0) m

theorem optimize_fails (ho : L.ops = realOps) {g : Nat → (p : Nat) → OptLoop.Gsl ℝ p} {s : Pipeline.Raw}
    {w : OptResid.Weights ℝ} {c : Config ℝ} {n N : Nat} (hc : AllSize N c) (hN : 0 < N)
    (hnp : s.nphis = [] ∨ s.nphis.length = s.refine.toNat + 1) :
    Ends (Refused L s w (configuration q c n))
      (fun st => OptLoop.Out ((world L g q).env w) ⟨s.fl, s.refine.toNat, s.maxIter.toNat, s.nphis.map Int.toNat⟩
        q.order_r_option N n (grow s.refine.toNat c) st)
      (OptLoop.optimize ((world L g q).env w) ⟨s.fl, s.refine.toNat, s.maxIter.toNat, s.nphis.map Int.toNat⟩
        q.order_r_option c n) := by
  have := OptLoop.optimize_ends ((world L g q).env w) ⟨s.fl, s.refine.toNat, s.maxIter.toNat, s.nphis.map Int.toNat⟩
    q.order_r_option c n N hc (by simpa using hnp)
  cases hx : OptLoop.optimize ((world L g q).env w) ⟨s.fl, s.refine.toNat, s.maxIter.toNat, s.nphis.map Int.toNat⟩
        q.order_r_option c n with
  | ok st => rw [hx] at this; exact this.2
  | error e =>
    rw [hx] at this
    obtain ⟨m, rfl, hm⟩ := this
    exact ⟨m, rfl, OptRun.refused_of (gsl := g) (o := ⟨configuration q c n, "", fun _ => none⟩) ho
      (N := N) hc.R0c hN hm⟩

theorem stages_end (ho : L.ops = realOps) {j k : Nat} {os : List (Sections.OptObj ℝ)} {ss : List Pipeline.Raw}
    (hss : List.Forall₂ (fun o s => IsRaw o.mem s ∧ Natural s ∧ Readable o) os ss) {c : Config ℝ} {n N : Nat}
    (hc : AllSize N c) (hN : 0 < N) :
    (∃ r, Pipeline.runStages (fun j => world L (gsl j) q) j os (some ⟨c, n, q.order_r_option⟩) k = .ok r) ∨
    ∃ m, Pipeline.runStages (fun j => world L (gsl j) q) j os (some ⟨c, n, q.order_r_option⟩) k =
      .error (.run (.throw m)) ∧ Fails L q os ss c n N m := by
  induction hss generalizing j k c n N with
  | nil => exact Or.inl ⟨_, rfl⟩
  | @cons o s os ss h1 hss ih =>
    obtain ⟨a4, z2, hr⟩ := h1
    obtain ⟨s', w, t, -, -, -, a4', a5, -, a7⟩ := hr.parts
    obtain rfl := Pipeline.isRaw_unique a4 a4'
    have hrun := optimize_fails (q := q) (w := w) (n := n) (g := gsl j) ho hc hN (hr.grids _ a4 z2)
    have e : Pipeline.runOpt ((world L (gsl j) q).env w) s q.order_r_option c (n : Int) =
        Pipeline.liftRun (OptLoop.optimize ((world L (gsl j) q).env w)
          ⟨s.fl, s.refine.toNat, s.maxIter.toNat, s.nphis.map Int.toNat⟩ q.order_r_option c n) := by
      rw [Pipeline.runOpt_eq _ _ z2 _ _ _ (by omega)]
      rfl
    rw [Pipeline.runStages]
    simp only [a7, Except.bind, Option.elim_some, e]
    cases hx : OptLoop.optimize ((world L (gsl j) q).env w)
        ⟨s.fl, s.refine.toNat, s.maxIter.toNat, s.nphis.map Int.toNat⟩ q.order_r_option c n with
    | error x =>
      rw [hx] at hrun
      obtain ⟨m, rfl, hm⟩ := hrun
      exact Or.inr ⟨m, rfl, 0, o, s, w, c, n, rfl, rfl, a5, fun _ => ⟨rfl, rfl⟩, by simpa using hc,
        fun _ _ => .first, hm⟩
    | ok st =>
      rw [hx] at hrun
      have hout : OptLoop.Out _ _ _ _ _ _ st := hrun
      have hs : AllSize (N + s.refine.toNat) st.q := hout.size
      simp only [Pipeline.liftRun]
      rcases ih (j := j + 1) (k := k + st.nEvals) (n := st.nphi) hs (by omega) with ⟨r, hr⟩ | ⟨m, hr, hm⟩
      · exact Or.inl ⟨(st :: r.1, r.2), by rw [hr]⟩
      · refine Or.inr ⟨m, by rw [hr], ?_⟩
        obtain ⟨i, o', s', w', c0, n0, b1, b2, b3, b4, b5, b6, b7⟩ := hm
        refine ⟨i + 1, o', s', w', c0, n0, by simpa using b1, by simpa using b2, b3, fun h => by omega, ?_, ?_, b7⟩
        · rw [List.take_succ_cons, List.map_cons, List.sum_cons, ← Nat.add_assoc]
          exact b5
        · intro hord hall
          rw [List.take_succ_cons] at hall
          have hmax : 2 ≤ s.maxIter := hall s (by simp)
          have hne : st.log ≠ [] := hout.ran.2 ⟨hord, by change 2 ≤ s.maxIter.toNat; omega⟩
          obtain ⟨-, ⟨rec, r1, r2⟩, -⟩ := (OptLoop.optimize_current hx).cur.resolve_left hne
          have hstep := (hout.recs rec (List.mem_of_getLast? r1)).step
          exact gridBefore_cons hstep r2 (b6 hord fun s' hs' => hall s' (by simp [hs']))

/-- The first stage starts from the section `[qsc]`. -/
theorem runStages_none {o : Sections.OptObj ℝ} {os : List (Sections.OptObj ℝ)} (hq : o.q = q) (hn : 0 ≤ q.nphi) (k : Nat) :
    Pipeline.runStages (fun j => world L (gsl j) q) 0 (o :: os) none k =
      Pipeline.runStages (fun j => world L (gsl j) q) 0 (o :: os)
        (some ⟨Pipeline.configOf q, q.nphi.toNat, q.order_r_option⟩) k := by
  subst hq
  rw [Pipeline.runStages, Pipeline.runStages]
  simp only [Option.elim_none, Option.elim_some, Int.toNat_of_nonneg hn]

/-- Writing the files: this fails only if a stage made no iteration. -/
theorem write_ends {j : Nat} {os : List (Sections.OptObj ℝ)} {c : Config ℝ} {n : Int}
    {sts : List (OptLoop.St ℝ (Result ℝ))} (h : Chain L gsl q j os c n sts) :
    ∀ {N : Nat} {ss : List Pipeline.Raw},
      List.Forall₂ (fun o s => IsRaw o.mem s ∧ Natural s ∧ Readable o) os ss → AllSize N c → 0 < N →
      (∃ fs, writeStages L m0 m1 q j N os sts = .ok fs) ∨
      ∃ i s, writeStages L m0 m1 q j N os sts = .error (.idle (j + i)) ∧ ss[i]? = some s ∧
        (q.order_r_option ≠ "r2.1" ∨ s.maxIter < 2) := by
  induction h with
  | nil =>
    intro N ss _ _ _
    refine Or.inl ⟨[], ?_⟩
    rw [writeStages]
    simp
  | @cons j o os c n e s st sts h1 h2 h3 ih =>
    intro N ss hss hc hN
    cases hss with
    | @cons _ s0 _ ss hs0 hss =>
    obtain ⟨b4, z2, hr⟩ := hs0
    obtain ⟨s', w, t, a1, a2, a3, a4, a5, a6, a7⟩ := hr.parts
    obtain rfl := Pipeline.isRaw_unique b4 a4
    rw [a7] at h1
    injection h1 with h1
    injection h1 with e1 e2
    subst e1 e2
    obtain ⟨z1, -⟩ := natural (K := ℝ) (hr.small _ a4) h2
    have hnp := hr.grids _ a4 z2
    rw [Pipeline.runOpt_eq _ _ z2 _ _ _ z1] at h2
    have h2' := liftRun_ok h2
    have hsafe := OptLoop.optimize_safe ((world L (gsl j) q).env w)
      ⟨s0.fl, s0.refine.toNat, s0.maxIter.toNat, s0.nphis.map Int.toNat⟩ q.order_r_option c n.toNat N hc (by simpa using hnp)
    rw [h2'] at hsafe
    obtain ⟨-, hout⟩ := hsafe
    have hs : AllSize (N + s0.refine.toNat) st.q := hout.size
    rw [writeStages, a1, a2, a3]
    dsimp only
    by_cases h0 : st.nIter = 0
    · rw [if_pos h0]
      refine Or.inr ⟨0, s0, rfl, rfl, ?_⟩
      have hlog : st.log = [] := List.length_eq_zero_iff.1 (hout.hist.len.trans h0)
      have := (not_congr hout.ran).1 (not_not.2 hlog)
      by_cases h1 : q.order_r_option = "r2.1"
      · right
        have h2 : ¬ 2 ≤ s0.maxIter.toNat := fun h => this ⟨h1, h⟩
        omega
      · exact Or.inl h1
    · rw [if_neg h0]
      have hb := OptLoop.optimize_current h2'
      have hne : st.log ≠ [] := fun e => h0 (by rw [← hout.hist.len, e]; rfl)
      obtain ⟨-, -, r, hr'⟩ := hb.cur.resolve_left hne
      obtain ⟨ord', ho2, hcalc⟩ := OptRun.physics_ok.1 hr'
      obtain ⟨f0, f, -, hw, -⟩ := OptRun.write_ok (o := ⟨q, o.group, o.mem⟩) (m0 j) (m1 j) w t ho2 (OptRun.odd_nphi hb.odd)
        hs (by omega) hcalc hout.hist
      rw [hw]
      dsimp only
      rw [hs.R0c]
      rcases ih hss hs (by omega) with ⟨fs, hfs⟩ | ⟨i, s, h1, h2, h3⟩
      · exact Or.inl ⟨f :: fs, by rw [hfs]⟩
      · exact Or.inr ⟨i + 1, s, by rw [h1, show j + 1 + i = j + (i + 1) by omega], by simpa using h2, h3⟩

theorem names_ok {path dir ext : List Char} (hp : Outfile.IsInputPath path dir ext) (l : List Nat) :
    l.mapM (Outfile.stageOutfile path) =
      .ok (l.map fun j => dir ++ "qsc_out.".toList ++ ext ++ ('_' :: (Nat.repr j).toList) ++ ".nc".toList) := by
  induction l with
  | nil => rfl
  | cons j l ih =>
    rw [List.mapM_cons, Outfile.stageOutfile_ok path dir ext j hp, ih]
    rfl

end Qsc.MultiOptRun
