import Verif.Lemmas.ScanRun

/-!
Helper lemmas for `Verif.Props.ScanRun`: the loop over attempts.
-/

namespace Qsc.ScanRun

open Qsc.Single (Lib)
open Qsc.Scan (Cand Cfg Local Counter bump save)
open Qsc.ScanPipeline (Proc)
open Qsc.ScanDraws (Drawn)
open Qsc.Spec.Scan

/-- What the loop of `Scan.run` meets. -/
noncomputable def stepsOf (e : Env) (c0 : Cand ℝ) (l : List ((Bool × Bool) × Drawn)) : List (Scan.Step ℝ) :=
  l.map fun x => ⟨x.1.1, x.1.2, candOf e c0 x.2⟩

/-- What a process holds that has gone through `l`. -/
structure At (e : Env) (c0 : Cand ℝ) (l : List ((Bool × Bool) × Drawn)) (x : Local ℝ × Members) : Prop where
  filters : x.1.filters = (Scan.run ScanPipeline.realOps e.cfg (stepsOf e c0 l)).filters
  jScan : x.1.jScan = (Scan.run ScanPipeline.realOps e.cfg (stepsOf e c0 l)).jScan
  cols : x.1.cols = (Scan.run ScanPipeline.realOps e.cfg (stepsOf e c0 l)).cols
  tried : ∀ d ∈ (l.map (·.2)).take (x.1.filters .attempts), ∃ s m s' m', Clean e.n m.matrix ∧
    attempt e d s m = .ok (s', m')
  p2 : ∀ d, ((l.map (·.2)).take (x.1.filters .attempts)).getLast? = some d → x.2.cand.p2 = d.p2
  axis : (∃ d ∈ (l.map (·.2)).take (x.1.filters .attempts),
      Rejects ScanPipeline.realOps e.cfg (candOf e c0 d) .r0Crude = false) → ∃ d a, AxisOf e d a ∧ x.2.axis = some a

structure LoopInv (e : Env) (c0 : Cand ℝ) (l : List ((Bool × Bool) × Drawn)) (t : State) : Prop where
  loc : t.loc = Scan.run ScanPipeline.realOps e.cfg (stepsOf e c0 l)
  clean : Clean e.n t.mem.matrix
  second : e.cfg.r2 = false → SameSecond t.mem.cand c0
  now : At e c0 l (t.loc, t.mem)
  snaps : ∀ x ∈ t.snaps, ∃ l', l' <+: l ∧ At e c0 l' x
  mono : (t.snaps ++ [(t.loc, t.mem)]).Pairwise fun x y => x.1.filters .attempts ≤ y.1.filters .attempts

theorem stepsOf_length (e : Env) (c0 : Cand ℝ) (l : List ((Bool × Bool) × Drawn)) :
    (stepsOf e c0 l).length = l.length := List.length_map _

theorem stepsOf_concat (e : Env) (c0 : Cand ℝ) (l : List ((Bool × Bool) × Drawn)) (x : (Bool × Bool) × Drawn) :
    stepsOf e c0 (l ++ [x]) = stepsOf e c0 l ++ [⟨x.1.1, x.1.2, candOf e c0 x.2⟩] := by simp [stepsOf]

theorem loop_concat (e : Env) (m0 : Members) (l : List ((Bool × Bool) × Drawn)) (x : (Bool × Bool) × Drawn) :
    loop e m0 (l ++ [x]) = match loop e m0 l with
      | .error er => .error er
      | .ok t => iter e t x := by
  unfold loop
  rw [List.foldlM_append]
  generalize List.foldlM (iter e) ⟨Scan.init e.cfg, m0, []⟩ l = z
  cases z with
  | error er => rfl
  | ok t =>
    change List.foldlM (iter e) t [x] = iter e t x
    rw [List.foldlM_cons]
    cases iter e t x <;> rfl

/-- The attempts so far when `x` follows but is not attempted. -/
theorem At.skip {e : Env} {c0 : Cand ℝ} {l : List ((Bool × Bool) × Drawn)} {x : Local ℝ × Members}
    (h : At e c0 l x) (hl : x.1.filters .attempts ≤ l.length) (y : (Bool × Bool) × Drawn) {s : Local ℝ}
    (h1 : s.filters = x.1.filters) (h2 : s.jScan = x.1.jScan) (h3 : s.cols = x.1.cols)
    (hs : s = Scan.run ScanPipeline.realOps e.cfg (stepsOf e c0 (l ++ [y]))) : At e c0 (l ++ [y]) (s, x.2) := by
  have ht : ((l ++ [y]).map (·.2)).take (s.filters .attempts) = (l.map (·.2)).take (x.1.filters .attempts) := by
    rw [h1, List.map_append, List.take_append_of_le_length (by simpa using hl)]
  refine ⟨by rw [← hs], by rw [← hs], by rw [← hs], ?_, ?_, ?_⟩
  · rw [ht]; exact h.tried
  · rw [ht]; exact h.p2
  · rw [ht]; exact h.axis

theorem loop_inv {e : Env} (hk : 1 ≤ e.cfg.maxKeep) (c0 : Cand ℝ) (l : List ((Bool × Bool) × Drawn)) :
    ∀ {t : State}, loop e (members0 c0) l = .ok t → LoopInv e c0 l t := by
  induction l using List.reverseRecOn with
  | nil =>
    intro t h
    cases h
    refine ⟨rfl, fun _ _ _ => rfl, fun _ => SameSecond.refl _, ⟨rfl, rfl, rfl, ?_, ?_, ?_⟩, ?_, ?_⟩
    · intro d hd; simp at hd
    · intro d hd; simp at hd
    · rintro ⟨d, hd, -⟩; simp at hd
    · intro x hx; cases hx
    · exact List.pairwise_singleton _ _
  | append_singleton l x ih =>
    intro t' h
    rw [loop_concat] at h
    cases hl : loop e (members0 c0) l with
    | error er => rw [hl] at h; cases h
    | ok t =>
    rw [hl] at h
    dsimp only at h
    have I := ih hl
    clear ih hl
    have J := Scan.inv_run ScanPipeline.realOps e.cfg hk (stepsOf e c0 l)
    have hrc := Scan.run_concat ScanPipeline.realOps e.cfg (stepsOf e c0 l) ⟨x.1.1, x.1.2, candOf e c0 x.2⟩
    rw [← stepsOf_concat, ← I.loc] at hrc
    rw [← I.loc, ] at J
    have hle : t.loc.filters .attempts ≤ l.length := by simpa [stepsOf_length] using J.le_len
    have snaps' : ∀ y ∈ t.snaps, ∃ l', l' <+: l ++ [x] ∧ At e c0 l' y := fun y hy => by
      obtain ⟨l', a, b⟩ := I.snaps y hy
      exact ⟨l', a.trans (List.prefix_append _ _), b⟩
    have hmono := I.mono
    rw [List.pairwise_append] at hmono
    obtain ⟨mono1, -, mono2⟩ := hmono
    unfold Scan.iter at hrc
    unfold iter at h
    by_cases hrun : t.loc.status = .running
    swap
    · rw [if_neg hrun] at h hrc
      cases h
      refine ⟨hrc.symm, I.clean, I.second, ?_, snaps', I.mono⟩
      exact At.skip I.now hle x rfl rfl rfl hrc.symm
    rw [if_pos hrun] at h hrc
    dsimp only at h hrc
    obtain ⟨s1, hs1, f1, f2, f3, f4⟩ : ∃ s1 : Local ℝ, s1 = (if x.1.2 = true then
        { t.loc with checkpoints := t.loc.checkpoints ++ [t.loc.jScan] } else t.loc) ∧
        s1.filters = t.loc.filters ∧ s1.jScan = t.loc.jScan ∧ s1.cols = t.loc.cols ∧ s1.status = t.loc.status := by
      refine ⟨_, rfl, ?_⟩
      split <;> simp
    rw [← hs1] at h hrc
    have hnow : At e c0 l (s1, t.mem) := by
      refine ⟨f1.trans I.now.filters, f2.trans I.now.jScan, f3.trans I.now.cols, ?_, ?_, ?_⟩
      · have := I.now.tried; dsimp only at this ⊢; rw [f1]; exact this
      · have := I.now.p2; dsimp only at this ⊢; rw [f1]; exact this
      · have := I.now.axis; dsimp only at this ⊢; rw [f1]; exact this
    obtain ⟨sn, hsn⟩ : ∃ sn, sn = (if x.1.2 = true then t.snaps ++ [(s1, t.mem)] else t.snaps) := ⟨_, rfl⟩
    rw [← hsn] at h
    have hsn1 : ∀ y ∈ sn, ∃ l', l' <+: l ++ [x] ∧ At e c0 l' y := by
      intro y hy
      rw [hsn] at hy
      split at hy
      · rcases List.mem_append.1 hy with hy | hy
        · exact snaps' y hy
        · rw [List.mem_singleton.1 hy]; exact ⟨l, List.prefix_append _ _, hnow⟩
      · exact snaps' y hy
    have hsn2 : ∀ z : Local ℝ × Members, t.loc.filters .attempts ≤ z.1.filters .attempts →
        (sn ++ [z]).Pairwise fun x y => x.1.filters .attempts ≤ y.1.filters .attempts := by
      intro z hz
      have a1 : ∀ y ∈ sn, y.1.filters .attempts ≤ t.loc.filters .attempts := by
        intro y hy
        rw [hsn] at hy
        split at hy
        · rcases List.mem_append.1 hy with hy | hy
          · exact mono2 y hy _ (List.mem_singleton.2 rfl)
          · rw [List.mem_singleton.1 hy, f1]
        · exact mono2 y hy _ (List.mem_singleton.2 rfl)
      rw [List.pairwise_append]
      refine ⟨?_, List.pairwise_singleton _ _, fun y hy w hw => ?_⟩
      · rw [hsn]
        split
        · rw [List.pairwise_append]
          refine ⟨mono1, List.pairwise_singleton _ _, fun y hy w hw => ?_⟩
          rw [List.mem_singleton.1 hw, f1]
          exact mono2 y hy _ (List.mem_singleton.2 rfl)
        · exact mono1
      · rw [List.mem_singleton.1 hw]; exact (a1 y hy).trans hz
    split at h
    · next hlim =>
      rw [if_pos hlim] at hrc
      cases h
      exact ⟨hrc.symm, I.clean, I.second, At.skip hnow (by rw [f1]; exact hle) x rfl rfl rfl hrc.symm, hsn1,
        hsn2 _ (by rw [f1])⟩
    next hlim =>
    rw [if_neg hlim] at hrc
    have hlen := (J.running hrun).1
    rw [stepsOf_length] at hlen
    cases ha : attempt e x.2 s1 t.mem with
    | error er => rw [ha] at h; cases h
    | ok z =>
    obtain ⟨s', m'⟩ := z
    rw [ha] at h
    dsimp only at h
    obtain ⟨b1, b2, b3, b4, b5⟩ := attempt_ok I.clean I.second ha
    rw [← b1] at hrc
    have hatt : s'.filters .attempts = l.length + 1 := by
      have : s'.filters .attempts = s1.filters .attempts + 1 := by
        rw [b1, Scan.attempt_eq]
        dsimp only
        split
        · unfold save; split <;> rfl
        · rfl
      rw [this, f1, hlen]
    have hAt : ∀ s'' : Local ℝ, s''.filters = s'.filters →
        s'' = Scan.run ScanPipeline.realOps e.cfg (stepsOf e c0 (l ++ [x])) → At e c0 (l ++ [x]) (s'', m') := by
      intro s'' e1 e2
      have ht : ((l ++ [x]).map (·.2)).take (s''.filters .attempts) = l.map (·.2) ++ [x.2] := by
        rw [e1, hatt, List.take_of_length_le (by simp)]; simp
      refine ⟨by rw [← e2], by rw [← e2], by rw [← e2], ?_, ?_, ?_⟩
      · rw [ht]
        intro d hd
        rcases List.mem_append.1 hd with hd | hd
        · refine I.now.tried d ?_
          dsimp only
          rw [hlen, List.take_of_length_le (by simp)]; exact hd
        · rw [List.mem_singleton.1 hd]; exact ⟨s1, t.mem, s', m', I.clean, ha⟩
      · rw [ht]
        intro d hd
        rw [List.getLast?_concat] at hd
        cases hd
        exact b4
      · rw [ht]
        rintro ⟨d, hd, hd'⟩
        rcases b5 with ⟨b5, b6⟩ | ⟨a, b5, b6⟩
        · rcases List.mem_append.1 hd with hd | hd
          · obtain ⟨d', a, g1, g2⟩ := I.now.axis ⟨d, by
              dsimp only
              rw [hlen, List.take_of_length_le (by simp)]; exact hd, hd'⟩
            exact ⟨d', a, g1, b5.trans g2⟩
          · rw [List.mem_singleton.1 hd, b6] at hd'
            cases hd'
        · exact ⟨_, a, b5, b6⟩
    split at h
    · next hub =>
      rw [if_pos hub] at hrc
      cases h
      exact ⟨hrc.symm, b2, b3, hAt _ rfl hrc.symm, hsn1, hsn2 _ (by dsimp only; omega)⟩
    · next hub =>
      rw [if_neg hub] at hrc
      cases h
      have aux : ∀ b : Bool, (if b = true then s' else { s' with status := .finished }).filters = s'.filters :=
        fun b => by split <;> rfl
      refine ⟨hrc.symm, b2, b3, hAt _ (aux _) hrc.symm, hsn1, hsn2 _ ?_⟩
      dsimp only
      rw [aux]; omega

end Qsc.ScanRun
