import Verif.Lemmas.GridReversal
import Verif.Props.MultiOptRun
import Verif.Props.OptReversal

/-!
# A multi-stage optimization with the opposite field (C109)
-/

namespace Qsc.StagesReversal
open Qsc.Netcdf Qsc.Spec.Netcdf Qsc.Single Qsc.Toml Qsc.Spec.Single Qsc.OptState Qsc.Reversal Qsc.Spec.OptRun
open Qsc.Spec.OptLoop Qsc.Spec.Pipeline Qsc.Spec.Reversal Qsc.Spec.OptReversal Qsc.MultiOptRun Qsc.GridReversal
open Qsc.OptRun (Stage)
open Qsc.OptLoop (mapSt)

section
variable {L : Lib ℝ} {gsl : Nat → Nat → (p : Nat) → OptLoop.Gsl ℝ p} {m0 m1 m0' m1' : Nat → Mem ℝ} {path : List Char}
  {file file' : Sections.File ℝ} {r r' : Sections.MultiOptObj ℝ} {total : Nat}
  {out : List (List Char × OptLoop.St ℝ (Result ℝ) × Netcdf.File ℝ)}

theorem writeStages_rev (ho : L.ops = realOps) {q q' : QscIn ℝ} (hq : Opposite q q')
    {os os' : List (Sections.OptObj ℝ)} (h : List.Forall₂ OppositeStage os os') :
    ∀ {j N : Nat} {sts : List (OptLoop.St ℝ (Result ℝ))} {fs : List (Netcdf.File ℝ)}, (∀ o ∈ os, Readable o) →
      writeStages L m0 m1 q j N os sts = .ok fs → sts.length = os.length → fs.length = os.length →
      (∀ i o st f, os[i]? = some o → sts[i]? = some st → fs[i]? = some f → ∃ c0 n0,
        IsStage L gsl m0 m1 q (j + i) o c0 n0 (N + ((os.take i).map Pipeline.refineOf).sum) st f) →
      ∃ fs', writeStages L m0' m1' q' j N os' (sts.map (mapSt revResult)) = .ok fs' ∧ fs'.length = os.length := by
  induction h with
  | nil =>
    intro j N sts fs _ _ _ _ _
    exact ⟨[], by rw [writeStages]; simp, rfl⟩
  | @cons o o' os os' h0 _ ih =>
    intro j N sts fs hrd hw l1 l2 hst
    cases sts with
    | nil => simp at l1
    | cons st sts =>
      cases fs with
      | nil => simp at l2
      | cons f fs =>
        obtain ⟨s, w, t, a1, a2, a3, a4, a5, a6, a7⟩ := (hrd o (by simp)).parts
        obtain ⟨c0, n0, s2, w2, t2, b1, S⟩ := hst 0 o st f rfl rfl rfl
        obtain rfl := Pipeline.isRaw_unique a4 b1
        obtain rfl := OptRun.isWeights_unique a5 S.weights
        obtain rfl := OptReversal.isTargets_unique a6 S.targets
        rw [List.take_zero, List.map_nil, List.sum_nil, Nat.add_zero, Nat.add_zero] at S
        rw [writeStages, a1, a2, a3] at hw
        dsimp only at hw
        split at hw
        · cases hw
        · rename_i hn
          split at hw
          · cases hw
          · split at hw
            · cases hw
            · rename_i fs2 hfs
              injection hw with hw
              injection hw with e1 e2
              subst e2
              obtain ⟨f', hf'⟩ := OptReversal.stage_write (m0' := m0' j) (m1' := m1' j) (o' := ⟨q', o'.group, o'.mem⟩) ho hq S
              obtain ⟨fs', k1, k2⟩ := ih (j := j + 1) (N := st.q.R0c.length) (fun o' h => hrd o' (by simp [h])) hfs
                (by simpa using l1) (by simpa using l2) (by
                  intro i o2 st2 f2 c1 c2 c3
                  obtain ⟨d0, d1, d2⟩ := hst (i + 1) o2 st2 f2 (by simpa using c1) (by simpa using c2) (by simpa using c3)
                  refine ⟨d0, d1, ?_⟩
                  have hs : AllSize (N + s.refine.toNat) st.q := S.out.size
                  have hsum : st.q.R0c.length + ((os.take i).map Pipeline.refineOf).sum =
                      N + (((o :: os).take (i + 1)).map Pipeline.refineOf).sum := by
                    rw [List.take_succ_cons, List.map_cons, List.sum_cons, refineOf_raw a4, hs.R0c]
                    omega
                  rw [hsum, show j + 1 + i = j + (i + 1) by omega]
                  exact d2)
              refine ⟨f' :: fs', ?_, by simp [k2]⟩
              rw [List.map_cons, writeStages]
              rw [h0.1] at hf' ⊢
              rw [a1, a2, a3]
              dsimp only
              rw [if_neg (by exact hn), hf']
              dsimp only
              rw [show (mapSt revResult st).q = st.q from rfl, k1]

/-- The settings of the stages of both runs are within the same bounds. -/
theorem small_opposite {l l' : List (Sections.OptObj ℝ)} {P : Pipeline.Raw → Prop}
    (hu : List.Forall₂ (fun o o' : Sections.OptObj ℝ => o'.mem = o.mem ∧ Opposite o.q o'.q) l l')
    (hs : ∀ o ∈ l, ∀ s, IsRaw o.mem s → P s) : ∀ o ∈ l', ∀ s, IsRaw o.mem s → P s := by
  induction hu with
  | nil => intro o h; simp at h
  | @cons a b l l' h _ ih =>
    intro o ho s hr
    rcases List.mem_cons.1 ho with rfl | ho
    · exact hs a (by simp) s (by rw [← h.1]; exact hr)
    · exact ih (fun o h => hs o (by simp [h])) o ho s hr

/-- **C109.** Two multi-stage optimizations whose input files differ in the direction of the field only.  The
least-squares library takes the same steps in both.  If the first one ends, so does the second one, with the same number
of evaluations; it has as many files with the same names, every stage ends at the same parameters and on the same grid,
and its file tells the same history and has the final configuration with the opposite field. -/
theorem stages_opposite (ho : L.ops = realOps) (hl : Literals L.lit) (hf : Spec.Sections.WellFormed file)
    (hf' : Spec.Sections.WellFormed file')
    (hi : Sections.multioptInput (fun i => (i : ℝ)) 0 file (Pipeline.optNew L.lit L.single) Pipeline.multioptNew = .ok r)
    (hi' : Sections.multioptInput (fun i => (i : ℝ)) 0 file' (Pipeline.optNew L.lit L.single) Pipeline.multioptNew = .ok r')
    (hu : List.Forall₂ (fun o o' : Sections.OptObj ℝ => o'.mem = o.mem ∧ Opposite o.q o'.q) r.opts r'.opts)
    (hs : ∀ o ∈ r.opts, ∀ s, IsRaw o.mem s → s.refine < 2 ^ 31 ∧ s.nphis.length < 2 ^ 63)
    (h : run L gsl m0 m1 path file = .ok (out, total)) :
    ∃ out', run L gsl m0' m1' path file' = .ok (out', total) ∧
      List.Forall₂ (fun x x' => x'.1 = x.1 ∧ x'.2.1.q = x.2.1.q ∧ x'.2.1.nphi = x.2.1.nphi ∧
        SameHistory x.2.2 x'.2.2 ∧ SameOpposite "r2.1" x.2.2 x'.2.2) out out' := by
  have hrd := readable hf hi hs
  have hlen := hu.length_eq
  have hs' := small_opposite hu hs
  obtain ⟨q0, dir, ext, z1, z2, z3, z4, z5, z6, key⟩ := stages hl hf hi hs h
  -- the second run
  have second : ∃ out', run L gsl m0' m1' path file' = .ok (out', total) ∧
      out'.map (fun x => (x.1, x.2.1)) = out.map (fun x => (x.1, mapSt revResult x.2.1)) := by
    unfold MultiOptRun.run at h ⊢
    split at h
    · cases h
    · rw [hi] at h
      rw [hi']
      dsimp only at h ⊢
      rw [← hlen]
      split at h
      · cases h
      · cases h
      · rename_i names q hnames hq
        rw [hnames]
        have hopts : ∃ o o' os os', r.opts = o :: os ∧ r'.opts = o' :: os' ∧ OppositeStage o o' := by
          generalize r.opts = l at hu hq
          generalize r'.opts = l' at hu
          cases hu with
          | nil => cases hq
          | cons h _ => exact ⟨_, _, _, _, rfl, rfl, h⟩
        obtain ⟨o, o', os, os', e1, e2, h0⟩ := hopts
        rw [e1] at hq
        injection hq with hq
        have hq' : firstQ r'.opts = some o'.q := by rw [e2]; rfl
        have hop : Opposite q o'.q := hq ▸ h0.2
        have hqq : q0 = q := by rw [← hq]; exact (z1 o (by rw [e1]; simp)).symm
        subst hqq
        rw [hq']
        dsimp only
        have hR : o'.q.R0c.length = q0.R0c.length := by rw [show o'.q = _ from hop]
        rw [show o'.q.nfp = q0.nfp from (inputRel hop).nfp]
        split at h
        · cases h
        rename_i hn
        split at h
        · cases h
        rename_i hd
        rw [if_neg hn, if_neg hd, runStages_rev ho gsl hop hu]
        split at h
        · cases h
        rename_i sts tot hst
        rw [hst]
        simp only [Except.map, revStages]
        split at h
        · cases h
        rename_i fs hfs
        injection h with h
        injection h with f1 f2
        subst f2
        rw [hR]
        have hch : sts.length = r.opts.length ∧ fs.length = r.opts.length ∧
            ∀ i o st f, r.opts[i]? = some o → sts[i]? = some st → fs[i]? = some f → ∃ c0 n0,
              IsStage L gsl m0 m1 q0 (0 + i) o c0 n0 (q0.R0c.length + ((r.opts.take i).map Pipeline.refineOf).sum) st f := by
          obtain ⟨o2, os2, ho2, -, -, hsize, hpos⟩ := first_section hl hf hi
          rw [e1] at ho2
          injection ho2 with x1 x2
          subst x1 x2
          rw [e1] at hst
          obtain ⟨ch, -⟩ := chain_none hq hst
          rw [hq] at hsize hpos
          obtain ⟨-, l1, l2, kk⟩ := chain_stages (by simpa using hd) (by omega) ch (by rw [← e1]; exact hrd)
            hsize hpos (by rw [← e1]; exact hfs)
          rw [e1]
          refine ⟨l1, l2, fun i o st f x1 x2 x3 => ?_⟩
          obtain ⟨c0, n0, -, -, -, y⟩ := kk i o st f x1 x2 x3
          exact ⟨c0, n0, y⟩
        obtain ⟨l1, l2, hst2⟩ := hch
        obtain ⟨fs', k1, k2⟩ := writeStages_rev (m0' := m0') (m1' := m1') ho hop hu hrd hfs l1 l2 hst2
        rw [k1]
        refine ⟨_, rfl, ?_⟩
        rw [← f1]
        apply List.ext_getElem
        · simp [l1, l2, k2]
        · intro i h1 h2
          simp
  obtain ⟨out', hall, hmap⟩ := second
  refine ⟨out', hall, ?_⟩
  obtain ⟨q0', dir', ext', z1', z2', z3', z4', z5', z6', key'⟩ := stages hl hf' hi' hs' hall
  have hl2 : out'.length = out.length := by simpa using congrArg List.length hmap
  rw [List.forall₂_iff_get]
  refine ⟨hl2.symm, fun j h1 h2 => ?_⟩
  have hm : ((out'[j]'h2).1, (out'[j]'h2).2.1) = ((out[j]'h1).1, mapSt revResult (out[j]'h1).2.1) := by
    have := congrArg (fun l => l[j]?) hmap
    simpa [List.getElem?_eq_getElem h1, List.getElem?_eq_getElem h2] using this
  injection hm with hm1 hm2
  have hj : j < r.opts.length := by omega
  have hj' : j < r'.opts.length := by omega
  have hx := (List.forall₂_iff_get.1 hu).2 j hj hj'
  simp only [List.get_eq_getElem] at hx ⊢
  obtain ⟨-, c, n, -, -, s, w, t, b1, S⟩ := key j _ _ _ _ (List.getElem?_eq_getElem h1) (List.getElem?_eq_getElem hj)
  obtain ⟨-, c', n', -, -, s', w', t', b1', S'⟩ := key' j _ _ _ _ (List.getElem?_eq_getElem h2) (List.getElem?_eq_getElem hj')
  have hq0 : q0 = r.opts[j].q := (z1 _ (List.getElem_mem hj)).symm
  have hq0' : q0' = r'.opts[j].q := (z1' _ (List.getElem_mem hj')).symm
  have hop : Opposite q0 q0' := by rw [hq0, hq0']; exact hx.2
  have hN : q0'.R0c.length + ((r'.opts.take j).map Pipeline.refineOf).sum
      = q0.R0c.length + ((r.opts.take j).map Pipeline.refineOf).sum := by
    have e : ∀ {l l' : List (Sections.OptObj ℝ)},
        List.Forall₂ (fun o o' : Sections.OptObj ℝ => o'.mem = o.mem ∧ Opposite o.q o'.q) l l' → ∀ j,
        (l'.take j).map Pipeline.refineOf = (l.take j).map Pipeline.refineOf := by
      intro l l' h
      induction h with
      | nil => intro j; simp
      | cons h _ ih =>
        intro j
        cases j with
        | zero => rfl
        | succ j =>
          rw [List.take_succ_cons, List.take_succ_cons, List.map_cons, List.map_cons, ih j]
          congr 1
          unfold Pipeline.refineOf
          rw [h.1]
    have hR : q0'.R0c = q0.R0c := by rw [show q0' = _ from hop]
    rw [e hu j, hR]
  rw [hN] at S'
  simp only [List.get_eq_getElem] at S S'
  rw [hm2] at S'
  rw [hx.1] at b1'
  obtain rfl := Pipeline.isRaw_unique b1 b1'
  obtain rfl := OptRun.isWeights_unique S.weights (by have := S'.weights; dsimp only at this; rwa [hx.1] at this)
  obtain rfl := OptReversal.isTargets_unique S.targets (by have := S'.targets; dsimp only at this; rwa [hx.1] at this)
  obtain ⟨H1, H2⟩ := OptReversal.stage_opposite ho hl (o := ⟨q0, r.opts[j].group, r.opts[j].mem⟩)
    (o' := ⟨q0', r'.opts[j].group, r'.opts[j].mem⟩) hx.1 hop S S'
  exact ⟨hm1, by rw [hm2]; rfl, by rw [hm2]; rfl, H1, H2⟩

/-- **C109.** One of the two optimizations ends if and only if the other one does, after the same number of evaluations. -/
theorem stages_ends_iff (ho : L.ops = realOps) (hl : Literals L.lit) (hf : Spec.Sections.WellFormed file)
    (hf' : Spec.Sections.WellFormed file')
    (hi : Sections.multioptInput (fun i => (i : ℝ)) 0 file (Pipeline.optNew L.lit L.single) Pipeline.multioptNew = .ok r)
    (hi' : Sections.multioptInput (fun i => (i : ℝ)) 0 file' (Pipeline.optNew L.lit L.single) Pipeline.multioptNew = .ok r')
    (hu : List.Forall₂ (fun o o' : Sections.OptObj ℝ => o'.mem = o.mem ∧ Opposite o.q o'.q) r.opts r'.opts)
    (hs : ∀ o ∈ r.opts, ∀ s, IsRaw o.mem s → s.refine < 2 ^ 31 ∧ s.nphis.length < 2 ^ 63) :
    (∃ out, MultiOptRun.run L gsl m0 m1 path file = .ok (out, total)) ↔
      ∃ out', MultiOptRun.run L gsl m0' m1' path file' = .ok (out', total) := by
  constructor
  · rintro ⟨out, h⟩
    obtain ⟨out', h', -⟩ := stages_opposite ho hl hf hf' hi hi' hu hs h
    exact ⟨out', h'⟩
  · rintro ⟨out, h⟩
    obtain ⟨out', h', -⟩ := stages_opposite ho hl hf' hf hi' hi
      (hu.flip.imp fun _ _ h => ⟨h.1.symm, OptReversal.opposite_symm h.2⟩) (small_opposite hu hs) h
    exact ⟨out', h'⟩

end

/-! ## An example -/

/-- The input file `exMulti` with the opposite field. -/
noncomputable def exOppositeMulti : Sections.File ℝ :=
  exOppositeFile ++ exMulti.drop 1

theorem exOppositeMultiWell : Spec.Sections.WellFormed exOppositeMulti := by
  refine ⟨by simp [exOppositeMulti, exOppositeFile, exMulti, Single.exFile], ?_⟩
  simp [exOppositeMulti, exOppositeFile, exMulti, Single.exFile]

theorem exOppositeMulti_read : ∃ r r', Sections.multioptInput (fun i => (i : ℝ)) 0 exMulti
      (Pipeline.optNew exLib.lit exLib.single) Pipeline.multioptNew = .ok r ∧
    Sections.multioptInput (fun i => (i : ℝ)) 0 exOppositeMulti
      (Pipeline.optNew exLib.lit exLib.single) Pipeline.multioptNew = .ok r' ∧
    List.Forall₂ (fun o o' : Sections.OptObj ℝ => o'.mem = o.mem ∧ Opposite o.q o'.q) r.opts r'.opts ∧
    ∀ o ∈ r.opts, ∀ s, IsRaw o.mem s → s.refine < 2 ^ 31 ∧ s.nphis.length < 2 ^ 63 := by
  have key : ∃ r r' a b a' b', Sections.multioptInput (fun i => (i : ℝ)) 0 exMulti
      (Pipeline.optNew exLib.lit exLib.single) Pipeline.multioptNew = .ok r ∧
    Sections.multioptInput (fun i => (i : ℝ)) 0 exOppositeMulti
      (Pipeline.optNew exLib.lit exLib.single) Pipeline.multioptNew = .ok r' ∧
    r.opts = [a, b] ∧ r'.opts = [a', b'] ∧ a'.mem = a.mem ∧ b'.mem = b.mem ∧ a.q = exInput "r2.1" 20 ∧
    b.q = exInput "r2.1" 20 ∧ a'.q = exOppositeInput ∧ b'.q = exOppositeInput ∧
    IsRaw a.mem OptRun.exRaw ∧ IsRaw b.mem exRaw1 :=
    ⟨_, _, _, _, _, _, rfl, rfl, rfl, rfl, rfl, rfl, rfl, rfl, rfl, rfl,
      ⟨rfl, rfl, rfl, rfl, rfl, rfl, rfl, rfl, rfl, rfl, rfl⟩, ⟨rfl, rfl, rfl, rfl, rfl, rfl, rfl, rfl, rfl, rfl, rfl⟩⟩
  obtain ⟨r, r', a, b, a', b', h1, h2, h3, h4, h5, h6, h7, h8, h9, h10, h11, h12⟩ := key
  refine ⟨r, r', h1, h2, ?_, ?_⟩
  · rw [h3, h4]
    exact .cons ⟨h5, by rw [h7, h9]; exact exOpposite⟩ (.cons ⟨h6, by rw [h8, h10]; exact exOpposite⟩ .nil)
  · rw [h3]
    exact exMulti_small h11 h12

/-- Both optimizations end; the files of every stage have the same name, the same objectives and opposite `G0`. -/
example (m0 m1 m0' m1' : Nat → Mem ℝ) : ∃ out out' total,
    MultiOptRun.run exLib (fun _ => OptRun.exGsl) m0 m1 "dir/qsc_in.torus".toList exMulti = .ok (out, total) ∧
    MultiOptRun.run exLib (fun _ => OptRun.exGsl) m0' m1' "dir/qsc_in.torus".toList exOppositeMulti = .ok (out', total) ∧
    out.length = 2 ∧ List.Forall₂ (fun x x' => x'.1 = x.1 ∧ Same x.2.2 x'.2.2 "iter_objective_function" ∧
      Negated x.2.2 x'.2.2 "G0" ∧ Same x.2.2 x'.2.2 "iota") out out' := by
  obtain ⟨out, total, h⟩ := ex_multi m0 m1
  obtain ⟨r, r', h1, h2, h3, h4⟩ := exOppositeMulti_read
  obtain ⟨out', h', H⟩ := stages_opposite (m0' := m0') (m1' := m1') rfl exLiterals exMultiWell exOppositeMultiWell h1 h2 h3
    h4 h
  have hn : out.length = 2 := by
    obtain ⟨-, -, -, -, -, -, -, z, -⟩ := stages exLiterals exMultiWell h1 h4 h
    obtain ⟨r2, a, b, k1, k2, -⟩ := exMulti_read
    obtain rfl := Except.ok.inj (h1.symm.trans k1)
    rw [z, k2]; rfl
  refine ⟨out, out', total, h, h', hn, H.imp ?_⟩
  rintro x x' ⟨k1, -, -, K, K'⟩
  have g := K'.first ("G0", 1, 1) (by simp [Spec.Scaling.units1])
  have i := K'.first ("iota", 0, 0) (by simp [Spec.Scaling.units1])
  simp only [Turned, reversed] at g i
  exact ⟨k1, K.arrays _ (by simp [history]), by simpa using g, by simpa using i⟩

end Qsc.StagesReversal
