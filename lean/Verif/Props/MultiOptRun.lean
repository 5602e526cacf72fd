import Verif.Lemmas.MultiOptRun

/-!
# A multi-stage optimization from the input file to the output files (C91, C92)
-/

namespace Qsc.MultiOptRun
open Qsc.Netcdf Qsc.Spec.Netcdf Qsc.Toml Qsc.Spec.Single Qsc.Single Qsc.OptState
open Qsc.OptRun (world Stage)
open Qsc.Spec.OptRun Qsc.Spec.OptLoop Qsc.Spec.Pipeline Qsc.Spec.MultiOptRun

section
variable {L : Lib ℝ} {gsl : Nat → Nat → (p : Nat) → OptLoop.Gsl ℝ p} {m0 m1 : Nat → Mem ℝ} {path : List Char}
  {file : Sections.File ℝ} {r : Sections.MultiOptObj ℝ} {total : Nat}
  {out : List (List Char × OptLoop.St ℝ (Result ℝ) × Netcdf.File ℝ)}

/-- The members of a stage that was read. -/
theorem readable (hf : Spec.Sections.WellFormed file)
    (hi : Sections.multioptInput (fun i => (i : ℝ)) 0 file (Pipeline.optNew L.lit L.single) Pipeline.multioptNew = .ok r)
    (hs : ∀ o ∈ r.opts, ∀ s, IsRaw o.mem s → s.refine < 2 ^ 31 ∧ s.nphis.length < 2 ^ 63) :
    ∀ o ∈ r.opts, Readable o := by
  intro o ho
  obtain ⟨t, n, -, -, -, -, -, hst⟩ := (Sections.multioptInput_iff (fun i => (i : ℝ)) 0 file hf _ _ r).1 hi
  obtain ⟨i, hio⟩ := List.getElem?_of_mem ho
  refine ⟨((Pipeline.initialised (fun i => (i : ℝ)) 0 L.lit L.single file hf).2.2.1 r hi).2 o ho,
    fun s h => (hs o ho s h).1, fun s h hn => ?_⟩
  rcases Sections.optInput_nphi (fun i => (i : ℝ)) 0 file hf _ o (hst i o hio) _ _ h.nphis h.refine (hs o ho s h).2
    (by have := hn.refine.1; omega) hn.refine.2 with h | h
  · exact Or.inl h
  · right; have := hn.refine.1; omega

/-- The section `[qsc]` of an accepted file. -/
theorem first_section (hl : Literals L.lit) (hf : Spec.Sections.WellFormed file)
    (hi : Sections.multioptInput (fun i => (i : ℝ)) 0 file (Pipeline.optNew L.lit L.single) Pipeline.multioptNew = .ok r) :
    ∃ o os, r.opts = o :: os ∧ (∀ o' ∈ r.opts, o'.q = o.q) ∧ Input L.single file o.q ∧
      AllSize o.q.R0c.length (Pipeline.configOf o.q) ∧ 0 < o.q.R0c.length := by
  obtain ⟨t, n, -, -, h1, -, h2, hst⟩ := (Sections.multioptInput_iff (fun i => (i : ℝ)) 0 file hf _ _ r).1 hi
  cases ho : r.opts with
  | nil => rw [ho] at h2; simp at h2; omega
  | cons o os =>
    have h0 := hst 0 o (by rw [ho]; rfl)
    obtain ⟨hq, hpos⟩ := Pipeline.opt_sizes (fun i => (i : ℝ)) 0 file hf _ o h0
    refine ⟨o, os, rfl, fun o' h => ?_, ?_, hq, hpos⟩
    · exact Pipeline.same_start (fun i => (i : ℝ)) 0 file hf _ _ r hi o' o (by rw [ho]; exact h) (by rw [ho]; simp)
    · obtain ⟨-, -, ⟨t, ht, hq⟩, -⟩ := (Sections.optInput_iff (fun i => (i : ℝ)) 0 file hf _ o).1 h0
      exact (input_iff hl L.single hf o.q).1 ((Sections.inputQsc_iff _ _ hf.1 _ _).2 ⟨t, ht, hq⟩)

/-- What a run that ends has done. -/
theorem stages (hl : Literals L.lit) (hf : Spec.Sections.WellFormed file)
    (hi : Sections.multioptInput (fun i => (i : ℝ)) 0 file (Pipeline.optNew L.lit L.single) Pipeline.multioptNew = .ok r)
    (hs : ∀ o ∈ r.opts, ∀ s, IsRaw o.mem s → s.refine < 2 ^ 31 ∧ s.nphis.length < 2 ^ 63)
    (h : run L gsl m0 m1 path file = .ok (out, total)) :
    ∃ q dir ext, (∀ o ∈ r.opts, o.q = q) ∧ Input L.single file q ∧ Outfile.IsInputPath path dir ext ∧
      0 < out.length ∧ out.length = r.opts.length ∧ total = (out.map fun x => x.2.1.nEvals).sum ∧
      ∀ (j : Nat) name st f o, out[j]? = some (name, st, f) → r.opts[j]? = some o →
        name = dir ++ "qsc_out.".toList ++ ext ++ ('_' :: (Nat.repr j).toList) ++ ".nc".toList ∧
        ∃ c n, Begins q (out.map fun x => (x.2.1.q, x.2.1.nphi)) j c n ∧
          AllSize (q.R0c.length + ((r.opts.take j).map Pipeline.refineOf).sum) c ∧
          IsStage L gsl m0 m1 q j o c n (q.R0c.length + ((r.opts.take j).map Pipeline.refineOf).sum) st f := by
  obtain ⟨o, os, ho, hsame, hinp, hsize, hpos⟩ := first_section hl hf hi
  unfold run at h
  split at h
  · cases h
  · rename_i nm hnm
    obtain ⟨dir, ext, hp, -⟩ := OptRun.outfile_cases hnm
    rw [hi] at h
    dsimp only at h
    rw [names_ok hp, ho] at h
    simp only [firstQ] at h
    split at h
    · cases h
    · rename_i hnfp
      split at h
      · cases h
      · rename_i hd
        split at h
        · cases h
        · rename_i sts tot hst
          split at h
          · cases h
          · rename_i fs hfs
            injection h with h
            injection h with e1 e2
            obtain ⟨ch, ht⟩ := chain_none rfl hst
            dsimp only at ch ht
            obtain ⟨-, l1, l2, key⟩ := chain_stages (by simpa using hd) (by omega) ch
              (by rw [← ho]; exact readable hf hi hs) hsize hpos hfs
            have hsts : ∀ g : OptLoop.St ℝ (Result ℝ) → Nat, (out.map fun x => g x.2.1) = sts.map g := by
              intro g
              rw [← e1]
              apply List.ext_getElem
              · simp [l1, l2]
              · intro i h1 h2
                simp
            have hends : (out.map fun x => (x.2.1.q, x.2.1.nphi)) = sts.map fun st => (st.q, st.nphi) := by
              rw [← e1]
              apply List.ext_getElem
              · simp [l1, l2]
              · intro i h1 h2
                simp
            have hlen : out.length = (o :: os).length := by rw [← e1]; simp [l1, l2]
            refine ⟨o.q, dir, ext, hsame, hinp, hp, by rw [hlen]; simp, by rw [ho, hlen], ?_, ?_⟩
            · rw [← e2, ht, hsts]
            · intro j name st f o' hout ho'
              rw [← e1, List.getElem?_zip_eq_some, List.getElem?_zip_eq_some] at hout
              obtain ⟨h1, h2, h3⟩ := hout
              dsimp only at h1 h2 h3
              rw [ho] at ho'
              obtain ⟨c, n, d1, d2, d3, d4⟩ := key j o' st f ho' h2 h3
              have hj : j < (o :: os).length := (List.getElem?_eq_some_iff.1 ho').1
              refine ⟨?_, c, n, ?_, by rw [ho]; exact d3, by rw [ho]; simpa using d4⟩
              · rw [List.getElem?_map, List.getElem?_range hj] at h1
                exact (Option.some.inj h1).symm
              · rw [hends]
                cases j with
                | zero => exact d1 rfl
                | succ i =>
                  have hi' : i < sts.length := by omega
                  obtain ⟨x1, x2⟩ := d2 i _ rfl (List.getElem?_eq_getElem hi')
                  change (sts.map fun st => (st.q, st.nphi))[i]? = some (c, n)
                  rw [List.getElem?_map, List.getElem?_eq_getElem hi', x1, x2]
                  rfl

/-- **C91.** After a multi-stage optimization from an input file there is one output file for each stage, named after
the input file and the number of the stage.  The first stage starts with the configuration in the section `[qsc]`, the
others where the one before ended.  What a stage does not vary keeps its value.  The output file of each stage has
everything that a single run for its final configuration writes, with the same values. -/
theorem stages_in_files (hl : Literals L.lit) (hf : Spec.Sections.WellFormed file)
    (hi : Sections.multioptInput (fun i => (i : ℝ)) 0 file (Pipeline.optNew L.lit L.single) Pipeline.multioptNew = .ok r)
    (hs : ∀ o ∈ r.opts, ∀ s, IsRaw o.mem s → s.refine < 2 ^ 31 ∧ s.nphis.length < 2 ^ 63)
    (h : run L gsl m0 m1 path file = .ok (out, total)) :
    ∃ q dir ext, (∀ o ∈ r.opts, o.q = q) ∧ Input L.single file q ∧ Outfile.IsInputPath path dir ext ∧
      q.order_r_option = "r2.1" ∧ L.single = false ∧
      0 < out.length ∧ out.length = r.opts.length ∧ total = (out.map fun x => x.2.1.nEvals).sum ∧
      ∀ (j : Nat) name st f o s N, out[j]? = some (name, st, f) → r.opts[j]? = some o → IsRaw o.mem s →
        N = q.R0c.length + ((r.opts.take j).map Pipeline.refineOf).sum →
        name = dir ++ "qsc_out.".toList ++ ext ++ ('_' :: (Nat.repr j).toList) ++ ".nc".toList ∧ 2 ≤ s.maxIter ∧
        ∃ c n, Begins q (out.map fun x => (x.2.1.q, x.2.1.nphi)) j c n ∧ AllSize N c ∧ Spec.OptState.Sized s.fl c ∧
          (∀ p, ¬ MayVary s.fl N s.refine.toNat p →
            Spec.OptState.get st.q p = Spec.OptState.get (grow s.refine.toNat c) p) ∧
          AllSize (N + s.refine.toNat) st.q ∧
          (∃ x, st.log.getLast? = some x ∧ st.nphi = gridAt (s.nphis.map Int.toNat) n x.step ∧
            ((∀ i p, ((gsl j i p).iters 0).noProgress = false) → x.q = st.q)) ∧
          Sound (configuration q st.q st.nphi) ∧ Points (configuration q st.q st.nphi) st.nphi ∧
          ∀ {path' dir' ext' : List Char} {file' : Sections.File ℝ} (m0' : Mem ℝ), Outfile.IsInputPath path' dir' ext' →
            Spec.Sections.WellFormed file' → Input L.single file' (configuration q st.q st.nphi) →
            ∃ r f', Single.run L m0' path' file' = .ok (dir' ++ "qsc_out.".toList ++ ext' ++ ".nc".toList, r, f') ∧
              ∀ e ∈ contents f', e ∈ contents f := by
  obtain ⟨q, dir, ext, a1, a2, a3, a4, a5, a6, key⟩ := stages hl hf hi hs h
  have h0 : q.order_r_option = "r2.1" ∧ L.single = false := by
    have hj : 0 < r.opts.length := by omega
    obtain ⟨-, c, n, -, -, s, w, t, -, S⟩ := key 0 _ _ _ _ (List.getElem?_eq_getElem a4) (List.getElem?_eq_getElem hj)
    exact ⟨S.order, S.double⟩
  refine ⟨q, dir, ext, a1, a2, a3, h0.1, h0.2, a4, a5, a6, fun j name st f o s N h1 h2 h3 h4 => ?_⟩
  subst h4
  obtain ⟨b1, c, n, b2, b3, s', w, t, b4, S⟩ := key j name st f o h1 h2
  obtain rfl := Pipeline.isRaw_unique h3 b4
  exact ⟨b1, S.iters, c, n, b2, b3, S.flags, S.out.fixed, S.final hl⟩

/-- **C91.** The file of each stage has the weights and targets of its own section, its numbers of iterations and
evaluations, and its history: the first column has the configuration at the start of the stage, and each column what a
single run for the recorded configuration writes. -/
theorem histories_in_files (ho : L.ops = realOps) (hl : Literals L.lit) (hf : Spec.Sections.WellFormed file)
    (hi : Sections.multioptInput (fun i => (i : ℝ)) 0 file (Pipeline.optNew L.lit L.single) Pipeline.multioptNew = .ok r)
    (hs : ∀ o ∈ r.opts, ∀ s, IsRaw o.mem s → s.refine < 2 ^ 31 ∧ s.nphis.length < 2 ^ 63)
    (h : run L gsl m0 m1 path file = .ok (out, total)) {q : QscIn ℝ} (hq : ∀ o ∈ r.opts, o.q = q)
    {j : Nat} {name : List Char} {st : OptLoop.St ℝ (Result ℝ)} {f : Netcdf.File ℝ} {o : Sections.OptObj ℝ}
    {s : Pipeline.Raw} {c : Config ℝ} {n : Nat} (h1 : out[j]? = some (name, st, f)) (h2 : r.opts[j]? = some o)
    (h3 : IsRaw o.mem s) (hb : Begins q (out.map fun x => (x.2.1.q, x.2.1.nphi)) j c n) :
    Integer f "n_iter" st.log.length ∧ Integer f "n_evals" st.nEvals ∧
    (∀ b : Spec.OptResid.Block, ∃ x, o.mem ("weight_" ++ b.name) = some (.flt x) ∧ Scalar f ("weight_" ++ b.name) x) ∧
    (∀ a ∈ ["target_iota", "min_R0", "max_d2_volume_d_psi2", "min_DMerc_times_r2", "target_axis_length"],
      ∃ x, o.mem a = some (.flt x) ∧ Scalar f a x) ∧
    st.log.length = st.nIter ∧ 0 < st.nIter ∧ Parameters f st.nIter 0 (grow s.refine.toNat c) ∧
    ∃ w t, IsWeights o.mem w ∧ IsTargets o.mem t ∧
    ∀ k x, st.log[k]? = some x → ∀ n', n' = gridAt (s.nphis.map Int.toNat) n x.step →
      IntColumn f st.nIter "iter_fourier_refine_step" k x.step ∧ Parameters f st.nIter k x.q ∧
      Sound (configuration q x.q n') ∧ Points (configuration q x.q n') n' ∧
      ∀ {path' dir' ext' : List Char} {file' : Sections.File ℝ} (m0' : Mem ℝ), Outfile.IsInputPath path' dir' ext' →
        Spec.Sections.WellFormed file' → Input L.single file' (configuration q x.q n') →
        ∃ r f', Single.run L m0' path' file' = .ok (dir' ++ "qsc_out.".toList ++ ext' ++ ".nc".toList, r, f') ∧
          (∃ ph, Says f' n' ph ∧ Objective f st.nIter k w t ph) ∧
          ∀ a ∈ recorded, ∃ x, Scalar f' a.2 x ∧ Column f st.nIter a.1 k x := by
  obtain ⟨q', dir, ext, a1, -, -, a4, a5, -, key⟩ := stages hl hf hi hs h
  obtain rfl : q = q' := by rw [← hq o (List.mem_of_getElem? h2), a1 o (List.mem_of_getElem? h2)]
  obtain ⟨-, c', n', b2, -, s', w, t, b4, S⟩ := key j name st f o h1 h2
  obtain rfl := Pipeline.isRaw_unique h3 b4
  obtain ⟨rfl, rfl⟩ : c = c' ∧ n = n' := by
    cases j with
    | zero => exact ⟨hb.1.trans b2.1.symm, hb.2.trans b2.2.symm⟩
    | succ i =>
      have hb' : (out.map fun x => (x.2.1.q, x.2.1.nphi))[i]? = some (c, n) := hb
      have b2' : (out.map fun x => (x.2.1.q, x.2.1.nphi))[i]? = some (c', n') := b2
      rw [hb'] at b2'
      have := Option.some.inj b2'
      exact ⟨congrArg Prod.fst this, congrArg Prod.snd this⟩
  obtain ⟨s1, s2, s3, s4⟩ := S.settings
  obtain ⟨t1, t2⟩ := S.history ho hl
  have hpos : 0 < st.log.length := List.length_pos_iff.2 S.ran
  have hfirst : st.log[0]? = some st.log[0] := List.getElem?_eq_getElem hpos
  refine ⟨s1, s2, s3, s4, t1, by omega, ?_, w, t, S.weights, S.targets, fun k x hk n' hn' => ?_⟩
  · have := (S.out.first st.log[0] (by rw [List.head?_eq_getElem?]; exact hfirst)).1
    rw [← this]
    exact (t2 0 _ hfirst _ rfl).2.1
  · obtain ⟨u1, u2, u3, u4, -, u6⟩ := t2 k x hk n' hn'
    exact ⟨u1, u2, u3, u4, u6⟩

/-- **C92.** How a multi-stage optimization from an accepted input file can end: with its output files, with an
exception in some stage for one of the reasons of `Refused`, or in a stage that makes no iteration.  The last happens
only in single precision, for an order other than `r2.1`, or if the stage may make fewer than two iterations. -/
theorem outcomes (ho : L.ops = realOps) (hl : Literals L.lit) (hf : Spec.Sections.WellFormed file)
    (hi : Sections.multioptInput (fun i => (i : ℝ)) 0 file (Pipeline.optNew L.lit L.single) Pipeline.multioptNew = .ok r)
    {ss : List Pipeline.Raw} (hss : List.Forall₂ (fun o s => IsRaw o.mem s) r.opts ss)
    (hs : ∀ s ∈ ss, Natural s ∧ s.nphis.length < 2 ^ 63) {q : QscIn ℝ} (hq : ∀ o ∈ r.opts, o.q = q) (hn : 0 ≤ q.nphi)
    (hnfp : 0 < q.nfp) {dir ext : List Char} (hp : Outfile.IsInputPath path dir ext) :
    (∃ out total, run L gsl m0 m1 path file = .ok (out, total)) ∨
    (∃ m, run L gsl m0 m1 path file = .error (.opt (.run (.throw m))) ∧ Stops L q r.opts ss m) ∨
    ∃ j s, run L gsl m0 m1 path file = .error (.idle j) ∧ ss[j]? = some s ∧
      (L.single = true ∨ q.order_r_option ≠ "r2.1" ∨ s.maxIter < 2) := by
  obtain ⟨o, os, hro, -, -, hsize, hpos⟩ := first_section hl hf hi
  obtain rfl : o.q = q := hq o (by rw [hro]; simp)
  have hraw : ∀ o ∈ r.opts, ∀ s, IsRaw o.mem s → s.refine < 2 ^ 31 ∧ s.nphis.length < 2 ^ 63 := by
    intro o' ho' s' hs'
    obtain ⟨i, hi'⟩ := List.getElem?_of_mem ho'
    obtain ⟨hlen, hall⟩ := List.forall₂_iff_get.1 hss
    obtain ⟨hlt, rfl⟩ := List.getElem?_eq_some_iff.1 hi'
    have h1 := hall i hlt (by omega)
    obtain rfl := Pipeline.isRaw_unique hs' h1
    obtain ⟨h2, h3⟩ := hs _ (List.get_mem ..)
    exact ⟨h2.refine.2, h3⟩
  have hread := readable hf hi hraw
  have hss' : List.Forall₂ (fun o s => IsRaw o.mem s ∧ Natural s ∧ Readable o) r.opts ss := by
    rw [List.forall₂_iff_get] at hss ⊢
    exact ⟨hss.1, fun i h1 h2 => ⟨hss.2 i h1 h2, (hs _ (List.get_mem ..)).1, hread _ (List.get_mem ..)⟩⟩
  unfold run
  rw [Outfile.outfile_ok path dir ext hp, hi]
  dsimp only
  rw [names_ok hp]
  rw [hro] at hss' hss ⊢
  simp only [firstQ]
  rw [if_neg (by omega)]
  cases hsingle : L.single with
  | true =>
    cases hss with
    | cons h1 h2 => exact Or.inr (Or.inr ⟨0, _, by simp, rfl, Or.inl rfl⟩)
  | false =>
    rw [if_neg (by simp), runStages_none rfl hn]
    rcases stages_end (L := L) (gsl := gsl) (q := o.q) (j := 0) (k := 0) ho hss' (n := o.q.nphi.toNat) hsize hpos with
      ⟨⟨sts, tot⟩, hx⟩ | ⟨m, hx, hm⟩
    · rw [hx]
      dsimp only
      obtain ⟨ch, -⟩ := chain_some hx
      dsimp only at ch
      rcases write_ends (m0 := m0) (m1 := m1) ch hss' hsize hpos with ⟨fs, hw⟩ | ⟨i, s, hw, h1, h2⟩
      · rw [hw]
        exact Or.inl ⟨_, _, rfl⟩
      · rw [hw]
        exact Or.inr (Or.inr ⟨i, s, by simp, h1, Or.inr h2⟩)
    · rw [hx]
      exact Or.inr (Or.inl ⟨m, rfl, hm⟩)

/-- **C92.** When a multi-stage optimization ends with its output files: for order `r2.1`, double precision, and in
every stage flags of the right sizes, a positive weight, a varied parameter, at least two iterations, and at least as
many residuals as parameters in every step, it does unless LAPACK fails. -/
theorem completes (ho : L.ops = realOps) (hl : Literals L.lit) (hd : L.single = false) (hf : Spec.Sections.WellFormed file)
    (hi : Sections.multioptInput (fun i => (i : ℝ)) 0 file (Pipeline.optNew L.lit L.single) Pipeline.multioptNew = .ok r)
    {ss : List Pipeline.Raw} (hss : List.Forall₂ (fun o s => IsRaw o.mem s) r.opts ss)
    (hs : ∀ s ∈ ss, Natural s ∧ s.nphis.length < 2 ^ 63 ∧ 2 ≤ s.maxIter ∧ ∃ p, Spec.OptState.Varied s.fl p)
    {q : QscIn ℝ} (hq : ∀ o ∈ r.opts, o.q = q) (hn : 0 ≤ q.nphi) (hnfp : 0 < q.nfp) (hord : q.order_r_option = "r2.1")
    {dir ext : List Char} (hp : Outfile.IsInputPath path dir ext)
    (hst : ∀ (j : Nat) o s w N, r.opts[j]? = some o → ss[j]? = some s → IsWeights o.mem w →
      N = q.R0c.length + ((ss.take j).map fun s => s.refine.toNat).sum →
      s.fl.R0c.length = N ∧ s.fl.R0s.length = N ∧ s.fl.Z0c.length = N ∧ s.fl.Z0s.length = N ∧
      (∃ b : Spec.OptResid.Block, 0 < b.weight w) ∧
      ∀ n k (ps : List Spec.OptState.Param) es, GridBefore q.nphi.toNat ss j n → k ≤ s.refine.toNat →
        (∀ p, p ∈ ps ↔ MayVary s.fl N k p) → ps.Pairwise Spec.OptState.Before →
        Spec.OptResid.Entries realRes w (gridAt (s.nphis.map Int.toNat) n k) es → ps.length ≤ es.length) :
    (∃ out total, run L gsl m0 m1 path file = .ok (out, total)) ∨
    (run L gsl m0 m1 path file = .error (.opt (.run (.throw "LAPACK error in *gesv"))) ∧ ∃ n a b, L.gesv n a b = none) ∨
    (run L gsl m0 m1 path file = .error (.opt (.run (.throw "LAPACK error in *geev"))) ∧ ∃ a, L.geev a = none) := by
  rcases outcomes (gsl := gsl) (m0 := m0) (m1 := m1) ho hl hf hi hss (fun s h => ⟨(hs s h).1, (hs s h).2.1⟩) hq hn hnfp hp with
    h | ⟨m, h, i, o, s, w, c, n, h1, h2, h3, -, h5, h6, h7⟩ | ⟨j, s, -, h2, h3⟩
  · exact Or.inl h
  · obtain ⟨g1, g2, g3, g4, ⟨b, hb⟩, g6⟩ := hst i o s w _ h1 h2 h3 rfl
    have hN := h5.R0c
    have hgrid := h6 hord fun s' h => (hs s' (List.mem_of_mem_take h)).2.2.1
    obtain ⟨p, hv⟩ := (hs s (List.mem_of_getElem? h2)).2.2.2
    cases h7 with
    | size h =>
      change _ ∧ _ ≠ c.R0c.length ∨ _ ∧ _ ≠ c.R0c.length ∨ _ ∧ _ ≠ c.R0c.length ∨ _ ∧ _ ≠ c.R0c.length at h
      omega
    | residuals _ h => exact absurd hb (not_lt.2 (h b))
    | parameters _ h => exact absurd hv (h p)
    | order _ h => exact absurd (by change q.order_r_option ∈ _; rw [hord]; simp) h
    | points _ k hk ps hps hs es he h =>
      have hps' : ∀ p, p ∈ ps ↔ MayVary s.fl c.R0c.length k p := hps
      rw [hN] at hps'
      have := g6 n k ps es hgrid hk hps' hs he
      omega
    | gesv hm _ hx => exact Or.inr (Or.inl ⟨by rw [h, hm], hx⟩)
    | geev hm _ hx => exact Or.inr (Or.inr ⟨by rw [h, hm], hx⟩)
  · rcases h3 with h | h | h
    · rw [hd] at h; cases h
    · exact absurd hord h
    · have := (hs s (List.mem_of_getElem? h2)).2.2.1
      omega

end

/-! ## Examples -/

/-- An input file for two stages: the first adds a mode, the second has a finer grid and flags for three modes. -/
noncomputable def exMulti : Sections.File ℝ :=
  Single.exFile "r2.1" 20 ++ [("multiopt", [("nopts", .int 2)]),
    ("opt0", [("weight_B20", .flt 2), ("fourier_refine", .int 1), ("max_iter", .int 10), ("vary_B2c", .int 0)]),
    ("opt1", [("weight_B20", .flt 3), ("max_iter", .int 5), ("nphi", .arr [.int 50]),
      ("vary_R0c", .arr [.bool false, .bool false, .bool true]),
      ("vary_R0s", .arr [.bool false, .bool false, .bool false]),
      ("vary_Z0c", .arr [.bool false, .bool false, .bool false]),
      ("vary_Z0s", .arr [.bool false, .bool false, .bool false])])]

theorem exMultiWell : Spec.Sections.WellFormed exMulti := by
  refine ⟨by simp [exMulti, Single.exFile], ?_⟩
  simp [exMulti, Single.exFile]

/-- The settings and weights of the second stage. -/
def exRaw1 : Pipeline.Raw :=
  ⟨⟨true, false, true, false, [false, false, true], [false, false, false], [false, false, false], [false, false, false]⟩,
    0, 5, [50]⟩

noncomputable def exWeights1 : OptResid.Weights ℝ := { OptRun.exWeights with B20 := 3 }

theorem exMulti_read : ∃ r a b, Sections.multioptInput (fun i => (i : ℝ)) 0 exMulti
      (Pipeline.optNew exLib.lit exLib.single) Pipeline.multioptNew = .ok r ∧ r.opts = [a, b] ∧
    a.q = exInput "r2.1" 20 ∧ b.q = exInput "r2.1" 20 ∧ IsRaw a.mem OptRun.exRaw ∧ IsRaw b.mem exRaw1 ∧
    IsWeights a.mem OptRun.exWeights ∧ IsWeights b.mem exWeights1 := by
  refine ⟨_, _, _, rfl, rfl, rfl, rfl, ⟨rfl, rfl, rfl, rfl, rfl, rfl, rfl, rfl, rfl, rfl, rfl⟩,
    ⟨rfl, rfl, rfl, rfl, rfl, rfl, rfl, rfl, rfl, rfl, rfl⟩, ?_, ?_⟩
  all_goals
    intro k x h
    simp only [weightKeys, List.mem_cons, List.not_mem_nil, or_false, Prod.mk.injEq] at h
    rcases h with ⟨rfl, rfl⟩ | ⟨rfl, rfl⟩ | ⟨rfl, rfl⟩ | ⟨rfl, rfl⟩ | ⟨rfl, rfl⟩ | ⟨rfl, rfl⟩ | ⟨rfl, rfl⟩ | ⟨rfl, rfl⟩ |
      ⟨rfl, rfl⟩ | ⟨rfl, rfl⟩ | ⟨rfl, rfl⟩ | ⟨rfl, rfl⟩ | ⟨rfl, rfl⟩ | ⟨rfl, rfl⟩ | ⟨rfl, rfl⟩ | ⟨rfl, rfl⟩ | ⟨rfl, rfl⟩ |
      ⟨rfl, rfl⟩ | ⟨rfl, rfl⟩ | ⟨rfl, rfl⟩ | ⟨rfl, rfl⟩ <;> rfl

/-- The second stage has at most three parameters. -/
theorem ex_params1 (ps : List Spec.OptState.Param) (h : ∀ p, p ∈ ps ↔ MayVary exRaw1.fl 3 0 p)
    (hs : ps.Pairwise Spec.OptState.Before) : ps.length ≤ 3 := by
  have hnd : ps.Nodup := hs.imp (by rintro a b h rfl; exact absurd h (OptState.Before.irrefl _))
  have hsub : ps ⊆ [.etaBar, .B2c, .R0c 2] := by
    intro p hp
    have := (h p).1 hp
    cases p with
    | etaBar => simp
    | B2c => simp
    | R0c k =>
      rcases this with h | ⟨h1, h2⟩
      · match k, h with
        | 2, _ => simp
        | 0, h => cases h
        | 1, h => cases h
        | k + 3, h => simp [exRaw1, Spec.OptState.Varied] at h
      · omega
    | Z0s k =>
      rcases this with h | ⟨h1, h2⟩
      · match k, h with
        | 0, h => cases h
        | 1, h => cases h
        | 2, h => cases h
        | k + 3, h => simp [exRaw1, Spec.OptState.Varied] at h
      · omega
    | R0s k =>
      match k, this with
      | 0, h => cases h
      | 1, h => cases h
      | 2, h => cases h
      | k + 3, h => simp [MayVary, exRaw1, Spec.OptState.Varied] at h
    | Z0c k =>
      match k, this with
      | 0, h => cases h
      | 1, h => cases h
      | 2, h => cases h
      | k + 3, h => simp [MayVary, exRaw1, Spec.OptState.Varied] at h
    | sigma0 => cases this
    | B2s => cases this
  exact (List.subperm_of_subset hnd hsub).length_le

/-- The second stage has at least 51 residuals. -/
theorem ex_residuals1 (n : Nat) (es : List (Spec.OptResid.Block × Nat))
    (h : Spec.OptResid.Entries realRes exWeights1 (gridAt [50] n 0) es) : 51 ≤ es.length := by
  have hsub : (List.range 51).map (fun i => (Spec.OptResid.Block.B20, i)) ⊆ es := by
    intro e he
    obtain ⟨i, hi, rfl⟩ := List.mem_map.1 he
    refine (h.mem _ _).2 ⟨by simp [realRes, exWeights1, Spec.OptResid.Block.weight], ?_⟩
    rw [List.mem_range] at hi
    simpa [Spec.OptResid.Block.size, Spec.OptResid.Block.single, Spec.OptResid.Block.comps, gridAt] using hi
  have := (List.subperm_of_subset (List.Nodup.map (fun a b h => by simpa using h) List.nodup_range) hsub).length_le
  simpa using this

/-- The two stages end with output files. -/
theorem ex_multi (m0 m1 : Nat → Mem ℝ) : ∃ out total,
    run exLib (fun _ => OptRun.exGsl) m0 m1 "dir/qsc_in.torus".toList exMulti = .ok (out, total) := by
  obtain ⟨r, a, b, h1, h2, h3, h4, h5, h6, h7, h8⟩ := exMulti_read
  rcases completes (L := exLib) (gsl := fun _ => OptRun.exGsl) (m0 := m0) (m1 := m1) rfl exLiterals rfl exMultiWell h1
    (ss := [OptRun.exRaw, exRaw1]) (by rw [h2]; exact .cons h5 (.cons h6 .nil))
    (by
      intro s hs
      simp only [List.mem_cons, List.not_mem_nil, or_false] at hs
      rcases hs with rfl | rfl
      · exact ⟨OptRun.ex_natural, by simp [OptRun.exRaw], by decide, .etaBar, rfl⟩
      · exact ⟨⟨by decide, by decide, by simp [exRaw1]⟩, by simp [exRaw1], by decide, .etaBar, rfl⟩)
    (q := exInput "r2.1" 20)
    (by
      intro o ho
      rw [h2] at ho
      simp only [List.mem_cons, List.not_mem_nil, or_false] at ho
      rcases ho with rfl | rfl
      · exact h3
      · exact h4)
    (by simp [exInput]) (by simp [exInput]) rfl ex_path
    (by
      intro j o s w N e1 e2 e3 e4
      rw [h2] at e1
      match j, e1, e2 with
      | 0, e1, e2 =>
        obtain rfl : a = o := by simpa using e1
        obtain rfl : OptRun.exRaw = s := by simpa using e2
        obtain rfl := OptRun.isWeights_unique h7 e3
        subst e4
        refine ⟨rfl, rfl, rfl, rfl, ⟨.B20, by simp [OptRun.exWeights, Spec.OptResid.Block.weight]⟩, ?_⟩
        intro n k ps es g1 g2 g3 g4 g5
        cases g1
        exact (OptRun.ex_params k g2 ps g3 g4).trans ((by decide : 5 ≤ 21).trans (OptRun.ex_residuals k es g5))
      | 1, e1, e2 =>
        obtain rfl : b = o := by simpa using e1
        obtain rfl : exRaw1 = s := by simpa using e2
        obtain rfl := OptRun.isWeights_unique h8 e3
        subst e4
        refine ⟨rfl, rfl, rfl, rfl, ⟨.B20, by simp [exWeights1, Spec.OptResid.Block.weight]⟩, ?_⟩
        intro n k ps es g1 g2 g3 g4 g5
        obtain rfl : k = 0 := by simpa [exRaw1] using g2
        exact (ex_params1 ps g3 g4).trans ((by decide : 3 ≤ 51).trans (ex_residuals1 n es g5))
      | j + 2, e1, _ => simp at e1)
    with h | ⟨-, n, a, b, h⟩ | ⟨-, a, h⟩
  · exact h
  · cases h
  · cases h

theorem exMulti_small {a b : Sections.OptObj ℝ} (h5 : IsRaw a.mem OptRun.exRaw) (h6 : IsRaw b.mem exRaw1) :
    ∀ o ∈ [a, b], ∀ s, IsRaw o.mem s → s.refine < 2 ^ 31 ∧ s.nphis.length < 2 ^ 63 := by
  intro o ho s hs
  simp only [List.mem_cons, List.not_mem_nil, or_false] at ho
  rcases ho with rfl | rfl
  · obtain rfl := Pipeline.isRaw_unique h5 hs
    exact ⟨by decide, by simp [OptRun.exRaw]⟩
  · obtain rfl := Pipeline.isRaw_unique h6 hs
    exact ⟨by decide, by simp [exRaw1]⟩

/-- There are two files; the second stage starts where the first ended, and its first column says so. -/
example (m0 m1 : Nat → Mem ℝ) : ∃ n1 st1 f1 n2 st2 f2 total,
    run exLib (fun _ => OptRun.exGsl) m0 m1 "dir/qsc_in.torus".toList exMulti = .ok ([(n1, st1, f1), (n2, st2, f2)], total) ∧
    n1 = "dir/qsc_out.torus_0.nc".toList ∧ n2 = "dir/qsc_out.torus_1.nc".toList ∧ total = st1.nEvals + st2.nEvals ∧
    AllSize 3 st1.q ∧ AllSize 3 st2.q ∧ Parameters f2 st2.nIter 0 st1.q ∧ st2.q.sigma0 = st1.q.sigma0 := by
  obtain ⟨r, a, b, h1, h2, h3, h4, h5, h6, h7, h8⟩ := exMulti_read
  obtain ⟨out, total, h⟩ := ex_multi m0 m1
  have hsm : ∀ o ∈ r.opts, ∀ s, IsRaw o.mem s → s.refine < 2 ^ 31 ∧ s.nphis.length < 2 ^ 63 := by
    rw [h2]; exact exMulti_small h5 h6
  obtain ⟨q, dir, ext, a1, a2, a3, -, -, -, a7, a8, key⟩ := stages_in_files exLiterals exMultiWell h1 hsm h
  rw [h2] at a7
  match out, a7 with
  | [(n1, st1, f1), (n2, st2, f2)], _ =>
    have hq : q = exInput "r2.1" 20 := by rw [← a1 a (by rw [h2]; simp), h3]
    obtain ⟨k1, -, c1, m1', -, -, -, -, k6, -⟩ := key 0 n1 st1 f1 a _ _ rfl (by rw [h2]; rfl) h5 rfl
    obtain ⟨l1, -, c2, m2, l2, l3, -, l5, l6, -⟩ := key 1 n2 st2 f2 b _ _ rfl (by rw [h2]; rfl) h6 rfl
    have hN : q.R0c.length + ((r.opts.take 1).map Pipeline.refineOf).sum = 3 := by
      rw [h2, hq]
      simp [refineOf_raw h5, exInput, OptRun.exRaw]
    rw [hN] at l5 l6
    have hc : (st1.q, st1.nphi) = (c2, m2) := Option.some.inj l2
    injection hc with hc1 hc2
    subst hc1 hc2
    obtain ⟨-, -, -, -, -, -, p7, -⟩ := histories_in_files rfl exLiterals exMultiWell h1 hsm h a1 (j := 1) rfl
      (by rw [h2]; rfl) h6 l2
    have hname : ∀ j, dir ++ "qsc_out.".toList ++ ext ++ ('_' :: (Nat.repr j).toList) ++ ".nc".toList
        = "dir/".toList ++ "qsc_out.".toList ++ "torus".toList ++ ('_' :: (Nat.repr j).toList) ++ ".nc".toList := by
      intro j
      have e1 := Outfile.stageOutfile_ok _ _ _ j a3
      rw [Outfile.stageOutfile_ok _ _ _ j ex_path] at e1
      exact (Except.ok.inj e1).symm
    rw [hname] at k1 l1
    refine ⟨n1, st1, f1, n2, st2, f2, total, h, k1, l1, by simpa using a8, ?_, l6, ?_, ?_⟩
    · rw [hq] at k6
      exact k6
    · simpa [grow, exRaw1] using p7
    · have := l5 .sigma0 (by simp [MayVary, Spec.OptState.Varied, exRaw1])
      simpa [Spec.OptState.get, grow] using this

end Qsc.MultiOptRun
