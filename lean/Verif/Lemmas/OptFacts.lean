import Verif.Lemmas.OptRun

/-!
# Lemmas: what an optimization that ends has done, and what is in its output file
-/

namespace Qsc.OptRun
open Qsc.Netcdf Qsc.Spec.Netcdf Qsc.Spec.Output Qsc.Output Qsc.Toml Qsc.Spec.Single Qsc.Single Qsc.OptState
open Qsc.Spec.OptRun Qsc.Spec.OptLoop Qsc.Spec.Pipeline

theorem targetsOf_typed {F : Type} [Field F] {o : Sections.Obj F} (h : Spec.Sections.Typed Spec.Sections.optDoc o) :
    ∃ t, targetsOf o = some t ∧ IsTargets o t := by
  have key : ∀ k, k ∈ ["target_iota", "min_R0", "max_d2_volume_d_psi2", "min_DMerc_times_r2", "target_axis_length"] →
      ∃ b, o k = some (.flt b) := by
    intro k hk
    simp only [List.mem_cons, List.not_mem_nil, or_false] at hk
    rcases hk with rfl | rfl | rfl | rfl | rfl <;> exact Pipeline.typed_flt h (by simp [Spec.Sections.optDoc])
  obtain ⟨a, ha⟩ := key "target_iota" (by simp)
  obtain ⟨b, hb⟩ := key "min_R0" (by simp)
  obtain ⟨c, hc⟩ := key "max_d2_volume_d_psi2" (by simp)
  obtain ⟨d, hd⟩ := key "min_DMerc_times_r2" (by simp)
  obtain ⟨e, he⟩ := key "target_axis_length" (by simp)
  exact ⟨⟨a, b, c, d, e⟩, by simp [targetsOf, Pipeline.getFlt, ha, hb, hc, hd, he], ha, hb, hc, hd, he⟩

/-- What a stage that ends has done: `c0`, with `N` modes, and `n0` are the configuration and the grid at its
start. -/
structure Stage (L : Lib ℝ) (gsl : Nat → (p : Nat) → OptLoop.Gsl ℝ p) (m0 m1 : Mem ℝ)
    (o : Sections.OptObj ℝ) (s : Pipeline.Raw) (w : OptResid.Weights ℝ) (t : OptResid.Targets ℝ) (c0 : Config ℝ)
    (n0 N : Nat) (st : OptLoop.St ℝ (Result ℝ)) (f : Netcdf.File ℝ) : Prop where
  nfp : 0 < o.q.nfp
  double : L.single = false
  nat : Natural s
  order : o.q.order_r_option = "r2.1"
  modes : 0 < N
  iters : 2 ≤ s.maxIter
  flags : Spec.OptState.Sized s.fl c0
  out : OptLoop.Out ((world L gsl o.q).env w) ⟨s.fl, s.refine.toNat, s.maxIter.toNat, s.nphis.map Int.toNat⟩ "r2.1"
    N n0 (grow s.refine.toNat c0) st
  between : OptLoop.Between ((world L gsl o.q).env w) "r2.1" (s.nphis.map Int.toNat) n0 st
  ran : st.log ≠ []
  written : write L m0 m1 o w t (N + s.refine.toNat) st = .ok f
  weights : IsWeights o.mem w
  targets : IsTargets o.mem t

/-- What an optimization that ends has done. -/
structure Facts (L : Lib ℝ) (gsl : Nat → (p : Nat) → OptLoop.Gsl ℝ p) (m0 m1 : Mem ℝ) (path name : List Char)
    (o : Sections.OptObj ℝ) (s : Pipeline.Raw) (w : OptResid.Weights ℝ) (t : OptResid.Targets ℝ)
    (st : OptLoop.St ℝ (Result ℝ)) (f : Netcdf.File ℝ) : Prop extends
    Stage L gsl m0 m1 o s w t (Pipeline.configOf o.q) o.q.nphi.toNat o.q.R0c.length st f where
  name : Outfile.outfile path = .ok name
  nphi : 0 ≤ o.q.nphi

theorem liftRun_ok {α : Type} {x : Except OptState.Err α} {a : α} (h : Pipeline.liftRun x = .ok a) : x = .ok a := by
  cases x with
  | ok b => injection h with h; rw [h]
  | error e => cases e <;> cases h

/-- A stage whose parts are known. -/
theorem stage_of {L : Lib ℝ} {gsl : Nat → (p : Nat) → OptLoop.Gsl ℝ p} {m0 m1 : Mem ℝ} {o : Sections.OptObj ℝ}
    {s : Pipeline.Raw} {w : OptResid.Weights ℝ} {t : OptResid.Targets ℝ} {c0 : Config ℝ} {n0 N : Nat}
    {st : OptLoop.St ℝ (Result ℝ)} {f : Netcdf.File ℝ} (hw : IsWeights o.mem w) (ht : IsTargets o.mem t)
    (hnfp : 0 < o.q.nfp) (hd : L.single = false) (hN : Natural s) (hc : AllSize N c0) (hpos : 0 < N)
    (hnp : s.nphis = [] ∨ s.nphis.length = s.refine.toNat + 1)
    (h : OptLoop.optimize ((world L gsl o.q).env w) ⟨s.fl, s.refine.toNat, s.maxIter.toNat, s.nphis.map Int.toNat⟩
      o.q.order_r_option c0 n0 = .ok st) (h0 : st.nIter ≠ 0)
    (hx : write L m0 m1 o w t (N + s.refine.toNat) st = .ok f) : Stage L gsl m0 m1 o s w t c0 n0 N st f := by
  have hs := OptLoop.optimize_safe ((world L gsl o.q).env w)
    ⟨s.fl, s.refine.toNat, s.maxIter.toNat, s.nphis.map Int.toNat⟩ o.q.order_r_option c0 n0 N hc (by simpa using hnp)
  rw [h] at hs
  obtain ⟨hz, ho⟩ := hs
  have hb := OptLoop.optimize_current h
  have hne : st.log ≠ [] := by
    intro e
    have := ho.hist.len
    rw [e] at this
    exact h0 this.symm
  obtain ⟨hord, hmax⟩ := ho.ran.1 hne
  rw [hord] at ho hb
  have hmax' : 2 ≤ s.maxIter.toNat := hmax
  exact ⟨hnfp, hd, hN, hord, hpos, by omega, hz, ho, hb, hne, hx, hw, ht⟩

theorem facts {L : Lib ℝ} {gsl : Nat → (p : Nat) → OptLoop.Gsl ℝ p} {m0 m1 : Mem ℝ} {path : List Char}
    {file : Sections.File ℝ} (hf : Spec.Sections.WellFormed file) {o : Sections.OptObj ℝ}
    (hi : Sections.optInput (fun i => (i : ℝ)) 0 file (Pipeline.optNew L.lit L.single) = .ok o) {s : Pipeline.Raw}
    (hr : IsRaw o.mem s) (h31 : s.refine < 2 ^ 31) (h63 : s.nphis.length < 2 ^ 63)
    {name : List Char} {st : OptLoop.St ℝ (Result ℝ)} {f : Netcdf.File ℝ}
    (h : run L gsl m0 m1 path file = .ok (name, st, f)) :
    ∃ w t, Facts L gsl m0 m1 path name o s w t st f := by
  obtain ⟨o', e, s', w, t, h1, h2, h3, h4, h5, h6, h7, h8, h9, h10⟩ := unpack h
  obtain rfl : o = o' := by
    rw [hi] at h2
    injection h2
  have ht := Pipeline.optInput_typed (fun i => (i : ℝ)) 0 file hf _ o (Pipeline.optNew_typed L.lit L.single) hi
  obtain ⟨s'', w1, w2⟩ := Pipeline.rawOf_typed ht
  obtain rfl := Pipeline.isRaw_unique hr w2
  obtain ⟨w'', x1, x2⟩ := Pipeline.weightsOf_typed ht
  rw [h4] at x1
  obtain rfl := Option.some.inj x1
  have w3 : Pipeline.readyOpt (world L gsl o.q) o = .ok ((world L gsl o.q).env w, s) := by
    simp [Pipeline.readyOpt, w1, h4, Pipeline.member, Except.bind]
  rw [w3] at h3
  injection h3 with h3
  injection h3 with e1 e2
  subst e1 e2
  obtain ⟨t', y1, y2⟩ := targetsOf_typed ht
  rw [h5] at y1
  obtain rfl := Option.some.inj y1
  obtain ⟨z1, z2⟩ := natural (K := ℝ) h31 h8
  obtain ⟨hq, hpos⟩ := Pipeline.opt_sizes (fun i => (i : ℝ)) 0 file hf _ o hi
  have hnp : s.nphis = [] ∨ s.nphis.length = s.refine.toNat + 1 := by
    rcases Sections.optInput_nphi (fun i => (i : ℝ)) 0 file hf _ o hi _ _ hr.nphis hr.refine h63
      (by have := z2.refine.1; omega) z2.refine.2 with h | h
    · exact Or.inl h
    · right; have := z2.refine.1; omega
  rw [Pipeline.runOpt_eq _ _ z2 _ _ _ z1] at h8
  exact ⟨w, t, stage_of x2 y2 h6 h7 z2 hq hpos hnp (liftRun_ok h8) h9 h10, h1, z1⟩

/-! ## The history in the file -/

theorem gridAt_odd (l : List Nat) (n j : Nat) : gridAt l n j % 2 = 1 := by
  unfold gridAt
  dsimp only
  generalize (if l = [] then n else l.getD j 0) = m
  split <;> omega

theorem holds_column {f : Netcdf.File ℝ} {m k : Nat} {a : String} {α : Type} {log : List α} {c : α} (g : α → ℝ)
    (h : Holds f a [("n_iter", m)] (.flts (log.map g))) (hm : log.length = m) (hk : log[k]? = some c) :
    Column f m a k (g c) :=
  ⟨_, h, by rw [List.length_map, hm], by rw [List.getElem?_map, hk]; rfl⟩

theorem flat_get {α : Type} {log : List α} {c : α} {g : α → List ℝ} {n k j : Nat} (h : ∀ x ∈ log, (g x).length = n)
    (hk : log[k]? = some c) (hj : j < n) : (log.flatMap g)[k * n + j]? = (g c)[j]? := by
  induction log generalizing k with
  | nil => simp at hk
  | cons x l ih =>
    rw [List.flatMap_cons]
    have hx := h x (by simp)
    cases k with
    | zero =>
      obtain rfl : x = c := by simpa using hk
      rw [List.getElem?_append_left (by omega)]
      congr 1
      omega
    | succ k =>
      rw [List.getElem?_append_right (by rw [hx]; nlinarith), hx, ← ih (fun y hy => h y (by simp [hy])) (by simpa using hk)]
      congr 1
      rw [Nat.add_mul, Nat.one_mul]
      omega

/-- All facts about the file. -/
structure Contents (L : Lib ℝ) (o : Sections.OptObj ℝ) (w : OptResid.Weights ℝ) (t : OptResid.Targets ℝ)
    (rows : Nat) (st : OptLoop.St ℝ (Result ℝ)) (f : Netcdf.File ℝ) : Prop where
  iter : Integer f "n_iter" st.nIter
  evals : Integer f "n_evals" st.nEvals
  setting : ∀ a ∈ settingNames, ∀ x, o.mem a = some (.flt x) → Scalar f a x
  step : Holds f "iter_fourier_refine_step" [("n_iter", st.nIter)] (.ints (st.log.map fun c => (c.step : Int)))
  column : ∀ a ∈ columnNames, a ≠ "iter_curvature_term" → Holds f a [("n_iter", st.nIter)]
    (.flts (st.log.map fun c => ((columns L.ops w t c).lookup a).getD 0))
  curvature : Holds f "iter_curvature_term" [("n_iter", st.nIter)]
    (.flts (st.log.map fun c => ((columns L.ops w t c).lookup "iter_elongation_term").getD 0))
  axis : ∀ a ∈ ["iter_R0c", "iter_R0s", "iter_Z0c", "iter_Z0s"],
    Holds f a [("n_iter", st.nIter), ("axis_nmax_plus_1", rows)]
      (.flts (st.log.flatMap fun c => ((axisColumns rows c).lookup a).getD []))

theorem file_contents {L : Lib ℝ} {m0 m1 : Mem ℝ} {o : Sections.OptObj ℝ} {w : OptResid.Weights ℝ}
    {t : OptResid.Targets ℝ} {rows M : Nat} {st : OptLoop.St ℝ (Result ℝ)} {ord : Setup.Order} {r : Result ℝ}
    {f : Netcdf.File ℝ} (hv : Setup.validate o.q.order_r_option = .ok ord) (hodd : st.nphi % 2 = 1)
    (hs : AllSize rows st.q) (hr : 0 < rows) (hc : Single.calculate L (atPoint o.q st.q st.nphi) st.nphi ord = .ok r)
    (hh : OptLoop.HistOk M st) (hw : write L m0 m1 o w t rows st = .ok f) : Contents L o w t rows st f := by
  obtain ⟨f0, f', -, h2, -, h4, h5, h6, h7, h8⟩ := write_ok m0 m1 w t hv hodd hs hr hc hh
  rw [hw] at h2
  obtain rfl := Except.ok.inj h2
  refine ⟨?_, ?_, ?_, ?_, ?_, ?_, ?_⟩
  · have := h7 "n_iter" (by decide +kernel)
    rwa [member_iter] at this
  · have := h7 "n_evals" (by decide +kernel)
    rwa [member_evals] at this
  · intro a ha x hx
    have := h7 a (by clear hx; revert a; decide +kernel)
    rw [member_setting ha, Pipeline.getFlt_some hx] at this
    exact this
  · have := h8 "iter_fourier_refine_step" (by decide +kernel)
    rw [member_step] at this
    simp only [first, take_hist hh] at this
    exact this
  · intro a ha hne
    have := h4 (a, .atLeast [1]) (by revert a; decide +kernel) rfl hne
    simp only [member_column ha, first, take_hist hh] at this
    exact this
  · rw [member_column (by decide +kernel)] at h6
    simp only [first, take_hist hh] at h6
    exact h6
  · intro a ha
    have := h5 (a, .atLeast [0, 1]) (by revert a; decide +kernel) rfl
    simp only [member_axis ha, first, take_axis ha hh] at this
    exact this

end Qsc.OptRun
