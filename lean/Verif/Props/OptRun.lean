import Verif.Lemmas.OptFacts

/-!
# An optimization from the input file to the output file (C86-C88)
-/

namespace Qsc.OptRun
open Qsc.Netcdf Qsc.Spec.Netcdf Qsc.Spec.Output Qsc.Output Qsc.Toml Qsc.Spec.Single Qsc.Single Qsc.OptState
open Qsc.Spec.OptRun Qsc.Spec.OptLoop Qsc.Spec.Pipeline

/-- The section `[qsc]` that describes a configuration. -/
def sectionOf (p : QscIn ℝ) : Table ℝ :=
  [("nphi", .int p.nphi), ("nfp", .int p.nfp), ("eta_bar", .flt p.eta_bar), ("spsi", .int p.spsi), ("sG", .int p.sG),
   ("B0", .flt p.B0), ("I2", .flt p.I2), ("sigma0", .flt p.sigma0), ("B2s", .flt p.B2s), ("B2c", .flt p.B2c),
   ("p2", .flt p.p2), ("max_newton_iterations", .int p.max_newton_iterations),
   ("max_linesearch_iterations", .int p.max_linesearch_iterations), ("newton_tolerance", .flt p.newton_tolerance),
   ("verbose", .int p.verbose), ("order_r_option", .str p.order_r_option), ("R0c", .arr (p.R0c.map .flt)),
   ("R0s", .arr (p.R0s.map .flt)), ("Z0c", .arr (p.Z0c.map .flt)), ("Z0s", .arr (p.Z0s.map .flt))]

theorem reads_mem {α : Type} {is : Value ℝ → α → Prop} {t : Table ℝ} (ht : (t.map (·.1)).Nodup) {k : Key} {x : Value ℝ}
    {d v : α} (h : (k, x) ∈ t) (hx : is x v) : Spec.Toml.Reads is t k d v := by
  refine ⟨fun h' => absurd h (h' x), fun y hy => ?_⟩
  have e : (k, y) = (k, x) := List.inj_on_of_nodup_map ht hy h rfl
  injection e with _ e
  rw [e]
  exact hx

theorem padded_self (v : List ℝ) {n : Nat} (h : v.length = n) : Spec.Toml.PaddedTo 0 n v v :=
  ⟨h, h.le, fun i hi => List.getElem?_eq_getElem hi, fun i h1 h2 => absurd h2 (by omega)⟩

/-- Every configuration can be described by an input file with the section `qsc` alone. -/
theorem describable_table (single : Bool) (p : QscIn ℝ) {N : Nat} (h1 : p.R0c.length = N) (h2 : p.R0s.length = N)
    (h3 : p.Z0c.length = N) (h4 : p.Z0s.length = N) :
    ∃ t, Spec.Sections.WellFormed [("qsc", t)] ∧ Input single [("qsc", t)] p := by
  have hn : ((sectionOf p).map (·.1)).Nodup := by
    have : (sectionOf p).map (·.1) = ["nphi", "nfp", "eta_bar", "spsi", "sG", "B0", "I2", "sigma0", "B2s", "B2c", "p2",
      "max_newton_iterations", "max_linesearch_iterations", "newton_tolerance", "verbose", "order_r_option", "R0c",
      "R0s", "Z0c", "Z0s"] := rfl
    rw [this]
    decide
  refine ⟨sectionOf p, ⟨by simp, ?_⟩, sectionOf p, by simp, ?_⟩
  · intro t ht
    obtain rfl := List.mem_singleton.1 ht
    exact hn
  · refine ⟨?_, reads_mem hn (x := .int p.nphi) (by simp [sectionOf]) rfl,
      reads_mem hn (x := .int p.nfp) (by simp [sectionOf]) rfl,
      reads_mem hn (x := .flt p.eta_bar) (by simp [sectionOf]) (Or.inl rfl),
      reads_mem hn (x := .int p.spsi) (by simp [sectionOf]) rfl,
      reads_mem hn (x := .int p.sG) (by simp [sectionOf]) rfl,
      reads_mem hn (x := .flt p.B0) (by simp [sectionOf]) (Or.inl rfl),
      reads_mem hn (x := .flt p.I2) (by simp [sectionOf]) (Or.inl rfl),
      reads_mem hn (x := .flt p.sigma0) (by simp [sectionOf]) (Or.inl rfl),
      reads_mem hn (x := .flt p.B2s) (by simp [sectionOf]) (Or.inl rfl),
      reads_mem hn (x := .flt p.B2c) (by simp [sectionOf]) (Or.inl rfl),
      reads_mem hn (x := .flt p.p2) (by simp [sectionOf]) (Or.inl rfl),
      reads_mem hn (x := .int p.max_newton_iterations) (by simp [sectionOf]) rfl,
      reads_mem hn (x := .int p.max_linesearch_iterations) (by simp [sectionOf]) rfl,
      reads_mem hn (x := .flt p.newton_tolerance) (by simp [sectionOf]) (Or.inl rfl),
      reads_mem hn (x := .int p.verbose) (by simp [sectionOf]) rfl,
      reads_mem hn (x := .str p.order_r_option) (by simp [sectionOf]) rfl, p.R0c, p.R0s, p.Z0c, p.Z0s,
      reads_mem hn (x := .arr (p.R0c.map .flt)) (by simp [sectionOf]) rfl,
      reads_mem hn (x := .arr (p.R0s.map .flt)) (by simp [sectionOf]) rfl,
      reads_mem hn (x := .arr (p.Z0c.map .flt)) (by simp [sectionOf]) rfl,
      reads_mem hn (x := .arr (p.Z0s.map .flt)) (by simp [sectionOf]) rfl, ?_⟩
    · intro k x hx
      have := List.mem_map_of_mem (f := (·.1)) hx
      exact this
    · dsimp only
      rw [h1, h2, h3, h4]
      simp only [max_self]
      exact ⟨padded_self _ h1, padded_self _ h2, padded_self _ h3, padded_self _ h4⟩

/-- Every configuration whose axis arrays have equal lengths is described by an input file. -/
theorem describable (single : Bool) (p : QscIn ℝ) {N : Nat} (h1 : p.R0c.length = N) (h2 : p.R0s.length = N)
    (h3 : p.Z0c.length = N) (h4 : p.Z0s.length = N) :
    ∃ file, Spec.Sections.WellFormed file ∧ Input single file p :=
  let ⟨_, h5, h6⟩ := describable_table single p h1 h2 h3 h4
  ⟨_, h5, h6⟩

section
variable {L : Lib ℝ} {gsl : Nat → (p : Nat) → OptLoop.Gsl ℝ p} {m0 m1 : Mem ℝ} {path : List Char}
  {file : Sections.File ℝ} {o : Sections.OptObj ℝ} {s : Pipeline.Raw} {name : List Char}
  {st : OptLoop.St ℝ (Result ℝ)} {f : Netcdf.File ℝ}

theorem outfile_cases {path name : List Char} (h : Outfile.outfile path = .ok name) :
    ∃ dir ext, Outfile.IsInputPath path dir ext ∧ name = dir ++ "qsc_out.".toList ++ ext ++ ".nc".toList := by
  by_cases hp : ∃ dir ext, Outfile.IsInputPath path dir ext
  · obtain ⟨dir, ext, hp⟩ := hp
    rw [Outfile.outfile_ok path dir ext hp] at h
    injection h with h
    exact ⟨dir, ext, hp, h.symm⟩
  · rw [(Outfile.outfile_error_iff path).2 hp] at h
    cases h

/-- What the optimizer worked with is what the input file says. -/
theorem opt_input (hl : Literals L.lit) (hf : Spec.Sections.WellFormed file)
    (hi : Sections.optInput (fun i => (i : ℝ)) 0 file (Pipeline.optNew L.lit L.single) = .ok o) :
    Input L.single file o.q := by
  obtain ⟨-, -, ⟨t, ht, hq⟩, -⟩ := (Sections.optInput_iff (fun i => (i : ℝ)) 0 file hf _ o).1 hi
  exact (input_iff hl L.single hf o.q).1 ((Sections.inputQsc_iff _ _ hf.1 _ _).2 ⟨t, ht, hq⟩)

theorem sound_at {c : Config ℝ} {n N : Nat} (hord : o.q.order_r_option = "r2.1") (hn : 0 < o.q.nfp) (hs : AllSize N c)
    (hN : 0 < N) (hodd : n % 2 = 1) :
    Sound (configuration o.q c n) ∧ Points (configuration o.q c n) n := by
  refine ⟨⟨?_, by simp [configuration], hn, ?_⟩, Or.inl ⟨rfl, hodd⟩⟩
  · change o.q.order_r_option ∈ _
    rw [hord]
    simp
  · change c.R0c ≠ []
    exact List.ne_nil_of_length_pos (by rw [hs.1]; exact hN)

/-- The single runs for a configuration that the optimizer has evaluated. -/
theorem evaluated (hl : Literals L.lit) {c : Config ℝ} {n N : Nat} {r : Result ℝ}
    (hord : o.q.order_r_option = "r2.1") (hn : 0 < o.q.nfp) (hs : AllSize N c) (hN : 0 < N) (hodd : n % 2 = 1)
    (hc : Single.calculate L (atPoint o.q c n) n ⟨true, true, true⟩ = .ok r) (m0' : Mem ℝ)
    {path' dir' ext' : List Char} (hp : Outfile.IsInputPath path' dir' ext') {file' : Sections.File ℝ}
    (hf : Spec.Sections.WellFormed file') (hi : Input L.single file' (configuration o.q c n)) :
    ∃ f', Single.run L m0' path' file' = .ok (dir' ++ "qsc_out.".toList ++ ext' ++ ".nc".toList, r, f') ∧
      (∀ m0', writeQsc L.toF ⟨flags ⟨true, true, true⟩, final L.ops m0' (atPoint o.q c n) ⟨true, true, true⟩ n r⟩ = .ok f') ∧
      Vars L.ops (atPoint o.q c n) ⟨true, true, true⟩ n r f' :=
  single_run (by rw [hord]; rfl) hodd hs hN hn hc m0' (Outfile.outfile_ok _ _ _ hp)
    ((input_iff hl L.single hf _).2 hi)

theorem physics_r2p1 {q : QscIn ℝ} {c : Config ℝ} {n : Nat} {r : Result ℝ} (hord : q.order_r_option = "r2.1")
    (h : physics L q c n = .ok r) : Single.calculate L (atPoint q c n) n ⟨true, true, true⟩ = .ok r := by
  obtain ⟨ord, h1, h2⟩ := physics_ok.1 h
  rw [hord] at h1
  injection h1 with h1
  rw [h1]
  exact h2

section
variable {w : OptResid.Weights ℝ} {t : OptResid.Targets ℝ} {c0 : Config ℝ} {n0 N : Nat}

/-- The final configuration of a stage, and what its output file says about it. -/
theorem Stage.final (hl : Literals L.lit) (F : Stage L gsl m0 m1 o s w t c0 n0 N st f) :
    AllSize (N + s.refine.toNat) st.q ∧
    (∃ c, st.log.getLast? = some c ∧ st.nphi = gridAt (s.nphis.map Int.toNat) n0 c.step ∧
      ((∀ j p, ((gsl j p).iters 0).noProgress = false) → c.q = st.q)) ∧
    Sound (configuration o.q st.q st.nphi) ∧ Points (configuration o.q st.q st.nphi) st.nphi ∧
    ∀ {path' dir' ext' : List Char} {file' : Sections.File ℝ} (m0' : Mem ℝ), Outfile.IsInputPath path' dir' ext' →
      Spec.Sections.WellFormed file' → Input L.single file' (configuration o.q st.q st.nphi) →
      ∃ r f', Single.run L m0' path' file' = .ok (dir' ++ "qsc_out.".toList ++ ext' ++ ".nc".toList, r, f') ∧
        ∀ e ∈ contents f', e ∈ contents f := by
  have hpos : 0 < N + s.refine.toNat := by have := F.modes; omega
  obtain ⟨m, hm⟩ := F.between.odd
  have hodd := odd_nphi ⟨m, hm⟩
  obtain ⟨-, ⟨c, hc1, hc2⟩, r, hr'⟩ := F.between.cur.resolve_left F.ran
  have hcalc := physics_r2p1 F.order hr'
  obtain ⟨hs1, hs2⟩ := sound_at F.order F.nfp F.out.size hpos hodd
  refine ⟨F.out.size, ⟨c, hc1, hc2, fun hp => ?_⟩, hs1, hs2, ?_⟩
  · rcases (F.out.cont hp).cur with h | h
    · rw [hc1] at h
      exact Option.some.inj h
    · exact absurd h.1 F.ran
  · intro path' dir' ext' file' m0' p1 p2 p3
    obtain ⟨f', e1, e2, -⟩ := evaluated hl F.order F.nfp F.out.size hpos hodd hcalc m0' p1 p2 p3
    refine ⟨r, f', e1, ?_⟩
    obtain ⟨f0, f'', a1, a2, a3, -⟩ := write_ok (ord := ⟨true, true, true⟩) m0 m1 w t (by rw [F.order]; rfl) hodd
      F.out.size hpos hcalc F.out.hist
    have a2' : write L m0 m1 o w t (N + s.refine.toNat) st = .ok f'' := a2
    rw [F.written] at a2'
    obtain rfl := Except.ok.inj a2'
    rw [e2 m0] at a1
    obtain rfl := Except.ok.inj a1
    exact a3

/-- What is in the file of a stage besides. -/
theorem Stage.contents_file (F : Stage L gsl m0 m1 o s w t c0 n0 N st f) : Contents L o w t (N + s.refine.toNat) st f := by
  obtain ⟨m, hm⟩ := F.between.odd
  obtain ⟨-, -, r, hr'⟩ := F.between.cur.resolve_left F.ran
  exact file_contents (ord := ⟨true, true, true⟩) (by rw [F.order]; rfl) (odd_nphi ⟨m, hm⟩) F.out.size
    (by have := F.modes; omega) (physics_r2p1 F.order hr') F.out.hist F.written

/-- The settings in the file of a stage. -/
theorem Stage.settings (F : Stage L gsl m0 m1 o s w t c0 n0 N st f) :
    Integer f "n_iter" st.log.length ∧ Integer f "n_evals" st.nEvals ∧
    (∀ b : Spec.OptResid.Block, ∃ x, o.mem ("weight_" ++ b.name) = some (.flt x) ∧ Scalar f ("weight_" ++ b.name) x) ∧
    ∀ a ∈ ["target_iota", "min_R0", "max_d2_volume_d_psi2", "min_DMerc_times_r2", "target_axis_length"],
      ∃ x, o.mem a = some (.flt x) ∧ Scalar f a x := by
  have C := F.contents_file
  refine ⟨?_, C.evals, fun b => ?_, fun a ha => ?_⟩
  · have := C.iter
    rwa [← F.out.hist.len] at this
  · have hw : o.mem ("weight_" ++ b.name) = some (.flt (b.weight w)) := F.weights _ _ (by
      cases b <;> simp [weightKeys, Spec.OptResid.Block.weight, Spec.OptResid.Block.name])
    exact ⟨_, hw, C.setting _ (by clear hw; cases b <;> decide) _ hw⟩
  · have : ∃ x, o.mem a = some (.flt x) := by
      simp only [List.mem_cons, List.not_mem_nil, or_false] at ha
      rcases ha with rfl | rfl | rfl | rfl | rfl
      exacts [⟨_, F.targets.target_iota⟩, ⟨_, F.targets.min_R0⟩, ⟨_, F.targets.max_d2_volume_d_psi2⟩,
        ⟨_, F.targets.min_DMerc_times_r2⟩, ⟨_, F.targets.target_axis_length⟩]
    obtain ⟨x, hx⟩ := this
    exact ⟨x, hx, C.setting a (by clear hx; revert a; decide +kernel) x hx⟩

end

/-- **C86.** After an optimization from an input file, the output file has everything that a single run for the
final configuration writes, with the same values.  The final configuration is that of the input file with the
parameters of the optimizer, on the grid of the last step. -/
theorem final_in_file (hl : Literals L.lit) (hf : Spec.Sections.WellFormed file)
    (hi : Sections.optInput (fun i => (i : ℝ)) 0 file (Pipeline.optNew L.lit L.single) = .ok o)
    (hr : IsRaw o.mem s) (h31 : s.refine < 2 ^ 31) (h63 : s.nphis.length < 2 ^ 63)
    (h : run L gsl m0 m1 path file = .ok (name, st, f)) :
    (∃ dir ext, Outfile.IsInputPath path dir ext ∧ name = dir ++ "qsc_out.".toList ++ ext ++ ".nc".toList) ∧
    Input L.single file o.q ∧ o.q.order_r_option = "r2.1" ∧ L.single = false ∧ 2 ≤ s.maxIter ∧
    AllSize (o.q.R0c.length + s.refine.toNat) st.q ∧
    (∃ c, st.log.getLast? = some c ∧ st.nphi = gridAt (s.nphis.map Int.toNat) o.q.nphi.toNat c.step ∧
      ((∀ j p, ((gsl j p).iters 0).noProgress = false) → c.q = st.q)) ∧
    Sound (configuration o.q st.q st.nphi) ∧ Points (configuration o.q st.q st.nphi) st.nphi ∧
    ∀ {path' dir' ext' : List Char} {file' : Sections.File ℝ} (m0' : Mem ℝ), Outfile.IsInputPath path' dir' ext' →
      Spec.Sections.WellFormed file' → Input L.single file' (configuration o.q st.q st.nphi) →
      ∃ r f', Single.run L m0' path' file' = .ok (dir' ++ "qsc_out.".toList ++ ext' ++ ".nc".toList, r, f') ∧
        ∀ e ∈ contents f', e ∈ contents f := by
  obtain ⟨w, t, F⟩ := facts hf hi hr h31 h63 h
  exact ⟨outfile_cases F.name, opt_input hl hf hi, F.order, F.double, F.iters, F.toStage.final hl⟩

/-- **C86.** The weights and targets in the output file are those that the input file sets; the numbers of
iterations and evaluations are those of the optimizer. -/
theorem settings_in_file (hf : Spec.Sections.WellFormed file)
    (hi : Sections.optInput (fun i => (i : ℝ)) 0 file (Pipeline.optNew L.lit L.single) = .ok o)
    (hr : IsRaw o.mem s) (h31 : s.refine < 2 ^ 31) (h63 : s.nphis.length < 2 ^ 63)
    (h : run L gsl m0 m1 path file = .ok (name, st, f)) :
    Integer f "n_iter" st.log.length ∧ Integer f "n_evals" st.nEvals ∧
    (∀ b : Spec.OptResid.Block, ∃ x, o.mem ("weight_" ++ b.name) = some (.flt x) ∧ Scalar f ("weight_" ++ b.name) x) ∧
    ∀ a ∈ ["target_iota", "min_R0", "max_d2_volume_d_psi2", "min_DMerc_times_r2", "target_axis_length"],
      ∃ x, o.mem a = some (.flt x) ∧ Scalar f a x := by
  obtain ⟨w, t, F⟩ := facts hf hi hr h31 h63 h
  exact F.toStage.settings

theorem column_in {rows : Nat} {w : OptResid.Weights ℝ} {t : OptResid.Targets ℝ} (C : Contents L o w t rows st f)
    (hlen : st.log.length = st.nIter) {k : Nat} {c : OptLoop.Rec ℝ (Result ℝ)} (hk : st.log[k]? = some c) {a : String}
    {x : ℝ} (h : (a, x) ∈ columns L.ops w t c) (hne : a ≠ "iter_curvature_term") : Column f st.nIter a k x := by
  have ha : a ∈ columnNames := by
    rw [← columns_names L.ops w t c]
    exact List.mem_map.2 ⟨_, h, rfl⟩
  have := holds_column (fun c => ((columns L.ops w t c).lookup a).getD 0) (C.column a ha hne) hlen hk
  rwa [column_eq h] at this

theorem axis_in {rows : Nat} {w : OptResid.Weights ℝ} {t : OptResid.Targets ℝ} (C : Contents L o w t rows st f)
    {k : Nat} {c : OptLoop.Rec ℝ (Result ℝ)} (hk : st.log[k]? = some c) (hs : AllSize rows c.q)
    (hlen : st.log.length = st.nIter) {a : String} {v : List ℝ}
    (ha : (a, v) ∈ [("iter_R0c", c.q.R0c), ("iter_R0s", c.q.R0s), ("iter_Z0c", c.q.Z0c), ("iter_Z0s", c.q.Z0s)]) :
    AxisColumn f st.nIter a k v := by
  have h1 : a ∈ ["iter_R0c", "iter_R0s", "iter_Z0c", "iter_Z0s"] := by
    have := List.mem_map_of_mem (f := (·.1)) ha
    exact this
  obtain ⟨s1, s2, s3, s4⟩ := hs
  have h2 : v.length = rows ∧ ∀ j, j < rows → (((axisColumns rows c).lookup a).getD [])[j]? = v[j]? := by
    simp only [List.mem_cons, List.not_mem_nil, or_false, Prod.mk.injEq] at ha
    rcases ha with ⟨rfl, rfl⟩ | ⟨rfl, rfl⟩ | ⟨rfl, rfl⟩ | ⟨rfl, rfl⟩
    · refine ⟨s1, fun j hj => ?_⟩
      simp [axisColumns, List.lookup, hj, s1, List.getElem?_eq_getElem]
    · refine ⟨s2, fun j hj => ?_⟩
      simp [axisColumns, List.lookup, hj, s1, s2, List.getElem?_eq_getElem]
    · refine ⟨s3, fun j hj => ?_⟩
      simp [axisColumns, List.lookup, hj, s1, s3, List.getElem?_eq_getElem]
    · refine ⟨s4, fun j hj => ?_⟩
      simp [axisColumns, List.lookup, hj, s1, s4, List.getElem?_eq_getElem]
  have h3 := C.axis a h1
  rw [← h2.1] at h3
  refine ⟨_, h3, ?_, fun j hj => ?_⟩
  · rw [flat_length (n := v.length) fun x _ => by rw [h2.1]; exact axisColumns_length rows x h1, hlen]
    ring
  · rw [flat_get (n := v.length) (fun x _ => by rw [h2.1]; exact axisColumns_length rows x h1) hk hj, h2.1,
      h2.2 j (by omega)]

theorem termsOf_eq {w : OptResid.Weights ℝ} {n : Nat} {es : List (Spec.OptResid.Block × Nat)}
    (h : Spec.OptResid.Entries realRes w n es) : Pipeline.termsOf realRes w n = es.length := by
  obtain ⟨fs, h1, -, h3⟩ := OptResid.names_entries realRes w n
  obtain rfl := OptResid.entries_determined h h1
  unfold Pipeline.termsOf
  rw [h3]
  split
  · rename_i hx
    split at hx
    · cases hx
    · cases hx; rfl
  · rename_i hx
    split at hx
    · rename_i e; rw [e]; rfl
    · cases hx

theorem realRes_exact : OptResid.Exact realRes := ⟨fun a b => by simp [realRes], rfl⟩

theorem resOps_real : resOps realOps = realRes := by
  unfold resOps realRes realOps
  simp

/-- The terms and the objective that are recorded. -/
theorem terms_eq (w : OptResid.Weights ℝ) (t : OptResid.Targets ℝ) (r : Result ℝ) :
    (∃ es, Spec.OptResid.Entries realRes w (physOf realOps r).nphi es ∧ (termsAt realOps w t r).1 =
      1 / 2 * (es.map fun e => (e.1.weight w * Spec.OptResid.value realRes t (physOf realOps r) e.1 e.2) ^ 2).sum) ∧
    ∀ b : Spec.OptResid.Block, (termsAt realOps w t r).2.getD b.rank 0 =
      ∑ i ∈ Finset.range (b.size (physOf realOps r).nphi), Spec.OptResid.value realRes t (physOf realOps r) b i ^ 2 := by
  obtain ⟨es, h1, -⟩ := OptResid.names_entries realRes w (physOf realOps r).nphi
  have hlen : Pipeline.termsOf realRes w (physOf realOps r).nphi = es.length := termsOf_eq h1
  obtain ⟨obj, terms, res', a1, a2, -, a4⟩ := OptResid.objective_half realRes realRes_exact w t (physOf realOps r) h1
    (List.replicate es.length 0) (by simp)
  obtain ⟨obj', terms', b1⟩ := OptResid.residual_entries realRes w t (physOf realOps r) h1
    (List.replicate es.length 0) (by simp)
  rw [a1] at b1
  injection b1 with b1
  injection b1 with b1 b2
  injection b2 with b2 b3
  have e : termsAt realOps w t r = (obj, terms) := by
    unfold termsAt
    rw [resOps_real]
    dsimp only
    rw [show r.cfg.nphi = (physOf realOps r).nphi from rfl, hlen, a1]
  rw [e]
  refine ⟨⟨es, h1, ?_⟩, fun b => ?_⟩
  · rw [a2, b3, List.map_map]
    rfl
  · rw [List.getD_eq_getElem?_getD, a4 b]
    exact (Multiset.sum_coe _).symm

/-- The history in the file of a stage. -/
theorem Stage.history {w : OptResid.Weights ℝ} {t : OptResid.Targets ℝ} {c0 : Config ℝ} {n0 N : Nat}
    (ho : L.ops = realOps) (hl : Literals L.lit) (F : Stage L gsl m0 m1 o s w t c0 n0 N st f) :
    st.log.length = st.nIter ∧
    ∀ k c, st.log[k]? = some c → ∀ n, n = gridAt (s.nphis.map Int.toNat) n0 c.step →
      IntColumn f st.nIter "iter_fourier_refine_step" k c.step ∧ Parameters f st.nIter k c.q ∧
      Sound (configuration o.q c.q n) ∧ Points (configuration o.q c.q n) n ∧
      AllSize (N + s.refine.toNat) c.q ∧
      ∀ {path' dir' ext' : List Char} {file' : Sections.File ℝ} (m0' : Mem ℝ), Outfile.IsInputPath path' dir' ext' →
        Spec.Sections.WellFormed file' → Input L.single file' (configuration o.q c.q n) →
        ∃ r f', Single.run L m0' path' file' = .ok (dir' ++ "qsc_out.".toList ++ ext' ++ ".nc".toList, r, f') ∧
          (∃ ph, Says f' n ph ∧ Objective f st.nIter k w t ph) ∧
          ∀ a ∈ recorded, ∃ x, Scalar f' a.2 x ∧ Column f st.nIter a.1 k x := by
  have C := F.contents_file
  have hlen := F.out.hist.len
  have hpos : 0 < N + s.refine.toNat := by have := F.modes; omega
  refine ⟨hlen, fun k c hk n hn => ?_⟩
  have hrec := F.out.recs c (List.mem_of_getElem? hk)
  have hodd : n % 2 = 1 := by rw [hn]; exact gridAt_odd _ _ _
  have hcalc : Single.calculate L (atPoint o.q c.q n) n ⟨true, true, true⟩ = .ok c.phys := by
    have := hrec.phys
    rw [← hn] at this
    exact physics_r2p1 F.order this
  have hsz : AllSize (N + s.refine.toNat) c.q := hrec.size
  obtain ⟨hs1, hs2⟩ := sound_at F.order F.nfp hsz hpos hodd
  have col : ∀ {a : String} {x : ℝ}, (a, x) ∈ columns L.ops w t c → a ≠ "iter_curvature_term" → Column f st.nIter a k x :=
    fun hm hne => column_in C hlen hk hm hne
  have par : ∀ a ∈ [("iter_eta_bar", c.q.etaBar), ("iter_sigma0", c.q.sigma0), ("iter_B2c", c.q.B2c), ("iter_B2s", c.q.B2s)],
      Column f st.nIter a.1 k a.2 := by
    intro a ha
    refine col (List.mem_append_left _ (List.mem_append_right _ ha)) ?_
    simp only [List.mem_cons, List.not_mem_nil, or_false] at ha
    rcases ha with rfl | rfl | rfl | rfl <;> simp
  have ax := fun {a v} => axis_in (a := a) (v := v) C hk hrec.size hlen
  refine ⟨⟨_, C.step, by rw [List.length_map, hlen], by rw [List.getElem?_map, hk]; rfl⟩,
    ⟨par (_, _) (by simp), par (_, _) (by simp), par (_, _) (by simp), par (_, _) (by simp), ax (by simp), ax (by simp), ax (by simp),
      ax (by simp)⟩, hs1, hs2, hrec.size, ?_⟩
  intro path' dir' ext' file' m0' p1 p2 p3
  obtain ⟨f', e1, -, hv⟩ := evaluated hl F.order F.nfp hrec.size hpos hodd hcalc m0' p1 p2 p3
  rw [ho] at hv
  obtain ⟨c1, c2⟩ := calculate_cfg hcalc
  have hdone := calculate_done (by simp) hcalc
  obtain ⟨d, hd⟩ : ∃ d, c.phys.second = some d := Option.isSome_iff_exists.1 hdone.2.1
  obtain ⟨t3, ht3⟩ : ∃ t3, d.third = some t3 := by
    have := hdone.2.2
    unfold isThird at this
    rw [hd] at this
    exact Option.isSome_iff_exists.1 this
  obtain ⟨⟨es, he1, he2⟩, hterms⟩ := terms_eq w t c.phys
  refine ⟨c.phys, f', e1, ⟨physOf realOps c.phys, says_phys hv c1 c2 F.nfp hd ht3, ?_, ?_, es, he1, ?_⟩, ?_⟩
  · intro b hb
    rw [← hterms b]
    refine col (List.mem_append_left _ (List.mem_append_left _ (List.mem_append_right _ ?_))) ?_
    · rw [ho]
      refine List.mem_map.2 ⟨("iter_" ++ b.name ++ "_term", b.rank), ?_, rfl⟩
      cases b <;> decide +kernel
    · cases b <;> first | exact absurd rfl hb | decide +kernel
  · have := holds_column (fun c => ((columns L.ops w t c).lookup "iter_elongation_term").getD 0) C.curvature hlen hk
    rw [column_eq (x := (termsAt L.ops w t c.phys).2.getD 2 0)
      (List.mem_append_left _ (List.mem_append_left _ (List.mem_append_right _
        (List.mem_map.2 ⟨("iter_elongation_term", 2), by decide +kernel, rfl⟩)))), ho] at this
    have e := hterms .elongation
    change _ = ∑ i ∈ Finset.range ((Spec.OptResid.Block.elongation).size _), _ at e
    rw [show (Spec.OptResid.Block.elongation).size (physOf realOps c.phys).nphi = (physOf realOps c.phys).nphi by
      simp [Spec.OptResid.Block.size, Spec.OptResid.Block.single, Spec.OptResid.Block.comps]] at e
    rw [← e]
    exact this
  · rw [← he2]
    refine col (List.mem_append_left _ (List.mem_append_left _ (List.mem_append_left _ ?_))) (by simp)
    rw [ho]
    exact List.mem_singleton.2 rfl
  · intro a ha
    refine ⟨elem realOps c.phys a.2 0, (file_elem hv c1 hd ht3).1 a.2 (by revert a; decide +kernel), ?_⟩
    refine col (List.mem_append_right _ ?_) (by revert a; decide +kernel)
    rw [ho]
    exact List.mem_map.2 ⟨a, ha, rfl⟩

/-- **C87.** The history in the output file.  Column `k` has the parameters of the `k`-th recorded configuration,
and what a single run for this configuration, on the grid of its step, writes: the recorded results as they are,
and the objective with its terms made from them. -/
theorem history_in_file (ho : L.ops = realOps) (hl : Literals L.lit) (hf : Spec.Sections.WellFormed file)
    (hi : Sections.optInput (fun i => (i : ℝ)) 0 file (Pipeline.optNew L.lit L.single) = .ok o)
    (hr : IsRaw o.mem s) (h31 : s.refine < 2 ^ 31) (h63 : s.nphis.length < 2 ^ 63)
    (h : run L gsl m0 m1 path file = .ok (name, st, f)) :
    st.log.length = st.nIter ∧ ∃ w t, IsWeights o.mem w ∧ IsTargets o.mem t ∧
    ∀ k c, st.log[k]? = some c → ∀ n, n = gridAt (s.nphis.map Int.toNat) o.q.nphi.toNat c.step →
      IntColumn f st.nIter "iter_fourier_refine_step" k c.step ∧ Parameters f st.nIter k c.q ∧
      Sound (configuration o.q c.q n) ∧ Points (configuration o.q c.q n) n ∧
      AllSize (o.q.R0c.length + s.refine.toNat) c.q ∧
      ∀ {path' dir' ext' : List Char} {file' : Sections.File ℝ} (m0' : Mem ℝ), Outfile.IsInputPath path' dir' ext' →
        Spec.Sections.WellFormed file' → Input L.single file' (configuration o.q c.q n) →
        ∃ r f', Single.run L m0' path' file' = .ok (dir' ++ "qsc_out.".toList ++ ext' ++ ".nc".toList, r, f') ∧
          (∃ ph, Says f' n ph ∧ Objective f st.nIter k w t ph) ∧
          ∀ a ∈ recorded, ∃ x, Scalar f' a.2 x ∧ Column f st.nIter a.1 k x := by
  obtain ⟨w, t, F⟩ := facts hf hi hr h31 h63 h
  obtain ⟨h1, h2⟩ := F.toStage.history ho hl
  exact ⟨h1, w, t, F.weights, F.targets, h2⟩

/-- **C86.** An evaluation by the optimizer gives results, or the exception of a LAPACK routine that failed. -/
theorem evaluation (ho : L.ops = realOps) {q : QscIn ℝ} (hq : q.order_r_option ∈ ["r1", "r2", "r2.1"]) {c : Config ℝ}
    {N : Nat} (hs : AllSize N c) (hN : 0 < N) (j : Nat) (nphis : List Nat) (nphi : Nat) :
    (∃ r, physics L q c (gridAt nphis nphi j) = .ok r) ∨
    (physics L q c (gridAt nphis nphi j) = .error "LAPACK error in *gesv" ∧ ∃ n m b, L.gesv n m b = none) ∨
    (physics L q c (gridAt nphis nphi j) = .error "LAPACK error in *geev" ∧ ∃ m, L.geev m = none) := by
  obtain ⟨ord, hord⟩ := (order_iff _).1 hq
  obtain ⟨M, hM⟩ : ∃ M, gridAt nphis nphi j = 2 * M + 1 := ⟨gridAt nphis nphi j / 2, by
    have := gridAt_odd nphis nphi j; omega⟩
  rw [hM]
  unfold physics
  simp only [hord]
  rcases calculate_ends ho (atPoint q c (2 * M + 1)) (atPoint_sized hs hN) M ord with ⟨r, hr⟩ | ⟨e, he, hle⟩
  · exact Or.inl ⟨r, by simp only [hr]⟩
  · right
    rcases hle with ⟨rfl, hx⟩ | ⟨rfl, hx⟩
    · exact Or.inl ⟨by simp only [he, message], hx⟩
    · exact Or.inr ⟨by simp only [he, message], hx⟩

theorem isWeights_unique {m : Sections.Obj ℝ} {w w' : OptResid.Weights ℝ} (h : IsWeights m w) (h' : IsWeights m w') :
    w = w' := by
  have key : ∀ b : Spec.OptResid.Block, b.weight w = b.weight w' := by
    intro b
    have h1 := h ("weight_" ++ b.name) (b.weight w) (by
      cases b <;> simp [weightKeys, Spec.OptResid.Block.weight, Spec.OptResid.Block.name])
    have h2 := h' ("weight_" ++ b.name) (b.weight w') (by
      cases b <;> simp [weightKeys, Spec.OptResid.Block.weight, Spec.OptResid.Block.name])
    rw [h1] at h2
    injection h2 with h2
    injection h2
  cases w
  cases w'
  simp only [OptResid.Weights.mk.injEq]
  refine ⟨?_, ?_, ?_, ?_, ?_, ?_, ?_, ?_, ?_, ?_, ?_, ?_, ?_, ?_, ?_, ?_, ?_, ?_, ?_, ?_, ?_⟩
  exacts [key .B20, key .iota, key .elongation, key .curvature, key .R0, key .d2_volume_d_psi2, key .DMerc_times_r2,
    key .XY2, key .XY2Prime, key .XY2PrimePrime, key .Z2, key .Z2Prime, key .XY3, key .XY3Prime, key .XY3PrimePrime,
    key .grad_B, key .grad_grad_B, key .r_singularity, key .axis_length, key .standard_deviation_of_R, key .B20_mean]

/-- An exception of the loop. -/
theorem refused_of {w : OptResid.Weights ℝ} {m : String} (ho : L.ops = realOps) {N : Nat} (hN : o.q.R0c.length = N)
    (hpos : 0 < N)
    (h : Reason ((world L gsl o.q).env w) ⟨s.fl, s.refine.toNat, s.maxIter.toNat, s.nphis.map Int.toNat⟩
      o.q.order_r_option N o.q.nphi.toNat (grow s.refine.toNat (Pipeline.configOf o.q)) m) :
    Refused L s w o.q m := by
  have hgrid : ∀ j, 0 < gridAt (s.nphis.map Int.toNat) o.q.nphi.toNat j := fun j => by
    have := gridAt_odd (s.nphis.map Int.toNat) o.q.nphi.toNat j
    omega
  have hterms : ∀ n, ((world L gsl o.q).env w).terms n = Pipeline.termsOf realRes w n := by
    intro n
    change Pipeline.termsOf (resOps L.ops) w n = _
    rw [ho, resOps_real]
  subst hN
  cases h with
  | size h => exact .size h
  | residuals hm j hj h =>
    refine .residuals hm fun b => ?_
    rw [hterms] at h
    obtain ⟨es, h1, -⟩ := OptResid.names_entries realRes w (gridAt (s.nphis.map Int.toNat) o.q.nphi.toNat j)
    have h' := (termsOf_eq h1).symm.trans h
    by_contra hb
    have : (b, 0) ∈ es := (h1.mem b 0).2 ⟨by simpa [realRes] using hb, by
      have := hgrid j
      cases b <;> simp [Spec.OptResid.Block.size, Spec.OptResid.Block.single, Spec.OptResid.Block.comps] <;> omega⟩
    rw [List.length_eq_zero_iff.1 h'] at this
    cases this
  | parameters hm h => exact .parameters hm h
  | order hm h => exact .order hm h
  | points hm j hj qs hq hs h =>
    rw [hterms] at h
    obtain ⟨es, h1, -⟩ := OptResid.names_entries realRes w (gridAt (s.nphis.map Int.toNat) o.q.nphi.toNat j)
    rw [termsOf_eq h1] at h
    exact .points hm j hj qs hq hs es h1 h
  | physics j hj q hs hf hord h =>
    have := evaluation (L := L) ho (q := o.q) (by rw [hord]; simp) hs (by omega) j (s.nphis.map Int.toNat) o.q.nphi.toNat
    change physics L o.q q _ = _ at h
    rcases this with ⟨r, hr⟩ | ⟨hr, hx⟩ | ⟨hr, hx⟩
    · rw [hr] at h; cases h
    · rw [hr] at h; injection h with h
      exact .gesv h.symm hord hx
    · rw [hr] at h; injection h with h
      exact .geev h.symm hord hx

/-- **C86.** How an optimization from an accepted input file can end: with an output file, with an exception for one
of the reasons of `Refused`, or by writing results that were never calculated.  The last happens only in single
precision, for an order other than `r2.1`, or if fewer than two iterations are allowed. -/
theorem outcomes (ho : L.ops = realOps) {w : OptResid.Weights ℝ} (hw : IsWeights o.mem w) (hf : Spec.Sections.WellFormed file)
    (hi : Sections.optInput (fun i => (i : ℝ)) 0 file (Pipeline.optNew L.lit L.single) = .ok o)
    (hr : IsRaw o.mem s) (hs : Natural s) (h63 : s.nphis.length < 2 ^ 63) (hn : 0 ≤ o.q.nphi) (hnfp : 0 < o.q.nfp)
    {dir ext : List Char} (hp : Outfile.IsInputPath path dir ext) :
    (∃ st f, run L gsl m0 m1 path file = .ok (dir ++ "qsc_out.".toList ++ ext ++ ".nc".toList, st, f)) ∨
    (∃ m, run L gsl m0 m1 path file = .error (.opt (.run (.throw m))) ∧ Refused L s w o.q m) ∨
    (run L gsl m0 m1 path file = .error .unset ∧
      (L.single = true ∨ o.q.order_r_option ≠ "r2.1" ∨ s.maxIter < 2)) := by
  have ht := Pipeline.optInput_typed (fun i => (i : ℝ)) 0 file hf _ o (Pipeline.optNew_typed L.lit L.single) hi
  obtain ⟨s'', w1, w2⟩ := Pipeline.rawOf_typed ht
  obtain rfl := Pipeline.isRaw_unique hr w2
  obtain ⟨w', x1, x2⟩ := Pipeline.weightsOf_typed ht
  obtain rfl := isWeights_unique hw x2
  have w3 : Pipeline.readyOpt (world L gsl o.q) o = .ok ((world L gsl o.q).env w, s) := by
    simp [Pipeline.readyOpt, w1, x1, Pipeline.member, Except.bind]
  obtain ⟨t, y1, y2⟩ := targetsOf_typed ht
  obtain ⟨hq, hpos⟩ := Pipeline.opt_sizes (fun i => (i : ℝ)) 0 file hf _ o hi
  have hnp : s.nphis = [] ∨ s.nphis.length = s.refine.toNat + 1 := by
    rcases Sections.optInput_nphi (fun i => (i : ℝ)) 0 file hf _ o hi _ _ hr.nphis hr.refine h63
      (by have := hs.refine.1; omega) hs.refine.2 with h | h
    · exact Or.inl h
    · right; have := hs.refine.1; omega
  have hsafe := OptLoop.optimize_ends ((world L gsl o.q).env w)
    ⟨s.fl, s.refine.toNat, s.maxIter.toNat, s.nphis.map Int.toNat⟩ o.q.order_r_option (Pipeline.configOf o.q)
    o.q.nphi.toNat o.q.R0c.length hq (by simpa using hnp)
  unfold run
  rw [Outfile.outfile_ok path dir ext hp]
  simp only [hi, w3, x1, y1, Pipeline.runOpt_eq _ _ hs _ _ _ hn]
  rw [if_neg (by omega)]
  cases hsingle : L.single with
  | true => exact Or.inr (Or.inr ⟨by simp, Or.inl rfl⟩)
  | false =>
    rw [if_neg (by simp)]
    cases hx : OptLoop.optimize ((world L gsl o.q).env w)
        ⟨s.fl, s.refine.toNat, s.maxIter.toNat, s.nphis.map Int.toNat⟩ o.q.order_r_option (Pipeline.configOf o.q)
        o.q.nphi.toNat with
    | error e =>
      rw [hx] at hsafe
      obtain ⟨m, rfl, hm⟩ := hsafe
      exact Or.inr (Or.inl ⟨m, rfl, refused_of ho rfl hpos hm⟩)
    | ok st =>
      rw [hx] at hsafe
      obtain ⟨-, hout⟩ := hsafe
      have hb := OptLoop.optimize_current hx
      simp only [Pipeline.liftRun]
      by_cases h0 : st.nIter = 0
      · rw [if_pos h0]
        refine Or.inr (Or.inr ⟨rfl, Or.inr ?_⟩)
        have hlog : st.log = [] := List.length_eq_zero_iff.1 (hout.hist.len.trans h0)
        have := (not_congr hout.ran).1 (not_not.2 hlog)
        by_cases h1 : o.q.order_r_option = "r2.1"
        · right
          have h2 : ¬ 2 ≤ s.maxIter.toNat := fun h => this ⟨h1, h⟩
          omega
        · exact Or.inl h1
      · rw [if_neg h0]
        left
        have hne : st.log ≠ [] := fun e => h0 (by rw [← hout.hist.len, e]; rfl)
        obtain ⟨⟨ord, ho1, -⟩, -, r, hr'⟩ := hb.cur.resolve_left hne
        obtain ⟨ord', ho2, hcalc⟩ := physics_ok.1 hr'
        obtain ⟨f0, f, -, hw, -⟩ := write_ok m0 m1 w t ho2 (odd_nphi hb.odd) hout.size
          (by change 0 < o.q.R0c.length + s.refine.toNat; omega) hcalc hout.hist
        refine ⟨st, f, ?_⟩
        have hw' : write L m0 m1 o w t (o.q.R0c.length + s.refine.toNat) st = .ok f := hw
        rw [hw']

/-- **C88.** When an optimization ends with an output file: for flags of the right sizes, a positive weight, a varied
parameter, order `r2.1`, at least as many residuals as parameters in every step, at least two iterations and double
precision, it does unless LAPACK fails. -/
theorem completes (ho : L.ops = realOps) (hd : L.single = false) {w : OptResid.Weights ℝ} (hw : IsWeights o.mem w)
    (hf : Spec.Sections.WellFormed file)
    (hi : Sections.optInput (fun i => (i : ℝ)) 0 file (Pipeline.optNew L.lit L.single) = .ok o)
    (hr : IsRaw o.mem s) (hs : Natural s) (h63 : s.nphis.length < 2 ^ 63) (hn : 0 ≤ o.q.nphi) (hnfp : 0 < o.q.nfp)
    {dir ext : List Char} (hp : Outfile.IsInputPath path dir ext)
    (hord : o.q.order_r_option = "r2.1") (hit : 2 ≤ s.maxIter)
    (h1 : s.fl.R0c.length = o.q.R0c.length) (h2 : s.fl.R0s.length = o.q.R0c.length)
    (h3 : s.fl.Z0c.length = o.q.R0c.length) (h4 : s.fl.Z0s.length = o.q.R0c.length)
    {b : Spec.OptResid.Block} (hb : 0 < b.weight w) {p : Spec.OptState.Param} (hv : Spec.OptState.Varied s.fl p)
    (hpt : ∀ j (ps : List Spec.OptState.Param) es, j ≤ s.refine.toNat → (∀ p, p ∈ ps ↔ MayVary s.fl o.q.R0c.length j p) → ps.Pairwise Spec.OptState.Before →
      Spec.OptResid.Entries realRes w (gridAt (s.nphis.map Int.toNat) o.q.nphi.toNat j) es → ps.length ≤ es.length) :
    (∃ st f, run L gsl m0 m1 path file = .ok (dir ++ "qsc_out.".toList ++ ext ++ ".nc".toList, st, f)) ∨
    (run L gsl m0 m1 path file = .error (.opt (.run (.throw "LAPACK error in *gesv"))) ∧ ∃ n a b, L.gesv n a b = none) ∨
    (run L gsl m0 m1 path file = .error (.opt (.run (.throw "LAPACK error in *geev"))) ∧ ∃ a, L.geev a = none) := by
  rcases outcomes (gsl := gsl) (m0 := m0) (m1 := m1) ho hw hf hi hr hs h63 hn hnfp hp with h | ⟨m, h, hm⟩ | ⟨-, h⟩
  · exact Or.inl h
  · cases hm with
    | size h => omega
    | residuals _ h => exact absurd hb (not_lt.2 (h b))
    | parameters _ h => exact absurd hv (h p)
    | order _ h => exact absurd (by rw [hord]; simp) h
    | points _ j hj ps hps hs es he h => have := hpt j ps es hj hps hs he; omega
    | gesv hm _ hx => exact Or.inr (Or.inl ⟨by rw [h, hm], hx⟩)
    | geev hm _ hx => exact Or.inr (Or.inr ⟨by rw [h, hm], hx⟩)
  · rcases h with h | h | h
    · rw [hd] at h; cases h
    · exact absurd hord h
    · omega

end

/-! ## Examples -/

/-- An input file for an optimization. -/
noncomputable def exOptFile (refine : Int) : Sections.File ℝ :=
  Single.exFile "r2.1" 20 ++ [("opt", [("weight_B20", .flt 2), ("fourier_refine", .int refine), ("max_iter", .int 10),
    ("vary_B2c", .int 0)])]

theorem exOptWell (refine : Int) : Spec.Sections.WellFormed (exOptFile refine) := by
  refine ⟨by simp [exOptFile, Single.exFile], ?_⟩
  simp [exOptFile, Single.exFile]


/-- The settings and weights in this file. -/
def exRaw : Pipeline.Raw := ⟨⟨true, false, false, false, [false, true], [false, false], [false, false], [false, true]⟩, 1, 10, []⟩

noncomputable def exWeights : OptResid.Weights ℝ :=
  let d := exLib.lit "-1.0"
  ⟨2, d, d, d, d, d, d, d, d, d, d, d, d, d, d, d, d, d, d, d, d⟩

theorem ex_read : ∃ o, Sections.optInput (fun i => (i : ℝ)) 0 (exOptFile 1) (Pipeline.optNew exLib.lit exLib.single) = .ok o ∧
    o.q = exInput "r2.1" 20 ∧ IsRaw o.mem exRaw ∧ IsWeights o.mem exWeights := by
  refine ⟨_, rfl, rfl, ⟨rfl, rfl, rfl, rfl, rfl, rfl, rfl, rfl, rfl, rfl, rfl⟩, ?_⟩
  intro k x h
  simp only [weightKeys, List.mem_cons, List.not_mem_nil, or_false, Prod.mk.injEq] at h
  rcases h with ⟨rfl, rfl⟩ | ⟨rfl, rfl⟩ | ⟨rfl, rfl⟩ | ⟨rfl, rfl⟩ | ⟨rfl, rfl⟩ | ⟨rfl, rfl⟩ | ⟨rfl, rfl⟩ | ⟨rfl, rfl⟩ |
    ⟨rfl, rfl⟩ | ⟨rfl, rfl⟩ | ⟨rfl, rfl⟩ | ⟨rfl, rfl⟩ | ⟨rfl, rfl⟩ | ⟨rfl, rfl⟩ | ⟨rfl, rfl⟩ | ⟨rfl, rfl⟩ | ⟨rfl, rfl⟩ |
    ⟨rfl, rfl⟩ | ⟨rfl, rfl⟩ | ⟨rfl, rfl⟩ | ⟨rfl, rfl⟩ <;> rfl

/-- A library that evaluates a trial, accepts it and converges. -/
noncomputable def exGsl : Nat → (p : Nat) → OptLoop.Gsl ℝ p := fun _ _ =>
  ⟨[], fun _ => ⟨[Vector.ofFn fun _ => 1 / 30], Vector.ofFn fun _ => 1 / 50, false, false⟩⟩

theorem ex_natural : Natural exRaw := ⟨by decide, by decide, by simp [exRaw]⟩

/-- In every step there are at most five parameters. -/
theorem ex_params (j : Nat) (hj : j ≤ 1) (ps : List Spec.OptState.Param) (h : ∀ p, p ∈ ps ↔ MayVary exRaw.fl 2 j p)
    (hs : ps.Pairwise Spec.OptState.Before) : ps.length ≤ 5 := by
  have hnd : ps.Nodup := hs.imp (by rintro a b h rfl; exact absurd h (OptState.Before.irrefl _))
  have hsub : ps ⊆ [.etaBar, .R0c 1, .R0c 2, .Z0s 1, .Z0s 2] := by
    intro p hp
    have := (h p).1 hp
    cases p with
    | etaBar => simp
    | R0c k =>
      rcases this with h | ⟨h1, h2⟩
      · match k, h with
        | 1, _ => simp
        | 0, h => cases h
        | k + 2, h => simp [exRaw, Spec.OptState.Varied] at h
      · obtain rfl : k = 2 := by omega
        simp
    | Z0s k =>
      rcases this with h | ⟨h1, h2⟩
      · match k, h with
        | 1, _ => simp
        | 0, h => cases h
        | k + 2, h => simp [exRaw, Spec.OptState.Varied] at h
      · obtain rfl : k = 2 := by omega
        simp
    | R0s k => 
      match k, this with
      | 0, h => cases h
      | 1, h => cases h
      | k + 2, h => simp [MayVary, exRaw, Spec.OptState.Varied] at h
    | Z0c k => 
      match k, this with
      | 0, h => cases h
      | 1, h => cases h
      | k + 2, h => simp [MayVary, exRaw, Spec.OptState.Varied] at h
    | sigma0 => cases this
    | B2c => cases this
    | B2s => cases this
  exact (List.subperm_of_subset hnd hsub).length_le

/-- There are at least 21 residuals. -/
theorem ex_residuals (j : Nat) (es : List (Spec.OptResid.Block × Nat))
    (h : Spec.OptResid.Entries realRes exWeights (gridAt [] 20 j) es) : 21 ≤ es.length := by
  have hsub : (List.range 21).map (fun i => (Spec.OptResid.Block.B20, i)) ⊆ es := by
    intro e he
    obtain ⟨i, hi, rfl⟩ := List.mem_map.1 he
    refine (h.mem _ _).2 ⟨by simp [realRes, exWeights, Spec.OptResid.Block.weight], ?_⟩
    rw [List.mem_range] at hi
    simpa [Spec.OptResid.Block.size, Spec.OptResid.Block.single, Spec.OptResid.Block.comps, gridAt] using hi
  have := (List.subperm_of_subset (List.Nodup.map (fun a b h => by simpa using h) List.nodup_range) hsub).length_le
  simpa using this

/-- The optimization ends with an output file. -/
theorem ex_opt (m0 m1 : Mem ℝ) : ∃ st f, run exLib exGsl m0 m1 "dir/qsc_in.torus".toList (exOptFile 1) =
    .ok ("dir/qsc_out.torus.nc".toList, st, f) := by
  obtain ⟨o, h1, h2, h3, h4⟩ := ex_read
  rcases completes (L := exLib) (gsl := exGsl) (m0 := m0) (m1 := m1) rfl rfl h4 (exOptWell 1) h1 h3 ex_natural
    (by simp [exRaw]) (by rw [h2]; simp [exInput]) (by rw [h2]; simp [exInput]) ex_path (by rw [h2]; rfl) (by decide)
    (by rw [h2]; rfl) (by rw [h2]; rfl) (by rw [h2]; rfl) (by rw [h2]; rfl) (b := .B20)
    (by simp [exWeights, Spec.OptResid.Block.weight]) (p := .etaBar) rfl
    (fun j ps es hj hp hs he => by
      rw [h2] at hp he
      exact (ex_params j hj ps hp hs).trans ((by decide : 5 ≤ 21).trans (ex_residuals j es he)))
    with h | ⟨-, n, a, b, h⟩ | ⟨-, a, h⟩
  · exact h
  · cases h
  · cases h

/-- Its final configuration has three modes, and its output file has all that a single run for this configuration
writes. -/
example (m0 m1 : Mem ℝ) : ∃ st f, run exLib exGsl m0 m1 "dir/qsc_in.torus".toList (exOptFile 1) =
      .ok ("dir/qsc_out.torus.nc".toList, st, f) ∧ AllSize 3 st.q ∧
    ∃ file' r f', Single.run exLib m0 "qsc_in.best".toList file' = .ok ("qsc_out.best.nc".toList, r, f') ∧
      ∀ e ∈ contents f', e ∈ contents f := by
  obtain ⟨o, h1, h2, h3, h4⟩ := ex_read
  obtain ⟨st, f, h⟩ := ex_opt m0 m1
  obtain ⟨-, -, -, -, -, hs, -, -, -, hx⟩ := final_in_file exLiterals (exOptWell 1) h1 h3 (by decide) (by simp [exRaw]) h
  obtain ⟨file', w1, w2⟩ := describable exLib.single (configuration o.q st.q st.nphi) hs.R0c hs.R0s hs.Z0c hs.Z0s
  refine ⟨st, f, h, by rw [h2] at hs; exact hs, file', ?_⟩
  exact hx (dir' := []) (ext' := "best".toList) m0 ⟨Or.inl rfl, by decide +kernel, by decide +kernel⟩ w1 w2

/-- Its history. -/
example (m0 m1 : Mem ℝ) : ∃ st f, run exLib exGsl m0 m1 "dir/qsc_in.torus".toList (exOptFile 1) =
      .ok ("dir/qsc_out.torus.nc".toList, st, f) ∧ Integer f "n_iter" st.log.length ∧ Scalar f "weight_B20" 2 ∧
    ∀ k c, st.log[k]? = some c → IntColumn f st.nIter "iter_fourier_refine_step" k c.step ∧ Parameters f st.nIter k c.q := by
  obtain ⟨o, h1, h2, h3, h4⟩ := ex_read
  obtain ⟨st, f, h⟩ := ex_opt m0 m1
  obtain ⟨a1, -, a3, -⟩ := settings_in_file (exOptWell 1) h1 h3 (by decide) (by simp [exRaw]) h
  obtain ⟨-, w, t, -, -, b⟩ := history_in_file rfl exLiterals (exOptWell 1) h1 h3 (by decide) (by simp [exRaw]) h
  refine ⟨st, f, h, a1, ?_, fun k c hk => ⟨(b k c hk _ rfl).1, (b k c hk _ rfl).2.1⟩⟩
  obtain ⟨x, hx1, hx2⟩ := a3 .B20
  change o.mem "weight_B20" = _ at hx1
  rw [h4 "weight_B20" 2 (by simp [weightKeys, exWeights])] at hx1
  cases hx1
  exact hx2

/-- An evaluation with this library gives results. -/
example (c : Config ℝ) (hc : AllSize 2 c) : ∃ r, physics exLib (exInput "r2.1" 20) c (gridAt [] 20 0) = .ok r := by
  rcases evaluation (L := exLib) (q := exInput "r2.1" 20) rfl (by simp [exInput]) hc (by decide) 0 [] 20 with
    h | ⟨-, n, a, b, h⟩ | ⟨-, a, h⟩
  · exact h
  · cases h
  · cases h

end Qsc.OptRun
