import Verif.Lemmas.OptReversal

/-!
# An optimization with the opposite field (C106)
-/

namespace Qsc.OptReversal
open Qsc.Netcdf Qsc.Spec.Netcdf Qsc.Single Qsc.Toml Qsc.Spec.Single Qsc.OptState Qsc.OptRun Qsc.Reversal Qsc.Spec.OptRun
open Qsc.Spec.OptLoop Qsc.Spec.Pipeline Qsc.Spec.Reversal Qsc.Spec.OptReversal

/-- **C106.** Whatever configuration the optimizer asks for: with the opposite field the residuals made from derivatives
of the field change their signs, the other residuals and the objective stay the same.  Hence the sums that the
least-squares library makes of products of residuals and of their derivatives are the same. -/
theorem residual_signs {L : Lib ℝ} (ho : L.ops = realOps) {q q' : QscIn ℝ} (hu : Opposite q q') {c : Config ℝ} {n : Nat}
    {r : Result ℝ} (h : physics L q c n = .ok r) (w : OptResid.Weights ℝ) (t : OptResid.Targets ℝ)
    {es : List (Spec.OptResid.Block × Nat)} (he : Spec.OptResid.Entries realRes w n es) (res res' : List ℝ)
    (hres : res.length = es.length) (hres' : res'.length = es.length) :
    ∃ r' obj terms terms' v, physics L q' c n = .ok r' ∧
      OptResid.setResiduals realRes es.length w t (physOf realOps r) res = .ok (obj, terms, v) ∧
      OptResid.setResiduals realRes es.length w t (physOf realOps r') res' =
        .ok (obj, terms', List.zipWith (fun e x => if flips e.1 then -x else x) es v) := by
  obtain ⟨ord, -, hc⟩ := physics_ok.1 h
  have hn : (physOf realOps r).nphi = n := (calculate_cfg hc).1
  have he1 : Spec.OptResid.Entries realRes w (physOf realOps r).nphi es := by rw [hn]; exact he
  have he2 : Spec.OptResid.Entries realRes w (physOf realOps (revResult r)).nphi es := by
    rw [physOf_rev]; exact he1
  obtain ⟨obj, terms, v, a1, a2, -⟩ := OptResid.objective_half realRes realRes_exact w t _ he1 res hres
  obtain ⟨_, _, b1⟩ := OptResid.residual_entries realRes w t _ he1 res hres
  obtain ⟨obj', terms', v', a1', a2', -⟩ := OptResid.objective_half realRes realRes_exact w t _ he2 res' hres'
  obtain ⟨_, _, b1'⟩ := OptResid.residual_entries realRes w t _ he2 res' hres'
  rw [a1] at b1
  rw [a1'] at b1'
  simp only [Except.ok.injEq, Prod.mk.injEq] at b1 b1'
  have hv : v' = List.zipWith (fun e x => if flips e.1 then -x else x) es v := by
    rw [b1.2.2, b1'.2.2, physOf_rev, List.zipWith_map_right]
    clear b1 b1' a1 a1' a2 a2' he he1 he2 hres hres'
    induction es with
    | nil => rfl
    | cons e es ih =>
      rw [List.zipWith_cons_cons, ← ih, List.map_cons, value_negated]
      congr 1
      split
      · exact mul_neg _ _
      · rfl
  have hobj : obj' = obj := by
    rw [a2, a2', b1.2.2, b1'.2.2, physOf_rev]
    simp only [List.map_map, Function.comp_def, mul_pow, value_sq]
  subst hv hobj
  exact ⟨revResult r, _, terms, terms', v, by rw [physics_rev ho hu, h]; rfl, a1, a1'⟩

section
variable {L : Lib ℝ} {gsl : Nat → (p : Nat) → OptLoop.Gsl ℝ p} {m0 m1 m0' m1' : Mem ℝ} {path : List Char}
  {file file' : Sections.File ℝ} {o o' : Sections.OptObj ℝ} {s : Pipeline.Raw} {name : List Char}
  {st : OptLoop.St ℝ (Result ℝ)} {f : Netcdf.File ℝ}

theorem holds_mono {f f' : File ℝ} (h : ∀ e ∈ contents f, e ∈ contents f') {a : String} {dims : List (String × Nat)}
    {d : Data ℝ} (hd : Holds f a dims d) : Holds f' a dims d := by
  obtain ⟨e, h1, h2⟩ := hd
  exact ⟨e, h e h1, h2⟩

theorem turned_mono {f f' g g' : File ℝ} (h : ∀ e ∈ contents f, e ∈ contents g) (h' : ∀ e ∈ contents f', e ∈ contents g')
    {v : String} (hv : Turned f f' v) : Turned g g' v := by
  unfold Turned at hv ⊢
  split at hv
  · rename_i hx
    rw [if_pos hx]
    obtain ⟨dims, l, h1, h2⟩ := hv
    exact ⟨dims, l, holds_mono h h1, holds_mono h' h2⟩
  · rename_i hx
    rw [if_neg hx]
    obtain ⟨dims, l, h1, h2⟩ := hv
    exact ⟨dims, l, holds_mono h h1, holds_mono h' h2⟩

theorem unchanged_mono {f f' g g' : File ℝ} (h : ∀ e ∈ contents f, e ∈ contents g)
    (h' : ∀ e ∈ contents f', e ∈ contents g') {v : String} (hv : Spec.Scaling.Unchanged f f' v) :
    Spec.Scaling.Unchanged g g' v := by
  rcases hv with ⟨x, h1, h2⟩ | ⟨x, ⟨d1, h1⟩, ⟨d2, h2⟩⟩
  · exact Or.inl ⟨x, holds_mono h h1, holds_mono h' h2⟩
  · exact Or.inr ⟨x, ⟨d1, holds_mono h h1⟩, ⟨d2, holds_mono h' h2⟩⟩

theorem opposite_mono {f f' g g' : File ℝ} (h : ∀ e ∈ contents f, e ∈ contents g)
    (h' : ∀ e ∈ contents f', e ∈ contents g') {order : String} (H : SameOpposite order f f') : SameOpposite order g g' :=
  ⟨fun v hv => let ⟨x, h1, h2⟩ := H.signs v hv; ⟨x, holds_mono h h1, holds_mono h' h2⟩,
    fun v hv hx => unchanged_mono h h' (H.labels v hv hx), fun u hu => turned_mono h h' (H.first u hu),
    fun ho u hu => turned_mono h h' (H.second ho u hu), fun ho v hv => turned_mono h h' (H.singular ho v hv),
    fun ho u hu => turned_mono h h' (H.third ho u hu)⟩

/-- The files of a stage and of the one with the opposite field. -/
theorem stage_opposite (ho : L.ops = realOps) (hl : Literals L.lit) {gsl' : Nat → (p : Nat) → OptLoop.Gsl ℝ p}
    {w : OptResid.Weights ℝ} {t : OptResid.Targets ℝ} {c c' : Config ℝ} {n n' N : Nat} {f' : Netcdf.File ℝ}
    (hmem : o'.mem = o.mem) (hu : Opposite o.q o'.q) (S : Stage L gsl m0 m1 o s w t c n N st f)
    (S' : Stage L gsl' m0' m1' o' s w t c' n' N (OptLoop.mapSt revResult st) f') :
    SameHistory f f' ∧ SameOpposite "r2.1" f f' := by
  constructor
  · have C := S.contents_file
    have C' := S'.contents_file
    obtain ⟨s1, s2, s3, s4⟩ := S.settings
    obtain ⟨s1', s2', s3', s4'⟩ := S'.settings
    have hcol : ∀ a, (OptLoop.mapSt revResult st).log.map (fun c => ((columns L.ops w t c).lookup a).getD 0)
        = st.log.map fun c => ((columns L.ops w t c).lookup a).getD 0 := by
      intro a
      simp only [OptLoop.mapSt, List.map_map, Function.comp_def, ho, columns_rev]
    have hax : ∀ rows a, (OptLoop.mapSt revResult st).log.flatMap (fun c => ((axisColumns rows c).lookup a).getD [])
        = st.log.flatMap fun c => ((axisColumns rows c).lookup a).getD [] := by
      intro rows a
      simp only [OptLoop.mapSt, List.flatMap_map]
      rfl
    have hcols : ∀ a ∈ columnNames, a ≠ "iter_curvature_term" → Same f f' a := by
      intro a ha hne
      have x := C'.column a ha hne
      rw [hcol] at x
      exact ⟨_, _, C.column a ha hne, x⟩
    have hcurv : Same f f' "iter_curvature_term" := by
      have x := C'.curvature
      rw [hcol] at x
      exact ⟨_, _, C.curvature, x⟩
    have haxis : ∀ a ∈ ["iter_R0c", "iter_R0s", "iter_Z0c", "iter_Z0s"], Same f f' a := by
      intro a ha
      have x := C'.axis a ha
      rw [hax] at x
      exact ⟨_, _, C.axis a ha, x⟩
    refine ⟨?_, ?_, ?_, ?_, ?_⟩
    · simp only [List.forall_mem_cons, List.not_mem_nil, false_imp_iff, implies_true, and_true]
      exact ⟨⟨_, C.iter, C'.iter⟩, ⟨_, C.evals, C'.evals⟩⟩
    · have x := C'.step
      simp only [OptLoop.mapSt, List.map_map] at x
      exact ⟨_, _, C.step, x⟩
    · intro v hv
      have : v ∈ columnNames ∨ v ∈ ["iter_R0c", "iter_R0s", "iter_Z0c", "iter_Z0s"] := by
        clear hcol hcols
        revert v
        decide +kernel
      rcases this with hv | hv
      · by_cases hc : v = "iter_curvature_term"
        · subst hc
          exact hcurv
        · exact hcols v hv hc
      · exact haxis v hv
    · intro b
      obtain ⟨x, hx1, hx2⟩ := s3 b
      obtain ⟨y, hy1, hy2⟩ := s3' b
      rw [hmem, hx1] at hy1
      injection hy1 with hy1
      injection hy1 with hy1
      subst hy1
      exact ⟨_, _, hx2, hy2⟩
    · intro a ha
      obtain ⟨x, hx1, hx2⟩ := s4 a ha
      obtain ⟨y, hy1, hy2⟩ := s4' a ha
      rw [hmem, hx1] at hy1
      injection hy1 with hy1
      injection hy1 with hy1
      subst hy1
      exact ⟨_, _, hx2, hy2⟩
  · obtain ⟨hsz, -, -, -, hx⟩ := S.final hl
    obtain ⟨-, -, -, -, hx'⟩ := S'.final hl
    obtain ⟨fa, k1, k2⟩ := describable L.single (configuration o.q st.q st.nphi) hsz.R0c hsz.R0s hsz.Z0c hsz.Z0s
    obtain ⟨fb, k3, k4⟩ := describable L.single (configuration o'.q st.q st.nphi) hsz.R0c hsz.R0s hsz.Z0c hsz.Z0s
    have hp : Outfile.IsInputPath "qsc_in.best".toList [] "best".toList := ⟨Or.inl rfl, by decide +kernel, by decide +kernel⟩
    obtain ⟨r1, g1, u1, u2⟩ := hx m0 hp k1 k2
    obtain ⟨r2, g2, u3, u4⟩ := hx' m0 hp k3 k4
    obtain ⟨-, H⟩ := same_opposite ho hl k1 k3 u1 u3 k2 k4 (opposite_at hu st.q st.nphi)
    have e : (configuration o.q st.q st.nphi).order_r_option = "r2.1" := S.order
    rw [e] at H
    exact opposite_mono u2 u4 H

/-- The file of a stage with the opposite field can be written. -/
theorem stage_write (ho : L.ops = realOps) {w : OptResid.Weights ℝ} {t : OptResid.Targets ℝ} {c : Config ℝ} {n N : Nat}
    (hu : Opposite o.q o'.q) (S : Stage L gsl m0 m1 o s w t c n N st f) :
    ∃ f', write L m0' m1' o' w t (N + s.refine.toNat) (OptLoop.mapSt revResult st) = .ok f' := by
  have I := inputRel hu
  obtain ⟨m, hm⟩ := S.between.odd
  have hodd := odd_nphi ⟨m, hm⟩
  obtain ⟨-, -, r, hr'⟩ := S.between.cur.resolve_left S.ran
  have hpos : 0 < N + s.refine.toNat := by have := S.modes; omega
  have hr2 : physics L o'.q st.q st.nphi = .ok (revResult r) := by
    rw [physics_rev ho hu]
    have : physics L o.q st.q st.nphi = .ok r := hr'
    rw [this]
    rfl
  have hord' : o'.q.order_r_option = "r2.1" := by rw [I.order]; exact S.order
  have hcalc := physics_r2p1 hord' hr2
  obtain ⟨-, f', -, hwr, -⟩ := write_ok (L := L) (o := o') (st := OptLoop.mapSt revResult st) (ord := ⟨true, true, true⟩)
    m0' m1' w t (by rw [hord']; rfl) hodd S.out.size hpos hcalc (histOk_map S.out.hist)
  exact ⟨f', hwr⟩

/-- Settings determine the targets. -/
theorem isTargets_unique {mem : Sections.Obj ℝ} {t t' : OptResid.Targets ℝ} (a : IsTargets mem t) (b : IsTargets mem t') :
    t = t' := by
  obtain ⟨a1, a2, a3, a4, a5⟩ := a
  obtain ⟨b1, b2, b3, b4, b5⟩ := b
  rw [b1] at a1
  rw [b2] at a2
  rw [b3] at a3
  rw [b4] at a4
  rw [b5] at a5
  cases t
  cases t'
  simp_all

/-- **C106.** Two optimizations whose input files have the same section `[opt]` and describe configurations with opposite
fields.  The least-squares library takes the same steps in both.  If the first one ends, so does the second one; its
file tells the same history, and has the final configuration with the opposite field. -/
theorem opt_opposite (ho : L.ops = realOps) (hl : Literals L.lit) (hf : Spec.Sections.WellFormed file)
    (hf' : Spec.Sections.WellFormed file')
    (hi : Sections.optInput (fun i => (i : ℝ)) 0 file (Pipeline.optNew L.lit L.single) = .ok o)
    (hi' : Sections.optInput (fun i => (i : ℝ)) 0 file' (Pipeline.optNew L.lit L.single) = .ok o')
    (hmem : o'.mem = o.mem) (hu : Opposite o.q o'.q)
    (hr : IsRaw o.mem s) (h31 : s.refine < 2 ^ 31) (h63 : s.nphis.length < 2 ^ 63)
    (h : OptRun.run L gsl m0 m1 path file = .ok (name, st, f)) :
    ∃ st' f', OptRun.run L gsl m0' m1' path file' = .ok (name, st', f') ∧ st'.q = st.q ∧ st'.nphi = st.nphi ∧
      SameHistory f f' ∧ SameOpposite "r2.1" f f' := by
  have I := inputRel hu
  obtain ⟨w, t, F⟩ := facts hf hi hr h31 h63 h
  obtain ⟨o2, e2, s2, w2, t2, h1, h2, h3, h4, h5, h6, h7, h8, h9, h10⟩ := unpack h
  obtain rfl : o = o2 := by
    rw [hi] at h2
    injection h2
  have hcfg : Pipeline.configOf o'.q = Pipeline.configOf o.q := by
    have e1 := congrArg Axis.Coeffs.R0c I.coeffs
    have e2 := congrArg Axis.Coeffs.R0s I.coeffs
    have e3 := congrArg Axis.Coeffs.Z0c I.coeffs
    have e4 := congrArg Axis.Coeffs.Z0s I.coeffs
    change o'.q.R0c = o.q.R0c at e1
    change o'.q.R0s = o.q.R0s at e2
    change o'.q.Z0c = o.q.Z0c at e3
    change o'.q.Z0s = o.q.Z0s at e4
    simp only [Pipeline.configOf, e1, e2, e3, e4, I.etaBar, I.sigma0, I.B2c, I.B2s]
  have hlen : o'.q.R0c.length = o.q.R0c.length := by
    have e1 := congrArg Axis.Coeffs.R0c I.coeffs
    exact congrArg List.length e1
  -- the second optimization
  obtain ⟨raw, hraw⟩ : ∃ raw, Pipeline.rawOf o.mem = some raw := by
    unfold Pipeline.readyOpt at h3
    rw [h4] at h3
    cases hx : Pipeline.rawOf o.mem with
    | none => rw [hx] at h3; cases h3
    | some raw => exact ⟨raw, rfl⟩
  have hready : ∀ p : Sections.OptObj ℝ, p.mem = o.mem →
      Pipeline.readyOpt (world L gsl p.q) p = .ok ((world L gsl p.q).env w2, raw) := by
    intro p hp
    simp [Pipeline.readyOpt, hp, h4, hraw, Pipeline.member, Except.bind]
  have h3' := hready o rfl
  rw [h3] at h3'
  injection h3' with h3'
  injection h3' with ee es
  subst ee es
  have hrun' : Pipeline.runOpt ((world L gsl o'.q).env w2) s2 o'.q.order_r_option (Pipeline.configOf o'.q) o'.q.nphi
      = .ok (OptLoop.mapSt revResult st) := by
    rw [Pipeline.runOpt_map (world_rev ho gsl hu w2), hcfg, I.order, I.nphi, h8]
    rfl
  have hs2 : s2 = s := by
    obtain ⟨s'', w1, w2'⟩ := Pipeline.rawOf_typed
      (Pipeline.optInput_typed (fun i => (i : ℝ)) 0 file hf _ o (Pipeline.optNew_typed L.lit L.single) hi)
    rw [hraw] at w1
    injection w1 with w1
    subst w1
    exact Pipeline.isRaw_unique w2' hr
  subst hs2
  obtain ⟨f', hwr⟩ := stage_write (m0' := m0') (m1' := m1') ho hu F.toStage
  have hty := Pipeline.optInput_typed (fun i => (i : ℝ)) 0 file hf _ o (Pipeline.optNew_typed L.lit L.single) hi
  have ew : w2 = w := by
    obtain ⟨x, x1, x2⟩ := Pipeline.weightsOf_typed hty
    rw [h4] at x1
    injection x1 with x1
    subst x1
    exact isWeights_unique x2 F.weights
  have et : t2 = t := by
    obtain ⟨x, x1, x2⟩ := targetsOf_typed hty
    rw [h5] at x1
    injection x1 with x1
    subst x1
    exact isTargets_unique x2 F.targets
  subst ew et
  have hall : OptRun.run L gsl m0' m1' path file' = .ok (name, OptLoop.mapSt revResult st, f') := by
    unfold OptRun.run
    simp only [h1, hi', hready o' hmem, hmem, h4, h5, hlen]
    rw [if_neg (by rw [I.nfp]; omega), if_neg (by simp [h7])]
    simp only [hrun']
    rw [if_neg (by exact h9)]
    simp only [hwr]
  refine ⟨OptLoop.mapSt revResult st, f', hall, rfl, rfl, ?_⟩
  obtain ⟨w', t', F'⟩ := facts hf' hi' (by rw [hmem]; exact hr) h31 h63 hall
  have hw : w' = w2 := isWeights_unique (by have := F'.weights; rwa [hmem] at this) F.weights
  have ht : t' = t2 := isTargets_unique (by have := F'.targets; rwa [hmem] at this) F.targets
  subst hw ht
  have S' := F'.toStage
  rw [hlen] at S'
  exact stage_opposite ho hl hmem hu F.toStage S'

/-- **C106.** One of the two optimizations ends if and only if the other one does. -/
theorem ends_iff (ho : L.ops = realOps) (hl : Literals L.lit) (hf : Spec.Sections.WellFormed file)
    (hf' : Spec.Sections.WellFormed file')
    (hi : Sections.optInput (fun i => (i : ℝ)) 0 file (Pipeline.optNew L.lit L.single) = .ok o)
    (hi' : Sections.optInput (fun i => (i : ℝ)) 0 file' (Pipeline.optNew L.lit L.single) = .ok o')
    (hmem : o'.mem = o.mem) (hu : Opposite o.q o'.q)
    (hr : IsRaw o.mem s) (h31 : s.refine < 2 ^ 31) (h63 : s.nphis.length < 2 ^ 63) :
    (∃ st f, OptRun.run L gsl m0 m1 path file = .ok (name, st, f)) ↔
      ∃ st' f', OptRun.run L gsl m0' m1' path file' = .ok (name, st', f') := by
  constructor
  · rintro ⟨st, f, h⟩
    obtain ⟨st', f', h', -⟩ := opt_opposite ho hl hf hf' hi hi' hmem hu hr h31 h63 h
    exact ⟨st', f', h'⟩
  · rintro ⟨st, f, h⟩
    obtain ⟨st', f', h', -⟩ := opt_opposite ho hl hf' hf hi' hi hmem.symm (opposite_symm hu) (by rw [hmem]; exact hr)
      h31 h63 h
    exact ⟨st', f', h'⟩

end

/-! ## An example -/

/-- The input file `exOptFile` with the opposite field. -/
noncomputable def exOppositeOpt : Sections.File ℝ :=
  exOppositeFile ++ [("opt", [("weight_B20", .flt 2), ("fourier_refine", .int 1), ("max_iter", .int 10),
    ("vary_B2c", .int 0)])]

theorem exOppositeOptWell : Spec.Sections.WellFormed exOppositeOpt := by
  refine ⟨by simp [exOppositeOpt, exOppositeFile], ?_⟩
  simp [exOppositeOpt, exOppositeFile]

/-- The two optimizations end with the same objectives and with opposite `G0`. -/
example (m0 m1 m0' m1' : Mem ℝ) : ∃ st f st' f',
    OptRun.run exLib exGsl m0 m1 "dir/qsc_in.torus".toList (exOptFile 1) = .ok ("dir/qsc_out.torus.nc".toList, st, f) ∧
    OptRun.run exLib exGsl m0' m1' "dir/qsc_in.torus".toList exOppositeOpt =
      .ok ("dir/qsc_out.torus.nc".toList, st', f') ∧
    Same f f' "iter_objective_function" ∧ Same f f' "iter_R0c" ∧ Negated f f' "G0" ∧ Same f f' "iota" := by
  obtain ⟨st, f, h⟩ := ex_opt m0 m1
  have key : ∃ o o', Sections.optInput (fun i => (i : ℝ)) 0 (exOptFile 1) (Pipeline.optNew exLib.lit exLib.single) = .ok o ∧
      Sections.optInput (fun i => (i : ℝ)) 0 exOppositeOpt (Pipeline.optNew exLib.lit exLib.single) = .ok o' ∧
      o'.mem = o.mem ∧ o.q = exInput "r2.1" 20 ∧ o'.q = exOppositeInput ∧ IsRaw o.mem exRaw :=
    ⟨_, _, rfl, rfl, rfl, rfl, rfl, ⟨rfl, rfl, rfl, rfl, rfl, rfl, rfl, rfl, rfl, rfl, rfl⟩⟩
  obtain ⟨o, o', h1, h2, h3, h4, h5, h6⟩ := key
  obtain ⟨st', f', h', -, -, H, H'⟩ := opt_opposite (m0' := m0') (m1' := m1') rfl exLiterals (exOptWell 1) exOppositeOptWell
    h1 h2 h3 (by rw [h4, h5]; exact exOpposite) h6 (by decide) (by simp [exRaw]) h
  have g := H'.first ("G0", 1, 1) (by simp [Spec.Scaling.units1])
  have i := H'.first ("iota", 0, 0) (by simp [Spec.Scaling.units1])
  simp only [Turned, reversed] at g i
  exact ⟨st, f, st', f', h, h', H.arrays _ (by simp [history]), H.arrays _ (by simp [history]), by simpa using g,
    by simpa using i⟩

end Qsc.OptReversal
