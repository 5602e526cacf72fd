import Verif.Model.OptRun
import Verif.Spec.OptRun
import Verif.Lemmas.OptCurrent
import Verif.Lemmas.Pipeline
import Verif.Lemmas.SingleRun
import Verif.Props.OutputFiles
import Verif.Props.OptResid
import Verif.Props.Single

/-!
# Lemmas for an optimization from the input file to the output file
-/

namespace Qsc.OptRun
open Qsc.Netcdf Qsc.Spec.Netcdf Qsc.Spec.Output Qsc.Output Qsc.Toml Qsc.Spec.Single Qsc.Single Qsc.OptState
open Qsc.Spec.OptRun Qsc.Spec.OptLoop Qsc.Spec.Pipeline

/-! ## Lists of members -/

section
variable {α : Type}

theorem lookup_mem {l : List (String × α)} (hn : (l.map (·.1)).Nodup) {a : String} {x : α} (h : (a, x) ∈ l) :
    l.lookup a = some x := by
  induction l with
  | nil => cases h
  | cons b l ih =>
    obtain ⟨hb, hn⟩ := List.nodup_cons.1 hn
    rcases List.mem_cons.1 h with rfl | h
    · simp
    · have hne : (a == b.1) = false := by
        rw [beq_eq_false_iff_ne]
        rintro rfl
        exact hb (List.mem_map.2 ⟨_, h, rfl⟩)
      rw [List.lookup_cons, hne]
      exact ih hn h

end

variable {K : Type} [Field K]

theorem atPoint_eq (q : QscIn K) (c : Config K) (n : Nat) : atPoint q c n = configuration q c n := rfl

theorem atPoint_sized {q : QscIn K} {c : Config K} {n N : Nat} (h : AllSize N c) (hN : 0 < N) :
    (Single.coeffs (atPoint q c n)).WellSized := by
  obtain ⟨h1, h2, h3, h4⟩ := h
  refine ⟨?_, ?_, ?_, ?_⟩ <;> simp [Single.coeffs, atPoint, h1, h2, h3, h4, hN]

/-! ## Elements of the results -/

theorem lookup_results (o : Ops K) (n : Nat) (r : Result K) {a : String} {d : Data K} (h : (a, d) ∈ results o n r) :
    (results o n r).lookup a = some d :=
  lookup_mem (by rw [results_names]; exact resultShapes_nodup _ _) h

theorem elem_eq {o : Ops K} {r : Result K} {a : String} {l : List K} (h : (a, .flts l) ∈ results o r.cfg.nphi r) (j : Nat) :
    elem o r a j = l.getD j 0 := by
  unfold elem
  rw [lookup_results o _ r h]

theorem mem_results2 {o : Ops K} {n : Nat} {r : Result K} {d : Second K} (hd : r.second = some d) {a : String × Data K}
    (h : a ∈ results2 o n d) : a ∈ results o n r := by
  unfold results
  rw [hd]
  exact List.mem_append_right _ (List.mem_append_left _ h)

theorem mem_results3 {o : Ops K} {n : Nat} {r : Result K} {d : Second K} {t : R2.R2p1 K} (hd : r.second = some d)
    (ht : d.third = some t) {a : String × Data K} (h : a ∈ results3 n d.inp t) : a ∈ results o n r := by
  unfold results
  simp only [hd, ht]
  exact List.mem_append_right _ (List.mem_append_right _ h)

theorem mem_scalars {l : List (String × K)} {a : String × K} (h : a ∈ l) : (a.1, .flts [a.2]) ∈ asScalars l :=
  List.mem_map_of_mem h

theorem mem_vectors {n : Nat} {l : List (String × (Nat → K))} {a : String × (Nat → K)} (h : a ∈ l) :
    (a.1, .flts (vector n a.2)) ∈ asVectors n l := List.mem_map_of_mem h

theorem getD_vector {n : Nat} (v : Nat → K) {j : Nat} (h : j < n) : (vector n v).getD j 0 = v j := by
  simp [vector, List.getD, h]

variable [DecidableEq K]

theorem physics_ok {L : Lib K} {q : QscIn K} {c : Config K} {n : Nat} {r : Result K} :
    physics L q c n = .ok r ↔
      ∃ ord, Setup.validate q.order_r_option = .ok ord ∧ Single.calculate L (atPoint q c n) n ord = .ok r := by
  unfold physics
  cases h : Setup.validate q.order_r_option with
  | error e => simp
  | ok ord =>
    dsimp only
    cases h' : Single.calculate L (atPoint q c n) n ord with
    | error e => simp [h']
    | ok r' => simp [h']

theorem calculate_cfg {L : Lib K} {q : QscIn K} {n : Nat} {ord : Setup.Order} {r : Result K}
    (h : Single.calculate L q n ord = .ok r) : r.cfg.nphi = n ∧ r.cfg.nfp = q.nfp.toNat := by
  unfold Single.calculate at h
  split at h
  · cases h
  · dsimp only at h
    split at h
    · cases h
    · split at h
      · cases h
      · split at h
        · split at h
          · cases h
          · cases h; exact ⟨rfl, rfl⟩
        · cases h; exact ⟨rfl, rfl⟩

/-! ## The members of the optimization -/

omit [DecidableEq K]

/-- The names of the members that are written. -/
def memberNames : List String :=
  ["n_iter", "n_evals"] ++ settingNames ++ ["iter_fourier_refine_step"] ++ columnNames ++
  ["iter_R0c", "iter_R0s", "iter_Z0c", "iter_Z0s"]

theorem memberNames_nodup : memberNames.Nodup := by decide +kernel

theorem columnNames_nodup : columnNames.Nodup := by decide +kernel

theorem memberList_names (o : Ops K) (s : Sections.Obj K) (w : OptResid.Weights K) (t : OptResid.Targets K) (rows : Nat)
    (st : OptLoop.St K (Result K)) : (memberList o s w t rows st).map (·.1) = memberNames := by
  unfold memberList memberNames
  simp only [List.map_append, List.map_cons, List.map_nil, List.map_map, Function.comp_def, List.map_id']

theorem columns_names (o : Ops K) (w : OptResid.Weights K) (t : OptResid.Targets K) (c : OptLoop.Rec K (Result K)) :
    (columns o w t c).map (·.1) = columnNames := rfl

theorem column_eq {o : Ops K} {w : OptResid.Weights K} {t : OptResid.Targets K} {c : OptLoop.Rec K (Result K)}
    {a : String} {x : K} (h : (a, x) ∈ columns o w t c) : ((columns o w t c).lookup a).getD 0 = x := by
  rw [lookup_mem (by rw [columns_names]; exact columnNames_nodup) h]
  rfl

theorem axisColumns_length (rows : Nat) (c : OptLoop.Rec K (Result K)) {a : String}
    (h : a ∈ ["iter_R0c", "iter_R0s", "iter_Z0c", "iter_Z0s"]) : (((axisColumns rows c).lookup a).getD []).length = rows := by
  simp only [List.mem_cons, List.not_mem_nil, or_false] at h
  rcases h with rfl | rfl | rfl | rfl <;> simp [axisColumns, List.lookup]

section
variable {o : Ops K} {s : Sections.Obj K} {w : OptResid.Weights K} {t : OptResid.Targets K} {rows : Nat}
  {st : OptLoop.St K (Result K)} {m1 : Mem K}

theorem member_eq {a : String × Data K} (h : a ∈ memberList o s w t rows st) :
    assign m1 (memberList o s w t rows st) a.1 = a.2 :=
  assign_mem m1 (by rw [memberList_names]; exact memberNames_nodup) h

theorem member_iter : assign m1 (memberList o s w t rows st) "n_iter" = .ints [(st.nIter : Int)] :=
  member_eq (a := ("n_iter", .ints [(st.nIter : Int)])) (by simp [memberList])

theorem member_evals : assign m1 (memberList o s w t rows st) "n_evals" = .ints [(st.nEvals : Int)] :=
  member_eq (a := ("n_evals", .ints [(st.nEvals : Int)])) (by simp [memberList])

theorem member_setting {a : String} (h : a ∈ settingNames) :
    assign m1 (memberList o s w t rows st) a = .flts [(Pipeline.getFlt s a).getD 0] := by
  refine member_eq (a := (a, .flts [(Pipeline.getFlt s a).getD 0])) ?_
  unfold memberList
  simp only [List.mem_append]
  exact Or.inl (Or.inl (Or.inl (Or.inr (List.mem_map.2 ⟨a, h, rfl⟩))))

theorem member_step : assign m1 (memberList o s w t rows st) "iter_fourier_refine_step" =
    .ints (st.hist.map fun h => h.elim 0 fun c => (c.step : Int)) := by
  refine member_eq (K := K) (a := ("iter_fourier_refine_step", .ints (st.hist.map fun h => h.elim 0 fun c => (c.step : Int)))) ?_
  unfold memberList
  simp only [List.mem_append]
  exact Or.inl (Or.inl (Or.inr (List.mem_singleton.2 rfl)))

theorem member_column {a : String} (h : a ∈ columnNames) : assign m1 (memberList o s w t rows st) a =
    .flts (st.hist.map fun h => h.elim 0 fun c => ((columns o w t c).lookup a).getD 0) := by
  refine member_eq (a := (a, .flts (st.hist.map fun h => h.elim 0 fun c => ((columns o w t c).lookup a).getD 0))) ?_
  unfold memberList
  simp only [List.mem_append]
  exact Or.inl (Or.inr (List.mem_map.2 ⟨a, h, rfl⟩))

theorem member_axis {a : String} (h : a ∈ ["iter_R0c", "iter_R0s", "iter_Z0c", "iter_Z0s"]) :
    assign m1 (memberList o s w t rows st) a = .flts (st.hist.flatMap fun h =>
      h.elim (List.replicate rows 0) fun c => ((axisColumns rows c).lookup a).getD []) := by
  refine member_eq (a := (a, .flts (st.hist.flatMap fun h => h.elim (List.replicate rows 0) fun c =>
    ((axisColumns rows c).lookup a).getD []))) ?_
  unfold memberList
  simp only [List.mem_append]
  exact Or.inr (List.mem_map.2 ⟨a, h, rfl⟩)

theorem flat_length {α : Type} {l : List α} {g : α → List K} {n : Nat} (h : ∀ x ∈ l, (g x).length = n) :
    (l.flatMap g).length = n * l.length := by
  induction l with
  | nil => simp
  | cons x l ih =>
    rw [List.flatMap_cons, List.length_append, h x (by simp), ih fun y hy => h y (by simp [hy]), List.length_cons]
    ring

theorem axis_length {a : String} (h : a ∈ ["iter_R0c", "iter_R0s", "iter_Z0c", "iter_Z0s"])
    (l : List (Option (OptLoop.Rec K (Result K)))) : (l.flatMap fun h =>
      h.elim (List.replicate rows 0) fun c => ((axisColumns rows c).lookup a).getD []).length = rows * l.length := by
  refine flat_length ?_
  rintro (_ | c) -
  · simp
  · exact axisColumns_length rows c h

/-- The members have the shapes that `write_netcdf` takes for granted. -/
theorem members_fit {M : Nat} (hh : OptLoop.HistOk M st) :
    ∀ p ∈ optMembers, Fits (assign m1 (memberList o s w t rows st)) (optSizes rows st.nIter) p.1 p.2 := by
  have hlen : st.nIter ≤ st.hist.length := by
    rw [hh.hist, List.length_append, List.length_map, hh.len]
    omega
  intro p hp
  simp only [optMembers, List.mem_append] at hp
  rcases hp with (((hp | hp) | hp) | hp) | hp <;> obtain ⟨a, ha, rfl⟩ := List.mem_map.1 hp
  · simp only [List.mem_cons, List.not_mem_nil, or_false] at ha
    rcases ha with rfl | rfl
    · exact ⟨_, member_iter⟩
    · exact ⟨_, member_evals⟩
  · exact ⟨_, member_setting (by revert a; decide +kernel)⟩
  · simp only [List.mem_cons, List.not_mem_nil, or_false] at ha
    subst ha
    exact ⟨_, member_step, by simpa [optSizes] using hlen⟩
  · exact ⟨_, member_column (by revert a; decide +kernel), by simpa [optSizes] using hlen⟩
  · refine ⟨_, member_axis ha, ?_⟩
    rw [axis_length ha]
    simpa [optSizes] using Nat.mul_le_mul_left rows hlen

theorem take_hist {α : Type} {M : Nat} (hh : OptLoop.HistOk M st) (g : Option (OptLoop.Rec K (Result K)) → α) :
    (st.hist.map g).take st.nIter = st.log.map fun c => g (some c) := by
  rw [hh.hist, List.map_append, List.map_map, List.take_append_of_le_length (by simp [hh.len]), List.take_of_length_le
    (by simp [hh.len])]
  rfl

theorem take_axis {a : String} (h : a ∈ ["iter_R0c", "iter_R0s", "iter_Z0c", "iter_Z0s"]) {M : Nat}
    (hh : OptLoop.HistOk M st) :
    ((st.hist.flatMap fun h => h.elim (List.replicate rows (0 : K)) fun c =>
      ((axisColumns rows c).lookup a).getD []).take (rows * st.nIter)) =
      st.log.flatMap fun c => ((axisColumns rows c).lookup a).getD [] := by
  have hl := axis_length (K := K) (rows := rows) h (st.log.map some)
  rw [hh.hist, List.flatMap_append, List.take_append_of_le_length
    (by rw [hl, List.length_map, hh.len]), List.take_of_length_le (by rw [hl, List.length_map, hh.len]), List.flatMap_map]
  rfl

end

/-! ## The run -/

variable [DecidableEq K]

/-- What a run that ends has done. -/
theorem unpack {L : Lib K} {gsl : Nat → (p : Nat) → OptLoop.Gsl K p} {m0 m1 : Mem K} {path : List Char}
    {file : Sections.File K} {name : List Char} {st : OptLoop.St K (Result K)} {f : Netcdf.File K}
    (h : run L gsl m0 m1 path file = .ok (name, st, f)) :
    ∃ o e s w t, Outfile.outfile path = .ok name ∧
      Sections.optInput (fun i => (i : K)) 0 file (Pipeline.optNew L.lit L.single) = .ok o ∧
      Pipeline.readyOpt (world L gsl o.q) o = .ok (e, s) ∧ Pipeline.weightsOf o.mem = some w ∧
      targetsOf o.mem = some t ∧ 0 < o.q.nfp ∧ L.single = false ∧
      Pipeline.runOpt e s o.q.order_r_option (Pipeline.configOf o.q) o.q.nphi = .ok st ∧ st.nIter ≠ 0 ∧
      write L m0 m1 o w t (o.q.R0c.length + s.refine.toNat) st = .ok f := by
  unfold run at h
  split at h
  · cases h
  · rename_i nm h1
    split at h
    · cases h
    · rename_i o h2
      split at h
      · cases h
      · rename_i s w t h3 h4 h5
        split at h
        · cases h
        · rename_i h6
          split at h
          · cases h
          · rename_i h7
            split at h
            · cases h
            · rename_i st' h8
              split at h
              · cases h
              · rename_i h9
                split at h
                · cases h
                · rename_i f' h10
                  cases h
                  exact ⟨o, s.1, s.2, w, t, h1, h2, h3, h4, h5, by omega, by simpa using h7, h8, h9, h10⟩
      · cases h

omit [Field K] [DecidableEq K] in
theorem nat?_bind {α : Type} {what : String} {i : Int} {g : Nat → Except Pipeline.Err α} {x : α}
    (h : (Pipeline.nat? what i).bind g = .ok x) : 0 ≤ i := by
  unfold Pipeline.nat? at h
  split at h
  · cases h
  · omega

omit [Field K] [DecidableEq K] in
theorem nats_bind {α : Type} {what : String} {l : List Int} {g : List Nat → Except Pipeline.Err α} {x : α}
    (h : (l.mapM (Pipeline.nat? what)).bind g = .ok x) : ∀ n ∈ l, 0 ≤ n := by
  induction l generalizing g with
  | nil => simp
  | cons a l ih =>
    rw [List.mapM_cons] at h
    have ha : 0 ≤ a := by
      by_contra hn
      have e : Pipeline.nat? what a = .error (.outside what) := by
        unfold Pipeline.nat?
        rw [if_pos (by omega)]
      rw [e] at h
      cases h
    rw [Pipeline.nat?_ok ha] at h
    intro n hn
    rcases List.mem_cons.1 hn with rfl | hn
    · exact ha
    · refine ih (g := fun ns => g (a.toNat :: ns)) ?_ n hn
      rw [← h]
      cases l.mapM (Pipeline.nat? what) <;> rfl

/-- A run that ends had non-negative sizes. -/
theorem natural {e : OptLoop.Env K (Result K)} {s : Pipeline.Raw} {order : String} {q : Config K} {nphi : Int}
    {st : OptLoop.St K (Result K)} (h31 : s.refine < 2 ^ 31) (h : Pipeline.runOpt e s order q nphi = .ok st) :
    0 ≤ nphi ∧ Natural s := by
  unfold Pipeline.runOpt at h
  have h1 := nat?_bind h
  rw [Pipeline.nat?_ok h1] at h
  replace h : (Pipeline.nat? "max_iter" s.maxIter).bind _ = _ := h
  have h2 := nat?_bind h
  rw [Pipeline.nat?_ok h2] at h
  replace h : (s.nphis.mapM (Pipeline.nat? "nphi")).bind _ = _ := h
  have h3 := nats_bind h
  rw [Pipeline.nats_ok h3] at h
  simp only [Except.bind] at h
  refine ⟨h1, ⟨?_, h31⟩, h2, h3⟩
  by_contra hn
  rw [if_neg hn] at h
  split at h
  · cases h
  · split at h
    · cases h
    · split at h
      · cases h
      · split at h
        · cases h
        · split at h
          · cases h
          · cases h

theorem odd_nphi {n : Nat} (h : ∃ m, n = Setup.oddNphi m) : n % 2 = 1 := by
  obtain ⟨m, rfl⟩ := h
  unfold Setup.oddNphi
  split <;> omega

/-- The file of an optimization, written at the end. -/
theorem write_ok {L : Lib K} (m0 m1 : Mem K) {o : Sections.OptObj K} (w : OptResid.Weights K) (t : OptResid.Targets K)
    {rows M : Nat} {st : OptLoop.St K (Result K)} {ord : Setup.Order} {r : Result K}
    (hv : Setup.validate o.q.order_r_option = .ok ord) (hodd : st.nphi % 2 = 1) (hs : AllSize rows st.q) (hr : 0 < rows)
    (hc : Single.calculate L (atPoint o.q st.q st.nphi) st.nphi ord = .ok r) (hh : OptLoop.HistOk M st) :
    ∃ f0 f, writeQsc L.toF ⟨flags ord, final L.ops m0 (atPoint o.q st.q st.nphi) ord st.nphi r⟩ = .ok f0 ∧
      write L m0 m1 o w t rows st = .ok f ∧ (∀ e ∈ contents f0, e ∈ contents f) ∧
      (∀ p ∈ optMembers, p.2 = .atLeast [1] → p.1 ≠ "iter_curvature_term" →
        Holds f p.1 [("n_iter", st.nIter)] (first st.nIter (assign m1 (memberList L.ops o.mem w t rows st) p.1))) ∧
      (∀ p ∈ optMembers, p.2 = .atLeast [0, 1] → Holds f p.1 [("n_iter", st.nIter), ("axis_nmax_plus_1", rows)]
        (first (rows * st.nIter) (assign m1 (memberList L.ops o.mem w t rows st) p.1))) ∧
      Holds f "iter_curvature_term" [("n_iter", st.nIter)]
        (first st.nIter (assign m1 (memberList L.ops o.mem w t rows st) "iter_elongation_term")) ∧
      (∀ a, int a a ∈ optCalls 0 1 ∨ flt a a ∈ optCalls 0 1 →
        Holds f a [] (first 1 (assign m1 (memberList L.ops o.mem w t rows st) a))) ∧
      ∀ a, Call.op (.intVec 1 a a "" "") ∈ optCalls 0 1 →
        Holds f a [("n_iter", st.nIter)] (first st.nIter (assign m1 (memberList L.ops o.mem w t rows st) a)) := by
  obtain ⟨h0, h1, h2, h3⟩ := hs
  obtain ⟨f0, w1, w2, w3, w4, w5, w6, -⟩ := file_complete L.toF L.ops m0 (atPoint o.q st.q st.nphi) ord st.nphi r
    (calculate_done (validate_order hv) hc) (validate_ok hv).1 (ax := rows) h0 h1 h2 h3 (by omega) hr
  have k1 := member_iter (o := L.ops) (s := o.mem) (w := w) (t := t) (rows := rows) (st := st) (m1 := m1)
  have k2 := members_fit (o := L.ops) (s := o.mem) (w := w) (t := t) (rows := rows) (m1 := m1) hh
  unfold write
  generalize assign m1 (memberList L.ops o.mem w t rows st) = mem at k1 k2 ⊢
  obtain ⟨f, e1, -, e3, -, e5, e6, ⟨e, e7, e8, -, e9, e10⟩, e11, e12⟩ := opt_added L.toF
    (o := ⟨⟨flags ord, final L.ops m0 (atPoint o.q st.q st.nphi) ord st.nphi r⟩,
      mem⟩) (k := st.nIter) w1 w2 w3 w4 w5 w6 (by omega) hr k1 k2
  refine ⟨f0, f, w1, ?_, e3, e5, e6, ⟨e, e7, e8, e9, e10⟩, e11, e12⟩
  have hn : (st.nphi : Int) = if (atPoint o.q st.q st.nphi).nphi % 2 = 0 then (atPoint o.q st.q st.nphi).nphi + 1
      else (atPoint o.q st.q st.nphi).nphi := by
    change (st.nphi : Int) = if (st.nphi : Int) % 2 = 0 then (st.nphi : Int) + 1 else st.nphi
    rw [if_neg (by omega)]
  have hv' : Setup.validate (atPoint o.q st.q st.nphi).order_r_option = .ok ord := hv
  simp only [hv', allocate_eq _ (inputs_nphi (flags ord) m0 (atPoint o.q st.q st.nphi)) hn, hc]
  have e1' : writeOpt L.toF ⟨⟨flags ord, assign (allocated 0 ⟨flags ord, assign m0 (inputMembers
      (atPoint o.q st.q st.nphi))⟩ st.nphi) (results L.ops st.nphi r)⟩, mem⟩ = .ok f := e1
  rw [e1']

/-- A single run of a configuration that was calculated ends, with the same results. -/
theorem single_run {L : Lib K} {q : QscIn K} {c : Config K} {n rows : Nat} {ord : Setup.Order} {r : Result K}
    (hv : Setup.validate q.order_r_option = .ok ord) (hodd : n % 2 = 1) (hs : AllSize rows c) (hr : 0 < rows)
    (hn : 0 < q.nfp) (hc : Single.calculate L (atPoint q c n) n ord = .ok r) (m0 : Mem K) {path : List Char}
    {name : List Char} (hp : Outfile.outfile path = .ok name) {file : Sections.File K}
    (hi : Sections.inputQsc (fun i => (i : K)) 0 file (Pipeline.qscNew L.lit L.single) = .ok (atPoint q c n)) :
    ∃ f, Single.run L m0 path file = .ok (name, r, f) ∧ (∀ m0',
      writeQsc L.toF ⟨flags ord, final L.ops m0' (atPoint q c n) ord n r⟩ = .ok f) ∧
      Vars L.ops (atPoint q c n) ord n r f := by
  obtain ⟨h0, h1, h2, h3⟩ := hs
  have hd := calculate_done (validate_order hv) hc
  obtain ⟨f, w1, -⟩ := file_complete L.toF L.ops m0 (atPoint q c n) ord n r hd (validate_ok hv).1 (ax := rows) h0 h1 h2
    h3 (by omega) hr
  refine ⟨f, ?_, ?_, file_vars (q := atPoint q c n) hd (validate_ok hv).1 (ax := rows) h0 h1 h2 h3 (by omega) hr w1⟩
  · rw [Single.run_eq (q := atPoint q c n) L m0 hp hi (ord := ord) hv (n := n) (by change (0 : Int) ≤ (n : Int); omega) ?_ hn]
    · simp only [hc, w1]
    · change (n : Int) = if (n : Int) % 2 = 0 then (n : Int) + 1 else n
      rw [if_neg (by omega)]
  · intro m0'
    rw [← w1]
    exact written_congr L.toF L.ops m0' m0 (atPoint q c n) ord n r hd

/-! ## What the residuals are made of -/

section
variable {q : QscIn ℝ} {ord : Setup.Order} {n : Nat} {r : Result ℝ} {f : Netcdf.File ℝ}

theorem profile_elem {a : String} {v : Nat → ℝ} (hn : r.cfg.nphi = n) (h : Profile f a n v)
    (hm : (a, .flts (vector n v)) ∈ results realOps n r) : Profile f a n (elem realOps r a) := by
  obtain ⟨l, h1, h2, h3⟩ := h
  refine ⟨l, h1, h2, fun j hj => ?_⟩
  rw [h3 j hj, elem_eq (l := vector n v) (by rw [hn]; exact hm), getD_vector v hj]

theorem scalar_elem {a : String} {x : ℝ} (hn : r.cfg.nphi = n) (h : Scalar f a x)
    (hm : (a, .flts [x]) ∈ results realOps n r) : Scalar f a (elem realOps r a 0) := by
  rw [elem_eq (l := [x]) (by rw [hn]; exact hm)]
  exact h

/-- The elements of the results are what the file says. -/
theorem file_elem (hv : Vars realOps q ord n r f) (hn : r.cfg.nphi = n) {d : Second ℝ} {t : R2.R2p1 ℝ}
    (hd : r.second = some d) (ht : d.third = some t) :
    (∀ a ∈ scalars1Names ++ scalars2Names, Scalar f a (elem realOps r a 0)) ∧
    ∀ a ∈ profiles1Names ++ profiles2Names ++ profiles3Names, a ≠ "X1s" → Profile f a n (elem realOps r a) := by
  constructor
  · intro a ha
    rcases List.mem_append.1 ha with ha | ha
    · obtain ⟨p, hp, rfl⟩ := List.mem_map.1 (show a ∈ (scalars1 realOps r).map (·.1) from ha)
      refine scalar_elem hn (hv.s1 p hp) (List.mem_append_left _ ?_)
      unfold results1
      simp only [List.mem_append]
      exact Or.inl (Or.inl (Or.inr (mem_scalars hp)))
    · obtain ⟨p, hp, rfl⟩ := List.mem_map.1 (show a ∈ (scalars2 realOps d).map (·.1) from ha)
      refine scalar_elem hn (hv.s2 d hd p hp) (mem_results2 hd ?_)
      unfold results2
      simp only [List.mem_append]
      exact Or.inl (Or.inl (mem_scalars hp))
  · intro a ha hne
    rcases List.mem_append.1 ha with ha | ha
    · rcases List.mem_append.1 ha with ha | ha
      · obtain ⟨p, hp, rfl⟩ := List.mem_map.1 (show a ∈ (profiles1 realOps r).map (·.1) from ha)
        refine profile_elem hn (hv.p1 p hp hne) (List.mem_append_left _ ?_)
        unfold results1
        simp only [List.mem_append]
        exact Or.inl (Or.inr (mem_vectors hp))
      · obtain ⟨p, hp, rfl⟩ := List.mem_map.1 (show a ∈ (profiles2 realOps d).map (·.1) from ha)
        refine profile_elem hn (hv.p2 d hd p hp) (mem_results2 hd ?_)
        unfold results2
        simp only [List.mem_append]
        exact Or.inl (Or.inr (mem_vectors hp))
    · obtain ⟨p, hp, rfl⟩ := List.mem_map.1 (show a ∈ (profiles3 d.inp t).map (·.1) from ha)
      refine profile_elem hn (hv.p3 d t hd ht p hp) (mem_results3 hd ht ?_)
      exact List.mem_append_right _ (mem_vectors hp)

theorem tensor3_getD {n : Nat} (v : Nat → Nat → Nat → ℝ) {j b c : Nat} (hj : j < n) (hb : b < 3) (hc : c < 3) :
    (tensor3 n v).getD (j + n * (b + 3 * c)) 0 = v j b c := by
  have h1 : j + n * (b + 3 * c) < n * 3 * 3 := by
    rw [Nat.mul_assoc]; exact index_lt hj (by omega)
  have h2 : (j + n * (b + 3 * c)) % n = j := by rw [Nat.add_mul_mod_self_left, Nat.mod_eq_of_lt hj]
  have h3 : (j + n * (b + 3 * c)) / n = b + 3 * c := by
    rw [Nat.add_mul_div_left _ _ (by omega), Nat.div_eq_of_lt hj, Nat.zero_add]
  have h4 : (b + 3 * c) % 3 = b := by omega
  have h5 : (b + 3 * c) / 3 = c := by omega
  simp [tensor3, h1, h2, h3, h4, h5]

theorem tensor4_getD {n : Nat} (v : Nat → Nat → Nat → Nat → ℝ) {j b c d : Nat} (hj : j < n) (hb : b < 3) (hc : c < 3)
    (hd : d < 3) : (tensor4 n v).getD (j + n * (b + 3 * (c + 3 * d))) 0 = v j b c d := by
  have h1 : j + n * (b + 3 * (c + 3 * d)) < n * 3 * 3 * 3 := by
    rw [Nat.mul_assoc, Nat.mul_assoc]; exact index_lt hj (by omega)
  have h2 : (j + n * (b + 3 * (c + 3 * d))) % n = j := by rw [Nat.add_mul_mod_self_left, Nat.mod_eq_of_lt hj]
  have h3 : (j + n * (b + 3 * (c + 3 * d))) / n = b + 3 * (c + 3 * d) := by
    rw [Nat.add_mul_div_left _ _ (by omega), Nat.div_eq_of_lt hj, Nat.zero_add]
  have h4 : (b + 3 * (c + 3 * d)) % 3 = b := by omega
  have h5 : (b + 3 * (c + 3 * d)) / 3 = c + 3 * d := by omega
  have h6 : (c + 3 * d) % 3 = c := by omega
  have h7 : (c + 3 * d) / 3 = d := by omega
  simp [tensor4, h1, h2, h3, h4, h5, h6, h7]

theorem says_phys (hv : Vars realOps q ord n r f) (hn : r.cfg.nphi = n) (hf : r.cfg.nfp = q.nfp.toNat) (h0 : 0 < q.nfp)
    {d : Second ℝ} {t : R2.R2p1 ℝ} (hd : r.second = some d) (ht : d.third = some t) : Says f n (physOf realOps r) := by
  obtain ⟨hs, hp⟩ := file_elem hv hn hd ht
  have hS : ∀ l : List String, (∀ a ∈ l, a ∈ scalars1Names ++ scalars2Names) →
      ∀ a ∈ l.map fun a => (a, elem realOps r a 0), Scalar f a.1 a.2 := by
    intro l hl a ha
    obtain ⟨b, hb, rfl⟩ := List.mem_map.1 ha
    exact hs b (hl b hb)
  have hP : ∀ l : List String, (∀ a ∈ l, a ∈ profiles1Names ++ profiles2Names ++ profiles3Names ∧ a ≠ "X1s") →
      ∀ a ∈ l.map fun a => (a, elem realOps r a), Profile f a.1 n a.2 := by
    intro l hl a ha
    obtain ⟨b, hb, rfl⟩ := List.mem_map.1 ha
    exact hp b (hl b hb).1 (hl b hb).2
  refine ⟨hn, ?_, ?_, ?_, ?_, ?_⟩
  · have := hv.ints ("nfp", q.nfp) (by simp)
    have e : ((physOf realOps r).nfp : Int) = q.nfp := by
      change (r.cfg.nfp : Int) = q.nfp
      rw [hf]
      omega
    rw [e]
    exact this
  · exact hS ["d_phi", "axis_length", "iota", "d2_volume_d_psi2", "DMerc_times_r2", "mean_R"] (by decide +kernel)
  · exact hP ["d_l_d_phi", "B20_anomaly", "elongation", "curvature", "R0", "B20", "r_hat_singularity_robust", "X20",
      "X2s", "X2c", "Y20", "Y2s", "Y2c", "d_X20_d_varphi", "d_X2s_d_varphi", "d_X2c_d_varphi", "d_Y20_d_varphi",
      "d_Y2s_d_varphi", "d_Y2c_d_varphi", "d2_X20_d_varphi2", "d2_X2s_d_varphi2", "d2_X2c_d_varphi2",
      "d2_Y20_d_varphi2", "d2_Y2s_d_varphi2", "d2_Y2c_d_varphi2", "Z20", "Z2s", "Z2c", "d_Z20_d_varphi",
      "d_Z2s_d_varphi", "d_Z2c_d_varphi", "X3c1", "Y3c1", "Y3s1", "d_X3c1_d_varphi", "d_Y3c1_d_varphi",
      "d_Y3s1_d_varphi", "d2_X3c1_d_varphi2", "d2_Y3c1_d_varphi2", "d2_Y3s1_d_varphi2"] (by decide +kernel)
  · obtain ⟨l, h1, h2, h3⟩ := hv.gradB
    refine ⟨l, h1, h2, fun j b c hj hb hc => ?_⟩
    rw [h3 j b c hj hb hc]
    have hm : ("grad_B_tensor", Data.flts (tensor3 n fun j => R1.gradB r.cfg r.r1 j)) ∈ results realOps r.cfg.nphi r := by
      rw [hn]
      refine List.mem_append_left _ ?_
      simp [results1]
    change _ = some (elem realOps r "grad_B_tensor" _)
    rw [elem_eq hm, tensor3_getD _ hj hb hc]
  · obtain ⟨l, h1, h2, h3⟩ := hv.gradgradB d hd
    refine ⟨l, h1, h2, fun j b c e hj hb hc he => ?_⟩
    rw [h3 j b c e hj hb hc he]
    have hm : ("grad_grad_B_tensor", Data.flts (tensor4 n fun j => GradGradB.main (.of d.inp d.r2 j))) ∈
        results realOps r.cfg.nphi r := by
      rw [hn]
      exact mem_results2 hd (by simp [results2])
    change _ = some (elem realOps r "grad_grad_B_tensor" _)
    rw [elem_eq hm, tensor4_getD _ hj hb hc he]

end

end Qsc.OptRun
