import Verif.Lemmas.SingleRun
import Verif.Lemmas.OptRun
import Verif.Props.MultiOptRun

/-!
# What the memory contained before an optimization (C111)
-/

namespace Qsc.OptMemory
open Qsc.Netcdf Qsc.Output Qsc.Single Qsc.Toml

section
variable {K : Type} [Field K]

/-- The memory of `q` when the file is written: results for `k` grid points, arrays for `n`. -/
def atEnd (o : Ops K) (m0 : Mem K) (q : QscIn K) (ord : Setup.Order) (n k : Nat) (r : Result K) : Mem K :=
  assign (allocated 0 ⟨flags ord, assign m0 (inputMembers q)⟩ n) (results o k r)

theorem atEnd_congr (o : Ops K) (m0 m0' : Mem K) (q : QscIn K) (ord : Setup.Order) (n k : Nat) (r : Result K) {b : String}
    (h : b ∈ (resultShapes (isSecond r) (isThird r)).map (·.1) ∨ b ∈ allocNames (flags ord) ∨
      b ∈ "nphi" :: inputShapes.map (·.1)) :
    atEnd o m0 q ord n k r b = atEnd o m0' q ord n k r b := by
  by_cases hb : b ∈ (results o k r).map Prod.fst
  · exact foldl_set_congr (results o k r) Prod.fst Prod.snd (Or.inl hb)
  · refine foldl_set_congr (results o k r) Prod.fst Prod.snd (Or.inr ?_)
    have hb' : b ∉ (results o n r).map Prod.fst := by
      rw [results_names] at hb ⊢
      exact hb
    have := final_congr o m0 m0' q ord n r h
    have e : ∀ m : Mem K, final o m q ord n r b = allocated 0 ⟨flags ord, assign m (inputMembers q)⟩ n b := by
      intro m
      unfold final
      exact assign_not _ hb'
    rwa [e, e] at this

theorem qsc_congr (toF : Nat → K) (o : Ops K) (m0 m0' : Mem K) (q : QscIn K) (ord : Setup.Order) (n k : Nat)
    (r : Result K) (hd : Done ord r) :
    writeQsc toF ⟨flags ord, atEnd o m0 q ord n k r⟩ = writeQsc toF ⟨flags ord, atEnd o m0' q ord n k r⟩ := by
  have e0 : atEnd o m0 q ord n k r "R0c" = atEnd o m0' q ord n k r "R0c" :=
    atEnd_congr o m0 m0' q ord n k r (Or.inr (Or.inr (by decide +kernel)))
  have e1 : atEnd o m0 q ord n k r "nphi" = atEnd o m0' q ord n k r "nphi" :=
    atEnd_congr o m0 m0' q ord n k r (Or.inr (Or.inr (by decide +kernel)))
  unfold writeQsc
  simp only [intMember, vectorSize, e0, e1]
  split
  · rfl
  · rfl
  · split
    · rfl
    · refine run_congr toF _ _ ?_
      intro op hop a ha
      rw [qscScope_eq, qscScope_eq]
      rcases List.mem_append.mp hop with h | h
      · simp only [List.mem_cons, List.not_mem_nil, or_false] at h
        rcases h with rfl | rfl | rfl <;> cases ha
      · obtain ⟨c, hc, rfl⟩ := List.mem_map.mp h
        have h' := List.all_eq_true.mp (call_addrs _ (orders_of hd)) c hc
        simp only [Bool.and_eq_true, decide_eq_true_eq] at h'
        obtain ⟨h1, h2⟩ := h'
        have hca : c.addr = a := by
          cases c with
          | op op =>
            cases op <;> simp only [Call.toOp, Op.addr?, Option.some.injEq, reduceCtorEq] at ha <;> exact ha
          | big _ _ => cases h2
        rw [hca] at h1
        refine withLocals_congr ?_
        rcases h1 with h1 | h1
        · exact Or.inl h1
        · refine Or.inr (atEnd_congr o m0 m0' q ord n k r ?_)
          rw [hd.2.1, hd.2.2]
          exact h1

theorem opt_addrs (ax it : Nat) : ∀ c ∈ optCalls ax it, c.addr ∈ OptRun.memberNames ∧ ∃ op, c = .op op := by
  have h1 : (optCalls ax it).map Call.addr = (optCalls 0 0).map Call.addr := rfl
  have h2 : ∀ a ∈ (optCalls 0 0).map Call.addr, a ∈ OptRun.memberNames := by decide +kernel
  have h3 : (optCalls ax it).all (fun c => match c with | .op _ => true | .big _ _ => false) = true := rfl
  intro c hc
  refine ⟨h2 _ (h1 ▸ List.mem_map_of_mem hc), ?_⟩
  have := List.all_eq_true.mp h3 c hc
  cases c with
  | op op => exact ⟨op, rfl⟩
  | big _ _ => cases this

variable [DecidableEq K]

theorem write_congr (L : Lib K) (m0 m1 m0' m1' : Mem K) (o : Sections.OptObj K) (w : OptResid.Weights K)
    (t : OptResid.Targets K) (rows : Nat) (st : OptLoop.St K (Result K)) :
    OptRun.write L m0 m1 o w t rows st = OptRun.write L m0' m1' o w t rows st := by
  unfold OptRun.write
  dsimp only
  cases h3 : Setup.validate (OptRun.atPoint o.q st.q st.nphi).order_r_option with
  | error e => rfl
  | ok ord =>
    dsimp only
    obtain ⟨n, hn⟩ := odd_up (show 0 ≤ (OptRun.atPoint o.q st.q st.nphi).nphi from Int.natCast_nonneg _)
    rw [allocate_eq _ (inputs_nphi (flags ord) m0 _) hn, allocate_eq _ (inputs_nphi (flags ord) m0' _) hn]
    dsimp only
    cases h4 : calculate L (OptRun.atPoint o.q st.q st.nphi) st.nphi ord with
    | error e => rfl
    | ok r =>
      dsimp only
      have hq := qsc_congr L.toF L.ops m0 m0' (OptRun.atPoint o.q st.q st.nphi) ord n st.nphi r
        (calculate_done (validate_order h3) h4)
      unfold atEnd at hq
      have hm : ∀ b ∈ OptRun.memberNames, assign m1 (OptRun.memberList L.ops o.mem w t rows st) b
          = assign m1' (OptRun.memberList L.ops o.mem w t rows st) b := by
        intro b hb
        exact foldl_set_congr (OptRun.memberList L.ops o.mem w t rows st) Prod.fst Prod.snd
          (Or.inl (by rw [OptRun.memberList_names]; exact hb))
      have e : ∀ q : Obj K, writeOpt L.toF ⟨q, assign m1 (OptRun.memberList L.ops o.mem w t rows st)⟩
          = writeOpt L.toF ⟨q, assign m1' (OptRun.memberList L.ops o.mem w t rows st)⟩ := by
        intro q
        unfold writeOpt
        dsimp only
        cases writeQsc L.toF q with
        | error e => rfl
        | ok f =>
          dsimp only
          cases inqDim f "axis_nmax_plus_1" with
          | none => rfl
          | some ax =>
            dsimp only
            simp only [intMember, hm "n_iter" (by decide +kernel)]
            split
            · rfl
            · split
              · rfl
              · refine run_congr L.toF _ _ ?_
                intro op hop a ha
                rcases List.mem_append.mp hop with h | h
                · simp only [List.mem_cons, List.not_mem_nil, or_false] at h
                  subst h
                  cases ha
                · obtain ⟨c, hc, rfl⟩ := List.mem_map.mp h
                  obtain ⟨h1, op, rfl⟩ := opt_addrs _ _ c hc
                  have hca : (Call.op op).addr = a := by
                    cases op <;> simp only [Call.toOp, Op.addr?, Option.some.injEq, reduceCtorEq] at ha <;> exact ha
                  rw [hca] at h1
                  exact hm a h1
      rw [e]
      have e2 : ∀ (q q' : Obj K) (m : Mem K), writeQsc L.toF q = writeQsc L.toF q' →
          writeOpt L.toF ⟨q, m⟩ = writeOpt L.toF ⟨q', m⟩ := by
        intro q q' m h
        unfold writeOpt
        dsimp only
        rw [h]
      rw [e2 _ _ _ hq]

/-- **C111.** What the members hold before an optimization has no influence: not on the output file, nor on whether the
optimization ends, nor on the error. -/
theorem opt_memory (L : Lib K) (gsl : Nat → (p : Nat) → OptLoop.Gsl K p) (m0 m1 m0' m1' : Mem K) (path : List Char)
    (file : Sections.File K) : OptRun.run L gsl m0 m1 path file = OptRun.run L gsl m0' m1' path file := by
  unfold OptRun.run
  simp only [write_congr L m0 m1 m0' m1']

theorem writeStages_congr (L : Lib K) (m0 m1 m0' m1' : Nat → Mem K) (q : QscIn K) :
    ∀ (os : List (Sections.OptObj K)) (sts : List (OptLoop.St K (Result K))) (j modes : Nat),
      MultiOptRun.writeStages L m0 m1 q j modes os sts = MultiOptRun.writeStages L m0' m1' q j modes os sts := by
  intro os
  induction os with
  | nil => intro sts j modes; unfold MultiOptRun.writeStages; rfl
  | cons o os ih =>
    intro sts j modes
    cases sts with
    | nil => unfold MultiOptRun.writeStages; rfl
    | cons st sts =>
      unfold MultiOptRun.writeStages
      simp only [ih sts, write_congr L (m0 j) (m1 j) (m0' j) (m1' j)]

/-- **C111.** The same for a multi-stage optimization and all its output files. -/
theorem stages_memory (L : Lib K) (gsl : Nat → Nat → (p : Nat) → OptLoop.Gsl K p) (m0 m1 m0' m1' : Nat → Mem K)
    (path : List Char) (file : Sections.File K) :
    MultiOptRun.run L gsl m0 m1 path file = MultiOptRun.run L gsl m0' m1' path file := by
  unfold MultiOptRun.run
  simp only [writeStages_congr L m0 m1 m0' m1']

end

/-! ## Examples -/

/-- The example of an optimization ends with the same file for all contents of memory. -/
example : ∃ st f, ∀ m0 m1 : Mem ℝ, OptRun.run exLib OptRun.exGsl m0 m1 "dir/qsc_in.torus".toList (OptRun.exOptFile 1) =
    .ok ("dir/qsc_out.torus.nc".toList, st, f) := by
  obtain ⟨st, f, h⟩ := OptRun.ex_opt (fun _ => .ints []) (fun _ => .ints [])
  exact ⟨st, f, fun m0 m1 => by rw [opt_memory _ _ m0 m1 (fun _ => .ints []) (fun _ => .ints [])]; exact h⟩

/-- The example of two stages as well. -/
example : ∃ out total, ∀ m0 m1 : Nat → Mem ℝ, MultiOptRun.run exLib (fun _ => OptRun.exGsl) m0 m1
    "dir/qsc_in.torus".toList MultiOptRun.exMulti = .ok (out, total) := by
  obtain ⟨out, total, h⟩ := MultiOptRun.ex_multi (fun _ _ => .ints []) (fun _ _ => .flts [])
  exact ⟨out, total, fun m0 m1 => by
    rw [stages_memory _ _ m0 m1 (fun _ _ => .ints []) (fun _ _ => .flts [])]; exact h⟩

end Qsc.OptMemory
