import Verif.Lemmas.SingleFile
import Verif.Lemmas.NetcdfCongr
import Verif.Spec.Sections

/-!
# Lemmas for a single run: what has to hold for it to end, and the file
-/

namespace Qsc.Single
open Qsc.Netcdf Qsc.Spec.Netcdf Qsc.Spec.Output Qsc.Output Qsc.Toml

variable {K : Type} [Field K]

/-! ## The file -/

theorem done_flags {ord : Setup.Order} {r : Result K} (hd : Done ord r) :
    flags ord ∈ [(⟨false, false, false⟩ : Flags), ⟨true, false, false⟩, ⟨true, true, true⟩] := by
  have := hd.1
  simp only [List.mem_cons, List.not_mem_nil, or_false] at this
  rcases this with rfl | rfl | rfl <;> simp [flags]

/-- Everything about the file of a run. -/
theorem file_complete (toF : Nat → K) (o : Ops K) (m0 : Mem K) (q : QscIn K) (ord : Setup.Order) (n : Nat) (r : Result K)
    (hd : Done ord r) (hs : q.order_r_option ≠ "") {ax : Nat} (h0 : q.R0c.length = ax)
    (h1 : q.R0s.length = ax) (h2 : q.Z0c.length = ax) (h3 : q.Z0s.length = ax) (hn : 0 < n) (ha : 0 < ax) :
    ∃ f, writeQsc toF ⟨flags ord, final o m0 q ord n r⟩ = .ok f ∧ Spec.Netcdf.WellFormed f ∧
      [("nphi", n), ("axis_nmax_plus_1", ax), ("normal_binormal_tangent", 3)] <+: f.dims ∧
      (f.dims.map (·.1)).Nodup ∧
      (∀ d ∈ f.dims, d ∈ [("nphi", n), ("axis_nmax_plus_1", ax), ("normal_binormal_tangent", 3)] ∨
        ∃ k, 0 < k ∧ d = (strDim k, k)) ∧
      f.vars.map (·.name) = (qscCalls (flags ord)).map Call.name ∧
      ∀ c ∈ qscCalls (flags ord), ∃ e ∈ contents f, e.name = c.name ∧
        e.ty = tyOf (scope o m0 q ord n r c.addr) ∧ e.data = some (scope o m0 q ord n r c.addr) := by
  have hchk := List.all_eq_true.mp (table_fits (flags ord) (done_flags hd))
  simp only [Bool.and_eq_true] at hchk
  have hD : Dims [("nphi", n), ("axis_nmax_plus_1", ax), ("normal_binormal_tangent", 3)] id 3 3 := by
    refine ⟨fun k hk => by simpa using hk, fun k hk => ?_⟩
    rcases k with _ | _ | _ | k <;> simp [dimAt] <;> omega
  obtain ⟨f, w1, w2, w3, w4, w5, w6, -, w8⟩ := write_new (toF := toF) (eval := fun _ => 0)
    (D := [("nphi", n), ("axis_nmax_plus_1", ax), ("normal_binormal_tangent", 3)])
    (m := scope o m0 q ord n r) (cs := qscCalls (flags ord))
    (by change ["nphi", "axis_nmax_plus_1", "normal_binormal_tangent"].Nodup; decide)
    (by simp; omega)
    (by change ∀ s ∈ ["nphi", "axis_nmax_plus_1", "normal_binormal_tangent"], s.toList.head? ≠ some 'd'; decide)
    (qscNames _) hD (scope_fits o m0 q ord n r hd hs h0 h1 h2 h3) (fun c hc => (hchk c hc).1)
  have w5' : ∀ d ∈ f.dims, d ∈ [("nphi", n), ("axis_nmax_plus_1", ax), ("normal_binormal_tangent", 3)] ∨
      ∃ k, 0 < k ∧ d = (strDim k, k) := by
    intro d hd'
    rcases w5 d hd' with h | ⟨c, hc, ⟨nm, t, e⟩, h⟩
    · exact Or.inl h
    · refine Or.inr ⟨_, ?_, h⟩
      have := (hchk c hc).1
      rw [e] at this
      obtain ⟨x, hx, hne⟩ := scope_fits o m0 q ord n r hd hs h0 h1 h2 h3 _ (has_mem this)
      rw [hx]
      exact List.length_pos_of_ne_nil hne
  refine ⟨f, ?_, w2, w3, w4, w5', w6, fun c hc => w8 c hc (hchk c hc).2⟩
  have e1 : final o m0 q ord n r "R0c" = .flts q.R0c :=
    final_input o m0 q ord n r (a := ("R0c", .flts q.R0c)) (by simp [inputMembers]) (by simp)
  unfold writeQsc
  simp only [intMember, final_nphi, vectorSize, e1, dimLength]
  rw [if_neg (by omega), qscScope_eq, h0]
  exact w1

theorem file_written (toF : Nat → K) (o : Ops K) (m0 : Mem K) (q : QscIn K) (ord : Setup.Order) (n : Nat) (r : Result K)
    (hd : Done ord r) (hs : q.order_r_option ≠ "") {ax : Nat} (h0 : q.R0c.length = ax)
    (h1 : q.R0s.length = ax) (h2 : q.Z0c.length = ax) (h3 : q.Z0s.length = ax) (hn : 0 < n) (ha : 0 < ax) :
    ∃ f, writeQsc toF ⟨flags ord, final o m0 q ord n r⟩ = .ok f ∧ Spec.Netcdf.WellFormed f ∧
      [("nphi", n), ("axis_nmax_plus_1", ax), ("normal_binormal_tangent", 3)] <+: f.dims ∧
      f.vars.map (·.name) = (qscCalls (flags ord)).map Call.name ∧
      ∀ c ∈ qscCalls (flags ord), ∃ e ∈ contents f, e.name = c.name ∧
        e.ty = tyOf (scope o m0 q ord n r c.addr) ∧ e.data = some (scope o m0 q ord n r c.addr) := by
  obtain ⟨f, h1, h2, h3, -, -, h6, h7⟩ := file_complete toF o m0 q ord n r hd hs h0 h1 h2 h3 hn ha
  exact ⟨f, h1, h2, h3, h6, h7⟩

/-! ## The parts of the run -/

theorem sized {lit : String → K} {single : Bool} {file : Sections.File K} (hf : Spec.Sections.WellFormed file)
    {q : QscIn K} (h : Sections.inputQsc (fun i => (i : K)) 0 file (Pipeline.qscNew lit single) = .ok q) :
    q.R0s.length = q.R0c.length ∧ q.Z0c.length = q.R0c.length ∧ q.Z0s.length = q.R0c.length := by
  obtain ⟨t, ht, hq⟩ := (Sections.inputQsc_iff _ _ hf.1 _ _).1 h
  obtain ⟨-, -, -, -, -, -, -, -, -, -, -, -, -, -, -, -, -, R0c, R0s, Z0c, Z0s, -, -, -, -, h1, h2, h3, h4⟩ :=
    (qscInput_ok_iff _ _ t _ q (hf.2 _ ht)).1 hq
  rw [h1.1, h2.1, h3.1, h4.1]
  exact ⟨rfl, rfl, rfl⟩

theorem validate_ok {s : String} {ord : Setup.Order} (h : Setup.validate s = .ok ord) :
    s ≠ "" ∧ ((s = "r1" ∧ ord = ⟨false, false, false⟩) ∨ (s = "r2" ∧ ord = ⟨true, false, false⟩) ∨
      (s = "r2.1" ∧ ord = ⟨true, true, true⟩)) := by
  unfold Setup.validate at h
  split at h
  · rename_i e; subst e; cases h; exact ⟨by decide, Or.inl ⟨rfl, rfl⟩⟩
  · split at h
    · rename_i e; subst e; cases h; exact ⟨by decide, Or.inr (Or.inl ⟨rfl, rfl⟩)⟩
    · split at h
      · rename_i e; subst e; cases h; exact ⟨by decide, Or.inr (Or.inr ⟨rfl, rfl⟩)⟩
      · cases h

theorem allocate_eq (o : Obj K) {x : Int} {n : Nat} (hx : o.mem "nphi" = .ints [x])
    (hn : (n : Int) = if x % 2 = 0 then x + 1 else x) : allocate 0 o = .ok ⟨o.fl, allocated 0 o n⟩ := by
  unfold allocate
  simp only [intMember, hx]
  rw [← hn, if_neg (by omega), Int.toNat_natCast]
  rfl

theorem allocate_neg (o : Obj K) {x : Int} (hx : o.mem "nphi" = .ints [x]) (h0 : x < 0) :
    allocate 0 o = .error (.nc "std::bad_alloc") := by
  unfold allocate
  simp only [intMember, hx]
  rw [if_pos (by split <;> omega)]

theorem inputs_nphi (fl : Flags) (m0 : Mem K) (q : QscIn K) :
    (⟨fl, assign m0 (inputMembers q)⟩ : Obj K).mem "nphi" = .ints [q.nphi] :=
  assign_mem m0 (l := inputMembers q) (a := ("nphi", .ints [q.nphi]))
    (by rw [inputMembers_names]; exact inputs_nodup) (by simp [inputMembers])

theorem odd_up {x : Int} (h : 0 ≤ x) : ∃ n : Nat, (n : Int) = if x % 2 = 0 then x + 1 else x :=
  Int.eq_ofNat_of_zero_le (by split <;> omega) |>.imp fun _ h => h.symm

variable [DecidableEq K]

/-- The part of a run after the input was accepted. -/
theorem run_eq (L : Lib K) (m0 : Mem K) {path : List Char} {file : Sections.File K} {name : List Char} {q : QscIn K}
    {ord : Setup.Order} (h1 : Outfile.outfile path = .ok name)
    (h2 : Sections.inputQsc (fun i => (i : K)) 0 file (Pipeline.qscNew L.lit L.single) = .ok q)
    (h3 : Setup.validate q.order_r_option = .ok ord) {n : Nat} (h0 : 0 ≤ q.nphi)
    (hn : (n : Int) = if q.nphi % 2 = 0 then q.nphi + 1 else q.nphi) (hp : 0 < q.nfp) :
    run L m0 path file =
      match calculate L q n ord with
      | .error e => .error e
      | .ok r =>
        match writeQsc L.toF ⟨flags ord, final L.ops m0 q ord n r⟩ with
        | .error e => .error (.file e)
        | .ok f => .ok (name, r, f) := by
  unfold run
  simp only [h1, h2, h3, allocate_eq _ (inputs_nphi (flags ord) m0 q) hn, intMember, allocated_nphi,
    Int.toNat_natCast]
  rw [if_neg (by omega)]
  rfl

/-- What a run that ends has done. -/
theorem unpack {L : Lib K} {m0 : Mem K} {path : List Char} {file : Sections.File K} {name : List Char} {r : Result K}
    {f : Netcdf.File K} (h : run L m0 path file = .ok (name, r, f)) :
    ∃ (q : QscIn K) (ord : Setup.Order) (n : Nat), Outfile.outfile path = .ok name ∧
      Sections.inputQsc (fun i => (i : K)) 0 file (Pipeline.qscNew L.lit L.single) = .ok q ∧
      Setup.validate q.order_r_option = .ok ord ∧ 0 ≤ q.nphi ∧
      (n : Int) = (if q.nphi % 2 = 0 then q.nphi + 1 else q.nphi) ∧ 0 < q.nfp ∧
      calculate L q n ord = .ok r ∧ writeQsc L.toF ⟨flags ord, final L.ops m0 q ord n r⟩ = .ok f := by
  cases h1 : Outfile.outfile path with
  | error e => unfold run at h; simp only [h1] at h; cases h
  | ok nm =>
    cases h2 : Sections.inputQsc (fun i => (i : K)) 0 file (Pipeline.qscNew L.lit L.single) with
    | error e => unfold run at h; simp only [h1, h2] at h; cases h
    | ok q =>
      cases h3 : Setup.validate q.order_r_option with
      | error e => unfold run at h; simp only [h1, h2, h3] at h; cases h
      | ok ord =>
        by_cases h0 : 0 ≤ q.nphi
        · obtain ⟨n, hn⟩ := odd_up h0
          by_cases hp : 0 < q.nfp
          · rw [run_eq L m0 h1 h2 h3 h0 hn hp] at h
            cases h4 : calculate L q n ord with
            | error e => simp only [h4] at h; cases h
            | ok r' =>
              simp only [h4] at h
              split at h
              · cases h
              · rename_i h5
                cases h
                exact ⟨q, ord, n, rfl, rfl, h3, h0, hn, hp, h4, h5⟩
          · unfold run at h
            simp only [h1, h2, h3, allocate_eq _ (inputs_nphi (flags ord) m0 q) hn, intMember, allocated_nphi] at h
            rw [if_pos (by omega)] at h
            cases h
        · unfold run at h
          simp only [h1, h2, h3, allocate_neg _ (inputs_nphi (flags ord) m0 q) (by omega)] at h
          cases h

theorem second_third {L : Lib K} {i : R2.In K} {a : Axis.Axis K} {b : Bool} {d : Second K}
    (h : second L i a b = .ok d) : d.inp = i ∧ d.third.isSome = b := by
  unfold second at h
  split at h
  · cases h
  · dsimp only at h
    split at h
    · cases h
    · cases h
      cases b <;> exact ⟨rfl, rfl⟩

theorem calculate_done {L : Lib K} {q : QscIn K} {n : Nat} {ord : Setup.Order} {r : Result K}
    (ho : ord ∈ [(⟨false, false, false⟩ : Setup.Order), ⟨true, false, false⟩, ⟨true, true, true⟩])
    (h : calculate L q n ord = .ok r) : Done ord r := by
  refine ⟨ho, ?_⟩
  unfold calculate at h
  split at h
  · cases h
  · dsimp only at h
    split at h
    · cases h
    · split at h
      · cases h
      · split at h
        · rename_i hb
          split at h
          · cases h
          · rename_i d hd
            cases h
            exact ⟨hb.symm, (second_third hd).2⟩
        · rename_i hb
          cases h
          have hb' : ord.atLeastR2 = false := by simpa using hb
          refine ⟨hb'.symm, ?_⟩
          simp only [List.mem_cons, List.not_mem_nil, or_false] at ho
          rcases ho with rfl | rfl | rfl
          · rfl
          · simp at hb
          · simp at hb

theorem validate_order {s : String} {ord : Setup.Order} (h : Setup.validate s = .ok ord) :
    ord ∈ [(⟨false, false, false⟩ : Setup.Order), ⟨true, false, false⟩, ⟨true, true, true⟩] := by
  rcases (validate_ok h).2 with ⟨-, rfl⟩ | ⟨-, rfl⟩ | ⟨-, rfl⟩ <;> simp

end Qsc.Single
