import Verif.Lemmas.SingleLib

/-!
# A single run: when it ends, and what it does not depend on (C80, C83)
-/

namespace Qsc.Single
open Qsc.Netcdf Qsc.Spec.Netcdf Qsc.Spec.Output Qsc.Output Qsc.Toml Qsc.Spec.Single

theorem defaults_eq {lit : String → ℝ} (h : Literals lit) (single : Bool) : Pipeline.qscNew lit single = defaults single := by
  obtain ⟨h1, h2, h3, h4, h5⟩ := h
  simp only [Pipeline.qscNew, defaults, h1, h2, h3, h4, h5]

theorem input_iff {lit : String → ℝ} (hl : Literals lit) (single : Bool) {file : Sections.File ℝ}
    (hf : Spec.Sections.WellFormed file) (q : QscIn ℝ) :
    Sections.inputQsc (fun i => (i : ℝ)) 0 file (Pipeline.qscNew lit single) = .ok q ↔ Input single file q := by
  rw [Sections.inputQsc_iff _ _ hf.1, defaults_eq hl]
  constructor
  · rintro ⟨t, ht, h⟩
    exact ⟨t, ht, (qscInput_ok_iff _ _ t _ q (hf.2 _ ht)).1 h⟩
  · rintro ⟨t, ht, h⟩
    exact ⟨t, ht, (qscInput_ok_iff _ _ t _ q (hf.2 _ ht)).2 h⟩

theorem points_iff (q : QscIn ℝ) (n : Nat) :
    (n : Int) = (if q.nphi % 2 = 0 then q.nphi + 1 else q.nphi) ↔ Points q n := by
  unfold Points
  split <;> omega

theorem order_iff (s : String) : s ∈ ["r1", "r2", "r2.1"] ↔ ∃ ord, Setup.validate s = .ok ord := by
  constructor
  · intro h
    simp only [List.mem_cons, List.not_mem_nil, or_false] at h
    rcases h with rfl | rfl | rfl <;> exact ⟨_, rfl⟩
  · rintro ⟨ord, h⟩
    rcases (validate_ok h).2 with ⟨rfl, -⟩ | ⟨rfl, -⟩ | ⟨rfl, -⟩ <;> simp

/-- What a run that ends has done, in terms of the input file. -/
theorem ended {L : Lib ℝ} (ho : L.ops = realOps) (hl : Literals L.lit) {m0 : Mem ℝ} {path : List Char}
    {file : Sections.File ℝ} (hf : Spec.Sections.WellFormed file) {name : List Char} {r : Result ℝ} {f : Netcdf.File ℝ}
    (h : run L m0 path file = .ok (name, r, f)) :
    ∃ (q : QscIn ℝ) (ord : Setup.Order) (n : Nat), Outfile.outfile path = .ok name ∧ Input L.single file q ∧
      Setup.validate q.order_r_option = .ok ord ∧ Sound q ∧ Points q n ∧ (coeffs q).WellSized ∧
      calculate L q n ord = .ok r ∧ Done ord r ∧ Vars realOps q ord n r f ∧
      writeQsc L.toF ⟨flags ord, final L.ops m0 q ord n r⟩ = .ok f := by
  obtain ⟨q, ord, n, h1, h2, h3, h4, h5, h6, h7, h8⟩ := unpack h
  obtain ⟨l1, l2, l3⟩ := sized hf h2
  have hne : q.R0c ≠ [] := by
    intro e
    rw [calculate_empty ho q e] at h7
    cases h7
  have hpos : 0 < q.R0c.length := List.length_pos_of_ne_nil hne
  have hd := calculate_done (validate_order h3) h7
  have hn : 0 < n := by
    have := (points_iff q n).1 h5
    unfold Points at this
    omega
  refine ⟨q, ord, n, h1, (input_iff hl _ hf q).1 h2, h3, ⟨(order_iff _).2 ⟨_, h3⟩, h4, h6, hne⟩, (points_iff q n).1 h5,
    ⟨hpos, l1, l2, l3⟩, h7, hd, ?_, h8⟩
  have := file_vars hd (validate_ok h3).1 rfl l1 l2 l3 hn hpos h8
  rwa [ho] at this

/-- **C80.** A run that ends: the input file has the right name and describes a configuration that can be
calculated, and the output file has the name made from it. -/
theorem ends_only {L : Lib ℝ} (ho : L.ops = realOps) (hl : Literals L.lit) {m0 : Mem ℝ} {path : List Char}
    {file : Sections.File ℝ} (hf : Spec.Sections.WellFormed file) {name : List Char} {r : Result ℝ} {f : Netcdf.File ℝ}
    (h : run L m0 path file = .ok (name, r, f)) :
    (∃ dir ext, Outfile.IsInputPath path dir ext ∧ name = dir ++ "qsc_out.".toList ++ ext ++ ".nc".toList) ∧
      ∃ q, Input L.single file q ∧ Sound q := by
  obtain ⟨q, ord, n, h1, h2, -, h4, -⟩ := ended ho hl hf h
  refine ⟨?_, q, h2, h4⟩
  by_cases hp : ∃ dir ext, Outfile.IsInputPath path dir ext
  · obtain ⟨dir, ext, hp⟩ := hp
    rw [Outfile.outfile_ok path dir ext hp] at h1
    injection h1 with h1
    exact ⟨dir, ext, hp, h1.symm⟩
  · rw [(Outfile.outfile_error_iff path).2 hp] at h1
    cases h1

/-- **C80.** With such an input file the run ends with an output file, unless a LAPACK routine fails; then the
exception of that routine ends the run. -/
theorem ends {L : Lib ℝ} (ho : L.ops = realOps) (hl : Literals L.lit) (m0 : Mem ℝ) {path dir ext : List Char}
    (hp : Outfile.IsInputPath path dir ext) {file : Sections.File ℝ} (hf : Spec.Sections.WellFormed file) {q : QscIn ℝ}
    (hq : Input L.single file q) (hs : Sound q) :
    (∃ r f, run L m0 path file = .ok (dir ++ "qsc_out.".toList ++ ext ++ ".nc".toList, r, f)) ∨
      (run L m0 path file = .error (.throw "LAPACK error in *gesv") ∧ ∃ n m b, L.gesv n m b = none) ∨
      (run L m0 path file = .error (.throw "LAPACK error in *geev") ∧ ∃ m, L.geev m = none) := by
  have h2 := (input_iff hl L.single hf q).2 hq
  obtain ⟨ord, h3⟩ := (order_iff _).1 hs.1
  obtain ⟨n, hn⟩ := odd_up hs.2.1
  obtain ⟨l1, l2, l3⟩ := sized hf h2
  have hpos : 0 < q.R0c.length := List.length_pos_of_ne_nil hs.2.2.2
  have hodd : n % 2 = 1 := by
    have := (points_iff q n).1 hn
    unfold Points at this
    omega
  obtain ⟨M, rfl⟩ : ∃ M, n = 2 * M + 1 := ⟨n / 2, by omega⟩
  rw [run_eq L m0 (Outfile.outfile_ok path dir ext hp) h2 h3 hs.2.1 hn hs.2.2.1]
  rcases calculate_ends ho q ⟨hpos, l1, l2, l3⟩ M ord with ⟨r, hr⟩ | ⟨e, he, hle⟩
  · left
    obtain ⟨f, hw, -⟩ := file_written L.toF L.ops m0 q ord (2 * M + 1) r (calculate_done (validate_order h3) hr)
      (validate_ok h3).1 rfl l1 l2 l3 (by omega) hpos
    exact ⟨r, f, by simp only [hr, hw]⟩
  · right
    rcases hle with ⟨rfl, hx⟩ | ⟨rfl, hx⟩
    · exact Or.inl ⟨by simp only [he], hx⟩
    · exact Or.inr ⟨by simp only [he], hx⟩

/-- **C80.** What happens otherwise. -/
theorem refused {L : Lib ℝ} (ho : L.ops = realOps) (hl : Literals L.lit) (m0 : Mem ℝ) (path : List Char)
    {file : Sections.File ℝ} (hf : Spec.Sections.WellFormed file) :
    ((¬ ∃ dir ext, Outfile.IsInputPath path dir ext) → run L m0 path file = .error (.name .badName)) ∧
    ((∃ dir ext, Outfile.IsInputPath path dir ext) →
      ((¬ ∃ q, Input L.single file q) → ∃ e, run L m0 path file = .error (.input e)) ∧
      ∀ q, Input L.single file q →
        (q.order_r_option ∉ ["r1", "r2", "r2.1"] →
          run L m0 path file = .error (.run (.throw "Invalid setting for order_r_option"))) ∧
        (q.order_r_option ∈ ["r1", "r2", "r2.1"] →
          (q.nphi < 0 → run L m0 path file = .error (.file (.nc "std::bad_alloc"))) ∧
          (0 ≤ q.nphi → 0 < q.nfp → q.R0c = [] →
            run L m0 path file = .error (.run (.undefined "axis array"))))) := by
  constructor
  · intro h
    unfold run
    rw [(Outfile.outfile_error_iff path).2 h]
  · rintro ⟨dir, ext, hp⟩
    have h1 := Outfile.outfile_ok path dir ext hp
    constructor
    · intro h
      cases h2 : Sections.inputQsc (fun i => (i : ℝ)) 0 file (Pipeline.qscNew L.lit L.single) with
      | ok q => exact absurd ⟨q, (input_iff hl _ hf q).1 h2⟩ h
      | error e =>
        refine ⟨e, ?_⟩
        unfold run
        simp only [h1, h2]
    · intro q hq
      have h2 := (input_iff hl L.single hf q).2 hq
      constructor
      · intro h
        unfold run
        have h3 : Setup.validate q.order_r_option = .error (.throw "Invalid setting for order_r_option") := by
          simp only [List.mem_cons, List.not_mem_nil, or_false, not_or] at h
          unfold Setup.validate
          rw [if_neg h.1, if_neg h.2.1, if_neg h.2.2]
        simp only [h1, h2, h3]
      · intro h
        obtain ⟨ord, h3⟩ := (order_iff _).1 h
        constructor
        · intro h4
          unfold run
          simp only [h1, h2, h3, allocate_neg _ (inputs_nphi (flags ord) m0 q) h4]
        · intro h4 h5 h6
          obtain ⟨n, hn⟩ := odd_up h4
          rw [run_eq L m0 h1 h2 h3 h4 hn h5, calculate_empty ho q h6]

/-- **C80.** A run that ends did not use anything that a failed LAPACK routine left behind: with a library whose
routines also succeed where those of `L` fail, it ends in the same way. -/
theorem better_library {K : Type} [Field K] [DecidableEq K] {L L' : Lib K} (hL : Extends L L') {m0 : Mem K}
    {path : List Char} {file : Sections.File K} {x : List Char × Result K × Netcdf.File K}
    (h : run L m0 path file = .ok x) : run L' m0 path file = .ok x := by
  obtain ⟨name, r, f⟩ := x
  obtain ⟨q, ord, n, h1, h2, h3, h4, h5, h6, h7, h8⟩ := unpack h
  rw [run_eq L' m0 h1 (by rw [hL.lit, hL.single]; exact h2) h3 h4 h5 h6, calculate_mono hL h7, hL.toF, hL.ops]
  dsimp only
  rw [h8]

/-- **C83.** What the members of the object hold before the run has no influence: not on the output file, nor
on whether the run ends, nor on the error. -/
theorem memory_irrelevant {K : Type} [Field K] [DecidableEq K] (L : Lib K) (m0 m0' : Mem K) (path : List Char)
    (file : Sections.File K) : run L m0 path file = run L m0' path file := by
  cases h1 : Outfile.outfile path with
  | error e => unfold run; simp only [h1]
  | ok name =>
    cases h2 : Sections.inputQsc (fun i => (i : K)) 0 file (Pipeline.qscNew L.lit L.single) with
    | error e => unfold run; simp only [h1, h2]
    | ok q =>
      cases h3 : Setup.validate q.order_r_option with
      | error e => unfold run; simp only [h1, h2, h3]
      | ok ord =>
        by_cases h0 : 0 ≤ q.nphi
        · obtain ⟨n, hn⟩ := odd_up h0
          by_cases hp : 0 < q.nfp
          · rw [run_eq L m0 h1 h2 h3 h0 hn hp, run_eq L m0' h1 h2 h3 h0 hn hp]
            cases h4 : calculate L q n ord with
            | error e => rfl
            | ok r =>
              dsimp only
              rw [written_congr L.toF L.ops m0 m0' q ord n r (calculate_done (validate_order h3) h4)]
          · unfold run
            simp only [h1, h2, h3, allocate_eq _ (inputs_nphi (flags ord) m0 q) hn,
              allocate_eq _ (inputs_nphi (flags ord) m0' q) hn, intMember, allocated_nphi]
            rw [if_pos (by omega), if_pos (by omega)]
        · unfold run
          simp only [h1, h2, h3, allocate_neg _ (inputs_nphi (flags ord) m0 q) (by omega),
            allocate_neg _ (inputs_nphi (flags ord) m0' q) (by omega)]

/-! ## Example: an axis with one mode, to second order -/

/-- A library whose linear solver and eigenvalue solver never fail. -/
noncomputable def exLib : Lib ℝ where
  ops := realOps
  lit := fun s => if s = "-1.0" then -1 else if s = "0.0" then 0 else if s = "1.0" then 1
    else if s = "1.0e-5" then 1 / 10 ^ 5 else 1 / 10 ^ 12
  toF := fun n => n
  single := false
  gesv := fun _ _ b => some b
  geev := fun _ => some (fun _ => 0, fun _ => 0)

theorem exLiterals : Literals exLib.lit := by
  refine ⟨?_, ?_, ?_, ?_, ?_⟩ <;> simp [exLib]

/-- `nfp = 4`, a value of `nphi`, `R0c = [1, 0.05]`, `Z0s = [0, 0.05]`, and `order_r_option`. -/
noncomputable def exFile (order : String) (nphi : Int) : Sections.File ℝ :=
  [("qsc", [("order_r_option", .str order), ("nfp", .int 4), ("nphi", .int nphi), ("R0c", .arr [.flt 1, .flt (1 / 20)]),
    ("Z0s", .arr [.flt 0, .flt (1 / 20)]), ("eta_bar", .flt (3 / 2))])]

noncomputable def exInput (order : String) (nphi : Int) : QscIn ℝ :=
  { defaults false with
    order_r_option := order, nfp := 4, nphi := nphi, R0c := [1, 1 / 20], R0s := [0, 0], Z0c := [0, 0],
    Z0s := [0, 1 / 20], eta_bar := 3 / 2 }

theorem exWellFormed (order : String) (nphi : Int) : Spec.Sections.WellFormed (exFile order nphi) := by
  refine ⟨by simp [exFile], ?_⟩
  simp [exFile]

theorem ex_input (order : String) (nphi : Int) : Input exLib.single (exFile order nphi) (exInput order nphi) := by
  rw [← input_iff exLiterals _ (exWellFormed order nphi), defaults_eq exLiterals]
  rfl

theorem ex_sound : Sound (exInput "r2.1" 20) := by
  refine ⟨by simp [exInput], by simp [exInput], by simp [exInput], by simp [exInput]⟩

theorem ex_path : Outfile.IsInputPath "dir/qsc_in.torus".toList "dir/".toList "torus".toList := by
  exact ⟨Or.inr ⟨"dir".toList, by decide +kernel⟩, by decide +kernel, by decide +kernel⟩

/-- The run ends with an output file. -/
theorem ex_run (m0 : Mem ℝ) : ∃ r f, run exLib m0 "dir/qsc_in.torus".toList (exFile "r2.1" 20) =
    .ok ("dir/qsc_out.torus.nc".toList, r, f) := by
  rcases ends rfl exLiterals m0 ex_path (exWellFormed _ _) (ex_input "r2.1" 20) ex_sound with h | ⟨-, n, m, b, h⟩ | ⟨-, m, h⟩
  · exact h
  · cases h
  · cases h

/-- The grid has 21 points. -/
example : Points (exInput "r2.1" 20) 21 := Or.inr ⟨rfl, rfl⟩

/-- A library whose linear solver fails for larger systems, and one that extends it. -/
example : Extends { exLib with gesv := fun n _ b => if n < 30 then some b else none } exLib :=
  ⟨rfl, rfl, rfl, rfl, fun n m b x h => (Option.ite_none_right_eq_some.1 h).2, fun _ _ h => h⟩

/-- Refused: an unknown order, and a negative size. -/
example (m0 : Mem ℝ) : run exLib m0 "dir/qsc_in.torus".toList (exFile "r7" 20) =
    .error (.run (.throw "Invalid setting for order_r_option")) :=
  (((refused rfl exLiterals m0 _ (exWellFormed "r7" 20)).2 ⟨_, _, ex_path⟩).2 _ (ex_input "r7" 20)).1 (by simp [exInput])

example (m0 : Mem ℝ) : run exLib m0 "dir/qsc_in.torus".toList (exFile "r1" (-5)) =
    .error (.file (.nc "std::bad_alloc")) :=
  ((((refused rfl exLiterals m0 _ (exWellFormed "r1" (-5))).2 ⟨_, _, ex_path⟩).2 _ (ex_input "r1" (-5))).2
    (by simp [exInput])).1 (by simp [exInput])

end Qsc.Single
