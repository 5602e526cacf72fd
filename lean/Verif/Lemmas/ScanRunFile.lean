import Verif.Model.ScanRun
import Verif.Spec.ScanRun
import Verif.Lemmas.SingleVars
import Verif.Lemmas.ScanPipeline
import Verif.Props.OutputFiles
import Verif.Props.Collect

/-!
Helper lemmas for `Verif.Props.ScanRun`: the output file.
-/

namespace Qsc.ScanRun

open Qsc.Netcdf Qsc.Spec.Netcdf Qsc.Output Qsc.Spec.Output Qsc.Toml
open Qsc.Single (assign assign_mem vector)
open Qsc.Scan (Cand Cfg Local Counter)
open Qsc.Spec.Collect (scalarOutputs fourierOutputs)
open Qsc.Spec.Single Qsc.Spec.ScanRun Qsc.Spec.ScanPipeline Qsc.Spec.Sections

/-! ## The arrays -/

theorem mapM_id_some {α : Type} (l : List α) : (l.map some).mapM id = some l := by
  induction l with
  | nil => rfl
  | cons a l ih => rw [List.map_cons, List.mapM_cons, ih]; rfl

theorem mapM_forall₂ {α β γ : Type} {f : α → Option γ} {G : β → γ} {P : α → β → Prop}
    (hP : ∀ a b, P a b → f a = some (G b)) {l : List α} {l' : List β} (h : List.Forall₂ P l l') :
    l.mapM f = some (l'.map G) := by
  induction h with
  | nil => rfl
  | cons h1 _ ih => rw [List.mapM_cons, ih, hP _ _ h1]; rfl

theorem columnMajor_eq {g : Collect.Gathered ℝ} {nm b : Nat} {kept : List (Cand ℝ)} {y : Cand ℝ → List ℝ}
    (hn : g.nScan = kept.length) (hl : ∀ c ∈ kept, (y c).length = nm)
    (h : ∀ k < nm, g.mode nm b k = kept.map fun c => (y c)[k]?) :
    columnMajor g nm b = (kept.flatMap y).map some := by
  unfold columnMajor
  rw [List.map_flatMap, hn]
  have h1 : ∀ j ∈ List.range kept.length, ((List.range nm).map fun k => (g.mode nm b k)[j]?.join) =
      (kept[j]?.elim [] fun c => (y c).map some) := by
    intro j hj
    have hj := List.mem_range.1 hj
    rw [List.getElem?_eq_getElem hj]
    apply List.ext_getElem?
    intro k
    have hlen := hl kept[j] (List.getElem_mem hj)
    by_cases hk : k < nm
    · rw [List.getElem?_map, List.getElem?_range hk, Option.map_some, h k hk, List.getElem?_map,
        List.getElem?_eq_getElem hj]
      simp only [Option.map_some, Option.join_some, Option.elim_some, List.getElem?_map]
      rw [List.getElem?_eq_getElem (by omega)]
      rfl
    · rw [List.getElem?_eq_none (by simpa using hk)]
      simp only [Option.elim_some]
      rw [List.getElem?_eq_none (by simp; omega)]
  rw [List.flatMap_congr h1]
  clear h h1 hl hn
  induction kept with
  | nil => rfl
  | cons c l ih =>
    rw [List.length_cons, List.range_succ_eq_map, List.flatMap_cons, List.flatMap_cons, List.flatMap_map]
    simp only [List.getElem?_cons_zero, Option.elim_some, List.getElem?_cons_succ]
    rw [ih]

/-- The arrays in the file. -/
def arraysOf (kept : List (Cand ℝ)) : List (String × Data ℝ) :=
  scalarOutputs.map (fun x => (x.1, .flts (kept.map x.2))) ++ [("scan_helicity", .ints (kept.map (·.helicity)))] ++
    fourierOutputs.map fun x => (x.1, .flts (kept.flatMap x.2))

theorem arrays_eq {g : Collect.Gathered ℝ} {nm : Nat} {kept : List (Cand ℝ)} (hn : g.nScan = kept.length)
    (h1 : ∀ x ∈ scalarOutputs, g.scalar x.1 = some (kept.map fun c => some (x.2 c)))
    (h2 : g.helicity = kept.map fun c => some c.helicity)
    (h3 : ∀ x ∈ fourierOutputs, ∀ k < nm, g.amplitude nm x.1 k = some (kept.map fun c => (x.2 c)[k]?))
    (h4 : ∀ c ∈ kept, c.R0c.length = nm ∧ c.R0s.length = nm ∧ c.Z0c.length = nm ∧ c.Z0s.length = nm) :
    arrays g nm = some (arraysOf kept) := by
  have rows : List.Forall₂ (fun (x : String × Nat) (y : String × (Cand ℝ → ℝ)) =>
      x.1 = y.1 ∧ g.row x.2 = (kept.map y.2).map some) Collect.unpackRows scalarOutputs := by
    have aux : ∀ (x : String × Nat) (y : String × (Cand ℝ → ℝ)), y ∈ scalarOutputs → x.1 = y.1 →
        Collect.unpackRows.lookup x.1 = some x.2 → x.1 = y.1 ∧ g.row x.2 = (kept.map y.2).map some := by
      intro x y hy hxy hk
      have := h1 _ hy
      unfold Collect.Gathered.scalar at this
      rw [← hxy, hk] at this
      rw [Option.map_some, Option.some.injEq] at this
      rw [this, List.map_map]
      exact ⟨hxy, rfl⟩
    have hlk : ∀ x ∈ Collect.unpackRows, Collect.unpackRows.lookup x.1 = some x.2 := by decide +kernel
    have hnames : Collect.unpackRows.map (·.1) = (scalarOutputs (F := ℝ)).map (·.1) := rfl
    have gen : ∀ (l : List (String × Nat)) (l' : List (String × (Cand ℝ → ℝ))), l ⊆ Collect.unpackRows →
        l' ⊆ scalarOutputs → l.map (·.1) = l'.map (·.1) → List.Forall₂ (fun (x : String × Nat)
          (y : String × (Cand ℝ → ℝ)) => x.1 = y.1 ∧ g.row x.2 = (kept.map y.2).map some) l l' := by
      intro l
      induction l with
      | nil => intro l' _ _ h; cases l' with
        | nil => exact .nil
        | cons => simp at h
      | cons x l ih =>
        intro l' ha hb h
        cases l' with
        | nil => simp at h
        | cons y l' =>
          rw [List.map_cons, List.map_cons, List.cons.injEq] at h
          exact .cons (aux _ _ (hb List.mem_cons_self) h.1 (hlk _ (ha List.mem_cons_self)))
            (ih _ (fun _ hx => ha (List.mem_cons_of_mem _ hx)) (fun _ hx => hb (List.mem_cons_of_mem _ hx)) h.2)
    exact gen _ _ (fun _ h => h) (fun _ h => h) hnames
  have blocks : List.Forall₂ (fun (x : String × Nat) (y : String × (Cand ℝ → List ℝ)) =>
      x.1 = y.1 ∧ columnMajor g nm x.2 = (kept.flatMap y.2).map some) Collect.unpackBlocks fourierOutputs := by
    have aux : ∀ (x : String × Nat) (y : String × (Cand ℝ → List ℝ)), y ∈ fourierOutputs → x.1 = y.1 →
        Collect.unpackBlocks.lookup x.1 = some x.2 → (∀ c ∈ kept, (y.2 c).length = nm) →
        x.1 = y.1 ∧ columnMajor g nm x.2 = (kept.flatMap y.2).map some := by
      intro x y hy hxy hb hl
      refine ⟨hxy, columnMajor_eq hn hl fun k hk => ?_⟩
      have := h3 _ hy k hk
      unfold Collect.Gathered.amplitude at this
      rw [← hxy, hb] at this
      rwa [Option.map_some, Option.some.injEq] at this
    unfold Collect.unpackBlocks fourierOutputs
    refine .cons (aux _ _ (by simp [fourierOutputs]) rfl (by decide +kernel) fun c hc => (h4 c hc).1)
      (.cons (aux _ _ (by simp [fourierOutputs]) rfl (by decide +kernel) fun c hc => (h4 c hc).2.1)
      (.cons (aux _ _ (by simp [fourierOutputs]) rfl (by decide +kernel) fun c hc => (h4 c hc).2.2.1)
      (.cons (aux _ _ (by simp [fourierOutputs]) rfl (by decide +kernel) fun c hc => (h4 c hc).2.2.2) .nil)))
  unfold arrays
  rw [mapM_forall₂ (G := fun y => (y.1, Data.flts (kept.map y.2))) (fun a b h => by
      rw [h.2, mapM_id_some, h.1]; rfl) rows,
    mapM_forall₂ (G := fun y => (y.1, Data.flts (kept.flatMap y.2))) (fun a b h => by
      rw [h.2, mapM_id_some, h.1]; rfl) blocks, h2,
    show (kept.map fun c => some c.helicity) = (kept.map (·.helicity)).map some by rw [List.map_map]; rfl,
    mapM_id_some]
  rfl

/-! ## The entries of the file -/

theorem scan_entries (toF : Nat → ℝ) {o : ScanObj ℝ} {n ax : Nat} (hn : o.mem "q.nphi" = .ints [(n : Int)])
    (hn0 : 0 < n) (hax : 0 < ax)
    (hm : ∀ p ∈ scanMembers, Fits o.mem (sizes [n, ax, o.bigs "n_scan"]) p.1 p.2) :
    ∃ f, writeScan toF o = .ok f ∧ (f.vars.map (·.name)).Nodup ∧
      [("nphi", n), ("axis_nmax_plus_1", ax), ("n_scan", o.bigs "n_scan")] <+: f.dims ∧
      ∀ c ∈ scanCalls o.r2 o.keepAll, ∀ e, entry toF (scanScope o) f.dims (c.toOp o.bigs) = some e → e ∈ contents f := by
  have hloc : ∀ p ∈ scanMembers, p.1 ∉ ["general_option", "at_least_order_r2_int", "n_scan_int", "keep_all_int",
      "deterministic_int"] := fun p hp => of_decide_eq_true (List.all_eq_true.mp scan_not_local p hp)
  obtain ⟨l, hl, hlen⟩ : ∃ l, o.mem "R0c_max" = .flts l ∧ l.length = ax := by
    obtain ⟨l, hl, h⟩ := hm ("R0c_max", .flts [1]) (has_mem scanAxis)
    exact ⟨l, hl, by simpa [sizes] using h⟩
  have hfit : ∀ p ∈ scanLocals ++ scanMembers, Fits (scanScope o) (sizes [n, ax, o.bigs "n_scan"]) p.1 p.2 := by
    rw [scanScope_eq]
    intro p hp
    rcases List.mem_append.mp hp with hp | hp
    · simp only [scanLocals, all, List.map_cons, List.map_nil, List.cons_append, List.nil_append, List.mem_cons,
        List.not_mem_nil, or_false] at hp
      rcases hp with rfl | rfl | rfl | rfl | rfl <;> simp [Fits, withLocals, bit, List.lookup_cons]
    · exact fits_withLocals (hloc p hp) (hm p hp)
  have hcf : ∀ c ∈ scanCalls o.r2 o.keepAll, c.fits (scanLocals ++ scanMembers) 3 2 = true := fun c hc =>
    List.all_eq_true.mp scanFits c ((scanCalls_sublist _ _).subset hc)
  have hD : Dims [("nphi", n), ("axis_nmax_plus_1", ax), ("n_scan", o.bigs "n_scan")] id 3 2 := by
    refine ⟨fun k hk => by simpa using hk, fun k hk => ?_⟩
    rcases k with _ | _ | k <;> simp [dimAt] <;> omega
  have a1 : ([("nphi", n), ("axis_nmax_plus_1", ax), ("n_scan", o.bigs "n_scan")].map (·.1)).Nodup := by
    change ["nphi", "axis_nmax_plus_1", "n_scan"].Nodup; decide
  have a2 : [("nphi", n), ("axis_nmax_plus_1", ax), ("n_scan", o.bigs "n_scan")].Pairwise
      fun a b => b.2 = 0 → a.2 ≠ 0 := by simp; omega
  have a3 : ∀ s ∈ [("nphi", n), ("axis_nmax_plus_1", ax), ("n_scan", o.bigs "n_scan")].map (·.1),
      s.toList.head? ≠ some 'd' := by
    change ∀ s ∈ ["nphi", "axis_nmax_plus_1", "n_scan"], s.toList.head? ≠ some 'd'; decide
  obtain ⟨f, h1, -, h3, -, -, h6, -⟩ := write_new (toF := toF) (eval := o.bigs)
    (m := scanScope o) (cs := scanCalls o.r2 o.keepAll) a1 a2 a3 (scanNames _ _) hD hfit hcf
  refine ⟨f, ?_, h6 ▸ scanNames _ _, h3, write_entries a1 a2 a3 (scanNames _ _) hD hfit hcf h1⟩
  unfold writeScan
  simp only [intMember, hn, vectorSize, hl, dimLength, hlen]
  rw [if_neg (by omega)]
  exact h1

section
variable {toF : Nat → ℝ} {m : Mem ℝ} {r2 keepAll : Bool} {val : String → Nat} {f : Netcdf.File ℝ} {n ax k : Nat}
  (he : ∀ c ∈ scanCalls r2 keepAll, ∀ e, entry toF m f.dims (c.toOp val) = some e → e ∈ contents f)
  (hp : [("nphi", n), ("axis_nmax_plus_1", ax), ("n_scan", k)] <+: f.dims)
include he

theorem scan_flt {a b : String} {x : ℝ} (hc : flt a b ∈ scanCalls r2 keepAll) (hm : m b = .flts [x]) : Scalar f a x :=
  ⟨_, he _ hc _ rfl, rfl, rfl, by simp [hm, Spec.Netcdf.first]⟩

theorem scan_int {a b : String} {x : Int} (hc : int a b ∈ scanCalls r2 keepAll) (hm : m b = .ints [x]) : Integer f a x :=
  ⟨_, he _ hc _ rfl, rfl, rfl, by simp [hm, Spec.Netcdf.first]⟩

theorem scan_big {a b : String} (hc : big a b ∈ scanCalls r2 keepAll) : Scalar f a (toF (val b)) :=
  ⟨_, he _ hc _ rfl, rfl, rfl, rfl⟩

theorem scan_str {a b s : String} (hc : str a b ∈ scanCalls r2 keepAll) (hm : m b = .chars s.toList) : Text f a s :=
  ⟨_, _, he _ hc _ rfl, rfl, rfl, by simp [hm]⟩

include hp

theorem scan_coefs {a : String} {l : List ℝ} (hc : vec 1 a a ∈ scanCalls r2 keepAll) (hm : m a = .flts l)
    (hl : l.length = ax) : Coefs f a l := by
  have h0 : dimAt f.dims 1 = ("axis_nmax_plus_1", ax) := dimAt_prefix hp (by simp)
  refine ⟨_, he _ hc _ rfl, rfl, by simp [h0, hl], ?_⟩
  simp only [h0, hm]
  exact congrArg some (Output.first_all (by simp [size, hl]))

theorem scan_vec {a : String} {l : List ℝ} (hc : vec 2 a a ∈ scanCalls r2 keepAll) (hm : m a = .flts l)
    (hl : l.length = k) : Holds f a [("n_scan", k)] (.flts l) := by
  have h0 : dimAt f.dims 2 = ("n_scan", k) := dimAt_prefix hp (by simp)
  refine ⟨_, he _ hc _ rfl, rfl, by simp [h0], ?_⟩
  simp only [h0, hm]
  exact congrArg some (Output.first_all (by simp [size, hl]))

theorem scan_intVec {a : String} {l : List Int} (hc : Call.op (.intVec 2 a a "" "") ∈ scanCalls r2 keepAll)
    (hm : m a = .ints l) (hl : l.length = k) : Holds f a [("n_scan", k)] (.ints l) := by
  have h0 : dimAt f.dims 2 = ("n_scan", k) := dimAt_prefix hp (by simp)
  refine ⟨_, he _ hc _ rfl, rfl, by simp [h0], ?_⟩
  simp only [h0, hm]
  exact congrArg some (Output.first_all (by simp [size, hl]))

theorem scan_nd {a : String} {l : List ℝ} (hc : Call.op (.nd [1, 2] a a "" "") ∈ scanCalls r2 keepAll)
    (hm : m a = .flts l) (hl : l.length = ax * k) :
    Holds f a [("n_scan", k), ("axis_nmax_plus_1", ax)] (.flts l) := by
  have h1 : dimAt f.dims 1 = ("axis_nmax_plus_1", ax) := dimAt_prefix hp (by simp)
  have h2 : dimAt f.dims 2 = ("n_scan", k) := dimAt_prefix hp (by simp)
  refine ⟨_, he _ hc _ rfl, rfl, by simp [h1, h2], ?_⟩
  simp only [List.map_cons, List.map_nil, h1, h2, hm]
  exact congrArg some (Output.first_all (by simp [size, hl]))

end

/-! ## The members -/

/-- The names of the members that `write` sets. -/
def memberNames : List String :=
  settingNames ++ ["q.nfp", "q.nphi", "q.sG", "q.spsi", "q.max_newton_iterations", "q.max_linesearch_iterations",
    "q.newton_tolerance", "q.I2", "q.B0", "q.p2", "q.order_r_option", "q.d_phi", "q.phi"] ++
  counterNames.map (fun x => "filter_fractions[" ++ x.1 ++ "]") ++
  (Collect.unpackRows.map (·.1) ++ ["scan_helicity"] ++ Collect.unpackBlocks.map (·.1))

theorem memberNames_nodup : memberNames.Nodup := by decide +kernel

noncomputable def memberList (r : Sections.ScanObj ℝ) (n : Nat) (junk : ℝ) (g : Collect.Gathered ℝ) (m : Members)
    (kept : List (Cand ℝ)) : List (String × Data ℝ) :=
  settingNames.map (fun a => (a, dataOf (r.mem a))) ++ qMembers r.q n m junk ++ fractions g ++ arraysOf kept

theorem memberList_names (r : Sections.ScanObj ℝ) (n : Nat) (junk : ℝ) (g : Collect.Gathered ℝ) (m : Members)
    (kept : List (Cand ℝ)) : (memberList r n junk g m kept).map (·.1) = memberNames := by
  simp only [memberList, memberNames, List.map_append, List.map_map, fractions, arraysOf]
  congr 1

def fltSettings : List String :=
  ["eta_bar_min", "eta_bar_max", "sigma0_min", "sigma0_max", "B2s_min", "B2s_max", "B2c_min", "B2c_max",
   "p2_min", "p2_max", "max_seconds", "save_period", "min_R0_to_keep", "min_iota_to_keep",
   "max_elongation_to_keep", "min_L_grad_B_to_keep", "min_L_grad_grad_B_to_keep",
   "max_B20_variation_to_keep", "min_r_singularity_to_keep", "max_d2_volume_d_psi2_to_keep",
   "min_DMerc_times_r2_to_keep", "min_beta_to_keep"]

theorem settings_all : (("helicity_to_keep" :: fltSettings) ++ ["eta_bar_scan_option", "sigma0_scan_option",
    "B2s_scan_option", "B2c_scan_option", "fourier_scan_option", "p2_scan_option"] ++
    ["R0c_min", "R0c_max", "R0s_min", "R0s_max", "Z0c_min", "Z0c_max", "Z0s_min", "Z0s_max"]).all
    (fun a => decide (a ∈ settingNames)) = true := by
  decide +kernel

theorem in_settings {a : String} (h : a = "helicity_to_keep" ∨ a ∈ fltSettings ∨
    a ∈ ["eta_bar_scan_option", "sigma0_scan_option", "B2s_scan_option", "B2c_scan_option", "fourier_scan_option",
      "p2_scan_option"] ∨
    a ∈ ["R0c_min", "R0c_max", "R0s_min", "R0s_max", "Z0c_min", "Z0c_max", "Z0s_min", "Z0s_max"]) : a ∈ settingNames := by
  refine of_decide_eq_true (List.all_eq_true.1 settings_all a ?_)
  rw [List.mem_append, List.mem_append, List.mem_cons]
  tauto

/-- The settings of the scan as members. -/
theorem setting_fits {r : Sections.ScanObj ℝ} {modes : Nat} (ht : Typed scanDoc r.mem) (hc : ModeCount r.mem modes)
    (h0 : 0 < modes) (hst : Startable r.mem r.q.order_r_option modes) :
    (∃ i, r.mem "helicity_to_keep" = some (.int i)) ∧
    (∀ a ∈ ["eta_bar_min", "eta_bar_max", "sigma0_min", "sigma0_max", "B2s_min", "B2s_max", "B2c_min", "B2c_max",
     "p2_min", "p2_max", "max_seconds", "save_period", "min_R0_to_keep", "min_iota_to_keep",
     "max_elongation_to_keep", "min_L_grad_B_to_keep", "min_L_grad_grad_B_to_keep",
     "max_B20_variation_to_keep", "min_r_singularity_to_keep", "max_d2_volume_d_psi2_to_keep",
     "min_DMerc_times_r2_to_keep", "min_beta_to_keep"], ∃ x, r.mem a = some (.flt x)) ∧
    (∀ a ∈ ["eta_bar_scan_option", "sigma0_scan_option", "B2s_scan_option", "B2c_scan_option",
     "fourier_scan_option", "p2_scan_option"], ∃ s, r.mem a = some (.str s) ∧ s ≠ "") ∧
    ∀ a ∈ ["R0c_min", "R0c_max", "R0s_min", "R0s_max", "Z0c_min", "Z0c_max", "Z0s_min", "Z0s_max"],
      ∃ l, r.mem a = some (.flts l) ∧ l.length = modes := by
  have acc : ∀ a b : ℝ, ¬ Spec.Random.Acceptable "" a b := by
    intro a b h
    rcases h with h | h | h
    · exact absurd h (by decide)
    · exact absurd h.1 (by decide)
    · exact absurd h.1 (by decide)
  have five : ∀ name ∈ ["eta_bar", "sigma0", "B2c", "B2s", "p2"], ∃ s, r.mem (name ++ "_scan_option") = some (.str s) ∧
      s ≠ "" := by
    intro name hn
    obtain ⟨s, a, b, h1, -, -, h4⟩ := hst.scalars name hn
    exact ⟨s, h1, fun h => acc a b (h ▸ h4)⟩
  refine ⟨ScanPipeline.scan_int ht (by simp), fun a ha => ScanPipeline.scan_flt ht ha, ?_, fun a ha =>
    ScanPipeline.scan_flts ht hc ?_⟩
  · intro a ha
    simp only [List.mem_cons, List.not_mem_nil, or_false] at ha
    rcases ha with rfl | rfl | rfl | rfl | rfl | rfl
    · exact five "eta_bar" (by simp)
    · exact five "sigma0" (by simp)
    · exact five "B2s" (by simp)
    · exact five "B2c" (by simp)
    · obtain ⟨s, la, lb, x, y, h1, -, -, -, -, h6⟩ := hst.modes "R0s" (by simp) 0 h0
      rw [if_neg (by rintro ⟨h, -⟩; exact absurd h (by decide))] at h6
      exact ⟨s, h1, fun h => acc x y (h ▸ h6)⟩
    · exact five "p2" (by simp)
  · revert ha
    revert a
    decide +kernel

section
variable {r : Sections.ScanObj ℝ} {n modes : Nat} {junk : ℝ} {g : Collect.Gathered ℝ} {m : Members}
  {kept : List (Cand ℝ)} {m0 : Mem ℝ}

theorem member (m0 : Mem ℝ) {a : String × Data ℝ} (h : a ∈ memberList r n junk g m kept) :
    assign m0 (memberList r n junk g m kept) a.1 = a.2 :=
  assign_mem m0 ((memberList_names r n junk g m kept) ▸ memberNames_nodup) h

theorem member_setting (m0 : Mem ℝ) {a : String} (h : a ∈ settingNames) :
    assign m0 (memberList r n junk g m kept) a = dataOf (r.mem a) :=
  member (a := (a, dataOf (r.mem a))) m0
    (List.mem_append_left _ (List.mem_append_left _ (List.mem_append_left _ (List.mem_map.2 ⟨a, h, rfl⟩))))

theorem member_q (m0 : Mem ℝ) {a : String × Data ℝ} (h : a ∈ qMembers r.q n m junk) :
    assign m0 (memberList r n junk g m kept) a.1 = a.2 :=
  member m0 (List.mem_append_left _ (List.mem_append_left _ (List.mem_append_right _ h)))

theorem member_fraction (m0 : Mem ℝ) {x : String × Counter} (h : x ∈ counterNames) :
    assign m0 (memberList r n junk g m kept) ("filter_fractions[" ++ x.1 ++ "]") =
      .flts [(counter g x.2 : ℝ) / (counter g .attempts : ℝ)] :=
  member (a := ("filter_fractions[" ++ x.1 ++ "]", .flts [(counter g x.2 : ℝ) / (counter g .attempts : ℝ)])) m0
    (List.mem_append_left _ (List.mem_append_right _ (List.mem_map.2 ⟨x, h, rfl⟩)))

theorem member_array (m0 : Mem ℝ) {a : String × Data ℝ} (h : a ∈ arraysOf kept) :
    assign m0 (memberList r n junk g m kept) a.1 = a.2 := member m0 (List.mem_append_right _ h)

theorem member_scalar (m0 : Mem ℝ) {x : String × (Cand ℝ → ℝ)} (h : x ∈ scalarOutputs) :
    assign m0 (memberList r n junk g m kept) x.1 = .flts (kept.map x.2) :=
  member_array (a := (x.1, .flts (kept.map x.2))) m0
    (List.mem_append_left _ (List.mem_append_left _ (List.mem_map.2 ⟨x, h, rfl⟩)))

theorem member_helicity (m0 : Mem ℝ) :
    assign m0 (memberList r n junk g m kept) "scan_helicity" = .ints (kept.map (·.helicity)) :=
  member_array (a := ("scan_helicity", .ints (kept.map (·.helicity)))) m0
    (List.mem_append_left _ (List.mem_append_right _ (by simp)))

theorem member_fourier (m0 : Mem ℝ) {x : String × (Cand ℝ → List ℝ)} (h : x ∈ fourierOutputs) :
    assign m0 (memberList r n junk g m kept) x.1 = .flts (kept.flatMap x.2) :=
  member_array (a := (x.1, .flts (kept.flatMap x.2))) m0
    (List.mem_append_right _ (List.mem_map.2 ⟨x, h, rfl⟩))

theorem fourier_length {x : Cand ℝ → List ℝ} (h : ∀ c ∈ kept, (x c).length = modes) :
    (kept.flatMap x).length = modes * kept.length := by
  rw [List.length_flatMap, List.map_congr_left h]
  simp [Nat.mul_comm]

theorem member_fits (m0 : Mem ℝ) (ht : Typed scanDoc r.mem) (hc : ModeCount r.mem modes) (h0 : 0 < modes)
    (hst : Startable r.mem r.q.order_r_option modes)
    (h4 : ∀ c ∈ kept, c.R0c.length = modes ∧ c.R0s.length = modes ∧ c.Z0c.length = modes ∧ c.Z0s.length = modes) :
    ∀ p ∈ scanMembers, Fits (assign m0 (memberList r n junk g m kept)) (sizes [n, modes, kept.length]) p.1 p.2 := by
  obtain ⟨s1, s2, s3, s4⟩ := setting_fits ht hc h0 hst
  intro p hp
  unfold scanMembers at hp
  simp only [List.mem_append, or_assoc] at hp
  have q : ∀ a ∈ qMembers r.q n m junk, assign m0 (memberList r n junk g m kept) a.1 = a.2 := fun a h => member_q m0 h
  rcases hp with hp | hp | hp | hp | hp | hp | hp | hp | hp
  all_goals
    obtain ⟨a, ha, rfl⟩ := List.mem_map.1 hp
    clear hp
    dsimp only
  · simp only [List.mem_cons, List.not_mem_nil, or_false] at ha
    rcases ha with rfl | rfl | rfl | rfl | rfl | rfl | rfl
    · exact ⟨_, q ("q.nfp", .ints [r.q.nfp]) (by simp [qMembers])⟩
    · exact ⟨_, q ("q.nphi", .ints [(n : Int)]) (by simp [qMembers])⟩
    · exact ⟨_, q ("q.sG", .ints [r.q.sG]) (by simp [qMembers])⟩
    · exact ⟨_, q ("q.spsi", .ints [r.q.spsi]) (by simp [qMembers])⟩
    · exact ⟨_, q ("q.max_newton_iterations", .ints [r.q.max_newton_iterations]) (by simp [qMembers])⟩
    · exact ⟨_, q ("q.max_linesearch_iterations", .ints [r.q.max_linesearch_iterations]) (by simp [qMembers])⟩
    obtain ⟨i, hi⟩ := s1
    exact ⟨i, by rw [member_setting m0 (by decide +kernel), hi]; rfl⟩
  · have hor : a ∈ ["eta_bar_min", "eta_bar_max", "sigma0_min", "sigma0_max", "B2s_min", "B2s_max", "B2c_min",
       "B2c_max", "p2_min", "p2_max", "max_seconds", "save_period", "min_R0_to_keep", "min_iota_to_keep",
       "max_elongation_to_keep", "min_L_grad_B_to_keep", "min_L_grad_grad_B_to_keep",
       "max_B20_variation_to_keep", "min_r_singularity_to_keep", "max_d2_volume_d_psi2_to_keep",
       "min_DMerc_times_r2_to_keep", "min_beta_to_keep"] ∨
       a ∈ ["q.newton_tolerance", "q.I2", "q.d_phi", "q.B0", "q.p2"] := by
      clear q
      revert a
      decide +kernel
    rcases hor with h | h
    · obtain ⟨x, hx⟩ := s2 a h
      have : a ∈ settingNames := by
        clear hx q ha
        revert a
        decide +kernel
      exact ⟨x, by rw [member_setting m0 this, hx]; rfl⟩
    · simp only [List.mem_cons, List.not_mem_nil, or_false] at h
      rcases h with rfl | rfl | rfl | rfl | rfl
      · exact ⟨_, q ("q.newton_tolerance", .flts [r.q.newton_tolerance]) (by simp [qMembers])⟩
      · exact ⟨_, q ("q.I2", .flts [r.q.I2]) (by simp [qMembers])⟩
      · exact ⟨_, q ("q.d_phi", .flts [m.axis.elim junk fun a => a.dPhi]) (by simp [qMembers])⟩
      · exact ⟨_, q ("q.B0", .flts [r.q.B0]) (by simp [qMembers])⟩
      · exact ⟨_, q ("q.p2", .flts [m.cand.p2]) (by simp [qMembers])⟩
  · have : a ∈ counterNames.map fun x => "filter_fractions[" ++ x.1 ++ "]" := by
      clear q
      revert a
      decide +kernel
    obtain ⟨x, hx, rfl⟩ := List.mem_map.1 this
    exact ⟨_, member_fraction m0 hx⟩
  · have hor : a ∈ ["eta_bar_scan_option", "sigma0_scan_option", "B2s_scan_option", "B2c_scan_option",
       "fourier_scan_option", "p2_scan_option"] ∨ a = "q.order_r_option" := by
      clear q
      revert a
      decide +kernel
    rcases hor with h | rfl
    · obtain ⟨x, hx, hne⟩ := s3 a h
      have : a ∈ settingNames := by
        clear hx q ha
        revert a
        decide +kernel
      refine ⟨x.toList, by rw [member_setting m0 this, hx]; rfl, ?_⟩
      simpa using hne
    · refine ⟨_, q ("q.order_r_option", .chars r.q.order_r_option.toList) (by simp [qMembers]), ?_⟩
      rcases hst.order with h | h | h <;> rw [h] <;> decide
  · simp only [List.mem_cons, List.not_mem_nil, or_false] at ha
    subst ha
    exact ⟨_, q ("q.phi", .flts (vector n (m.axis.elim (fun _ => 0) fun a => a.phi))) (by simp [qMembers]), by simp [vector, sizes]⟩
  · obtain ⟨l, hl, hlen⟩ := s4 a ha
    have : a ∈ settingNames := by
      clear hl q
      revert a
      decide +kernel
    exact ⟨l, by rw [member_setting m0 this, hl]; rfl, by simp [sizes, hlen]⟩
  · have : a ∈ (scalarOutputs (F := ℝ)).map (·.1) := by
      have : (scalarOutputs (F := ℝ)).map (·.1) = Collect.unpackRows.map (·.1) := rfl
      rw [this]
      clear q this
      revert a
      decide +kernel
    obtain ⟨x, hx, rfl⟩ := List.mem_map.1 this
    exact ⟨_, member_scalar m0 hx, by simp [sizes]⟩
  · simp only [List.mem_cons, List.not_mem_nil, or_false] at ha
    subst ha
    exact ⟨_, member_helicity m0, by simp [sizes]⟩
  · simp only [List.mem_cons, List.not_mem_nil, or_false] at ha
    rcases ha with rfl | rfl | rfl | rfl
    · exact ⟨_, member_fourier m0 (x := ("scan_R0c", fun c => c.R0c)) (by simp [fourierOutputs]), by
        rw [fourier_length fun c hc => (h4 c hc).1]; simp [sizes]⟩
    · exact ⟨_, member_fourier m0 (x := ("scan_R0s", fun c => c.R0s)) (by simp [fourierOutputs]), by
        rw [fourier_length fun c hc => (h4 c hc).2.1]; simp [sizes]⟩
    · exact ⟨_, member_fourier m0 (x := ("scan_Z0c", fun c => c.Z0c)) (by simp [fourierOutputs]), by
        rw [fourier_length fun c hc => (h4 c hc).2.2.1]; simp [sizes]⟩
    · exact ⟨_, member_fourier m0 (x := ("scan_Z0s", fun c => c.Z0s)) (by simp [fourierOutputs]), by
        rw [fourier_length fun c hc => (h4 c hc).2.2.2]; simp [sizes]⟩

/-! ## Which calls are made -/

theorem scan_calls_first : ∀ r2 k : Bool, (["scan_eta_bar", "scan_sigma0", "scan_axis_length", "scan_iota", "scan_min_R0",
      "scan_max_curvature", "scan_max_elongation", "scan_min_L_grad_B", "scan_standard_deviation_of_R",
      "scan_standard_deviation_of_Z"].all (fun a => decide (vec 2 a a ∈ scanCalls r2 k)) &&
    decide (Call.op (.intVec 2 "scan_helicity" "scan_helicity" "" "") ∈ scanCalls r2 k) &&
    ["scan_R0c", "scan_R0s", "scan_Z0c", "scan_Z0s"].all
      (fun a => decide (Call.op (.nd [1, 2] a a "" "") ∈ scanCalls r2 k)) &&
    [("nfp", "q.nfp"), ("nphi", "q.nphi"), ("sG", "q.sG"), ("spsi", "q.spsi"),
      ("max_newton_iterations", "q.max_newton_iterations"),
      ("max_linesearch_iterations", "q.max_linesearch_iterations"), ("n_scan", "n_scan_int"),
      ("keep_all", "keep_all_int"), ("deterministic", "deterministic_int"),
      ("at_least_order_r2", "at_least_order_r2_int")].all (fun a => decide (int a.1 a.2 ∈ scanCalls r2 k)) &&
    [("newton_tolerance", "q.newton_tolerance"), ("I2", "q.I2"), ("B0", "q.B0")].all
      (fun a => decide (flt a.1 a.2 ∈ scanCalls r2 k)) &&
    ["eta_bar_scan_option", "sigma0_scan_option", "fourier_scan_option", "general_option"].all
      (fun a => decide (str a a ∈ scanCalls r2 k)) &&
    decide (str "order_r_option" "q.order_r_option" ∈ scanCalls r2 k) &&
    ["eta_bar_min", "eta_bar_max", "sigma0_min", "sigma0_max"].all (fun a => decide (flt a a ∈ scanCalls r2 k)) &&
    ["R0c_min", "R0c_max", "R0s_min", "R0s_max", "Z0c_min", "Z0c_max", "Z0s_min", "Z0s_max"].all
      (fun a => decide (vec 1 a a ∈ scanCalls r2 k))) = true := by
  decide +kernel

theorem scan_calls_second : ∀ k : Bool, (["scan_B2c", "scan_B2s", "scan_p2", "scan_min_L_grad_grad_B",
      "scan_B20_variation", "scan_B20_residual", "scan_r_singularity", "scan_d2_volume_d_psi2", "scan_DMerc_times_r2",
      "scan_beta"].all (fun a => decide (vec 2 a a ∈ scanCalls true k)) &&
    ["B2c_scan_option", "B2s_scan_option", "p2_scan_option"].all (fun a => decide (str a a ∈ scanCalls true k)) &&
    ["B2c_min", "B2c_max", "B2s_min", "B2s_max", "p2_min", "p2_max"].all
      (fun a => decide (flt a a ∈ scanCalls true k)) && decide (flt "p2" "q.p2" ∈ scanCalls true k)) = true := by
  decide +kernel

theorem scan_calls_thresholds : ∀ r2 : Bool, (decide (int "helicity_to_keep" "helicity_to_keep" ∈ scanCalls r2 false) &&
    (["min_R0_to_keep", "min_iota_to_keep", "max_elongation_to_keep", "min_L_grad_B_to_keep"] ++
      if r2 then ["min_L_grad_grad_B_to_keep", "max_B20_variation_to_keep",
        "min_r_singularity_to_keep", "max_d2_volume_d_psi2_to_keep", "min_DMerc_times_r2_to_keep"] else []).all
      (fun a => decide (flt a a ∈ scanCalls r2 false))) = true := by
  decide +kernel

/-- The counters in the file with the names they have in the code. -/
def filed : List (String × Counter × String × Option String) :=
  [("rejected_due_to_R0_crude", .r0Crude, "REJECTED_DUE_TO_R0_CRUDE", some "fraction_rejected_due_to_R0_crude"),
   ("rejected_due_to_R0", .r0, "REJECTED_DUE_TO_R0", some "fraction_rejected_due_to_R0"),
   ("rejected_due_to_helicity", .helicity, "REJECTED_DUE_TO_HELICITY", none),
   ("rejected_due_to_curvature", .curvature, "REJECTED_DUE_TO_CURVATURE", some "fraction_rejected_due_to_curvature"),
   ("rejected_due_to_iota", .iota, "REJECTED_DUE_TO_IOTA", some "fraction_rejected_due_to_iota"),
   ("rejected_due_to_elongation", .elongation, "REJECTED_DUE_TO_ELONGATION",
     some "fraction_rejected_due_to_elongation"),
   ("rejected_due_to_L_grad_B", .lGradB, "REJECTED_DUE_TO_L_GRAD_B", some "fraction_rejected_due_to_L_grad_B"),
   ("rejected_due_to_B20_variation", .b20Variation, "REJECTED_DUE_TO_B20_VARIATION",
     some "fraction_rejected_due_to_B20_variation"),
   ("rejected_due_to_L_grad_grad_B", .lGradGradB, "REJECTED_DUE_TO_L_GRAD_GRAD_B",
     some "fraction_rejected_due_to_L_grad_grad_B"),
   ("rejected_due_to_d2_volume_d_psi2", .d2Volume, "REJECTED_DUE_TO_D2_VOLUME_D_PSI2",
     some "fraction_rejected_due_to_d2_volume_d_psi2"),
   ("rejected_due_to_DMerc", .dMerc, "REJECTED_DUE_TO_DMERC", some "fraction_rejected_due_to_DMerc"),
   ("rejected_due_to_r_singularity", .rSingularity, "REJECTED_DUE_TO_R_SINGULARITY",
     some "fraction_rejected_due_to_r_singularity"),
   ("rejected_due_to_beta", .beta, "REJECTED_DUE_TO_BETA", none),
   ("attempts", .attempts, "ATTEMPTS", none), ("n_sigma_eq_solves", .nSigma, "N_SIGMA_EQ_SOLVES", none),
   ("n_r2_solves", .nR2, "N_R2_SOLVES", none)]

theorem scan_calls_grid : ∀ r2 k : Bool, (decide (flt "d_phi" "q.d_phi" ∈ scanCalls r2 k) &&
    decide (vec 0 "phi" "q.phi" ∈ scanCalls r2 k)) = true := by
  decide +kernel

theorem scan_calls_counters : ∀ r2 k : Bool, (filed.all (fun x =>
      decide (big x.1 ("filters[" ++ x.2.2.1 ++ "]") ∈ scanCalls r2 k) && decide ((x.2.2.1, x.2.1) ∈ counterNames) &&
      x.2.2.2.all fun b => decide (flt b ("filter_fractions[" ++ x.2.2.1 ++ "]") ∈ scanCalls r2 k)) &&
    decide (flt "fraction_kept" "filter_fractions[KEPT]" ∈ scanCalls r2 k)) = true := by
  decide +kernel

theorem counter_lookup : ∀ x ∈ counterNames, "filters[" ++ x.1 ++ "]" ≠ "n_scan" ∧
    (counterNames.map fun x => ("filters[" ++ x.1 ++ "]", x.2)).lookup ("filters[" ++ x.1 ++ "]") = some x.2 := by
  decide +kernel

theorem bigs_counter {x : String × Counter} (h : x ∈ counterNames) :
    bigs g ("filters[" ++ x.1 ++ "]") = counter g x.2 := by
  unfold bigs
  rw [if_neg (counter_lookup x h).1, (counter_lookup x h).2]

/-- What the file of a scan says. -/
structure Written (toF : Nat → ℝ) (r : Sections.ScanObj ℝ) (n : Nat) (g : Collect.Gathered ℝ) (m : Members)
    (kept : List (Cand ℝ)) (f : Netcdf.File ℝ) : Prop where
  names : (f.vars.map (·.name)).Nodup
  settings : Settings f r.mem r.q n
  records : ∀ k c, kept[k]? = some c → Records f kept.length r.q.order_r_option k c
  n_scan : Integer f "n_scan" kept.length
  counters : ∀ x ∈ filed, Scalar f x.1 (toF (counter g x.2.1)) ∧
    ∀ b, x.2.2.2 = some b → Scalar f b ((counter g x.2.1 : ℝ) / (counter g .attempts : ℝ))
  fraction : Scalar f "fraction_kept" ((counter g .kept : ℝ) / (counter g .attempts : ℝ))
  p2 : r.q.order_r_option ≠ "r1" → Scalar f "p2" m.cand.p2
  grid : ∀ a, m.axis = some a → Scalar f "d_phi" a.dPhi ∧ Profile f "phi" n a.phi

theorem sub_ite {P : Prop} [Decidable P] {A B L : List String} (h : ∀ a ∈ A ++ B, a ∈ L) {a : String}
    (ha : a ∈ A ++ if P then [] else B) : a ∈ L := by
  refine h a ?_
  rcases List.mem_append.1 ha with h | h
  · exact List.mem_append_left _ h
  · split at h
    · cases h
    · exact List.mem_append_right _ h

set_option maxHeartbeats 800000 in
theorem write_file (toF : Nat → ℝ) (m0 : Mem ℝ) (junk : ℝ) (ht : Typed scanDoc r.mem) (hc : ModeCount r.mem modes)
    (h0 : 0 < modes) (hst : Startable r.mem r.q.order_r_option modes) (hn : 0 < n) {ord : Setup.Order}
    (hv : Setup.validate r.q.order_r_option = .ok ord) (ha : arrays g modes = some (arraysOf kept))
    (hk : g.nScan = kept.length)
    (h4 : ∀ c ∈ kept, c.R0c.length = modes ∧ c.R0s.length = modes ∧ c.Z0c.length = modes ∧ c.Z0s.length = modes) :
    ∃ f, write toF r n ord m0 junk g m = .ok f ∧ Written toF r n g m kept f := by
  obtain ⟨keepAll, hka⟩ := ScanPipeline.scan_bool ht (k := "keep_all") (by simp)
  obtain ⟨det, hdet⟩ := ScanPipeline.scan_bool ht (k := "deterministic") (by simp)
  obtain ⟨s1, s2, s3, s4⟩ := setting_fits ht hc h0 hst
  obtain ⟨l, hl, hlen⟩ := s4 "R0c_max" (by simp)
  have hr2 : ord.atLeastR2 = true ↔ r.q.order_r_option ≠ "r1" := ((Setup.validate_spec _).1 ord hv).2.1
  obtain ⟨o, ho⟩ : ∃ o : Output.ScanObj ℝ,
      o = ⟨ord.atLeastR2, keepAll, det, bigs g, assign m0 (memberList r n junk g m kept)⟩ := ⟨_, rfl⟩
  have omem : o.mem = assign m0 (memberList r n junk g m kept) := by rw [ho]
  have obig : o.bigs = bigs g := by rw [ho]
  have or2 : o.r2 = ord.atLeastR2 := by rw [ho]
  have oall : o.keepAll = keepAll := by rw [ho]
  have odet : o.deterministic = det := by rw [ho]
  have hb : o.bigs "n_scan" = kept.length := by
    rw [← hk, obig]; rfl
  have hnphi : o.mem "q.nphi" = .ints [(n : Int)] := by
    rw [omem]; exact member_q m0 (a := ("q.nphi", .ints [(n : Int)])) (by simp [qMembers])
  have hfit : ∀ p ∈ scanMembers, Fits o.mem (sizes [n, modes, o.bigs "n_scan"]) p.1 p.2 := by
    rw [hb, omem]; exact member_fits m0 ht hc h0 hst h4
  obtain ⟨f, hf, hnames, hdims, hent⟩ := scan_entries toF hnphi hn h0 hfit
  rw [or2, oall] at hent
  rw [hb] at hdims
  have hw : write toF r n ord m0 junk g m = .ok f := by
    unfold write
    simp only [Pipeline.getBool, ScanPipeline.getFlts, hka, hdet, hl, hlen, ha]
    rw [ho] at hf
    unfold memberList at hf
    rw [hf]
  refine ⟨f, hw, ?_⟩
  have loc : ∀ a, a ∈ memberNames → scanScope o a = o.mem a := by
    intro a h
    rw [scanScope_eq]
    refine withLocals_of_not_mem ?_
    clear hw hf hent hnames hdims
    revert h
    revert a
    change ∀ a ∈ memberNames, a ∉ ["general_option", "at_least_order_r2_int", "n_scan_int", "keep_all_int",
      "deterministic_int"]
    decide +kernel
  have hset : ∀ a, a ∈ settingNames → scanScope o a = dataOf (r.mem a) := fun a h =>
    (loc a (List.mem_append_left _ (List.mem_append_left _ (List.mem_append_left _ h)))).trans
      (omem ▸ member_setting m0 h)
  have hq : ∀ a ∈ qMembers r.q n m junk, scanScope o a.1 = a.2 := fun a h =>
    (loc a.1 (List.mem_append_left _ (List.mem_append_left _ (List.mem_append_right _ (by
      have : (qMembers r.q n m junk).map (·.1) = ["q.nfp", "q.nphi", "q.sG", "q.spsi", "q.max_newton_iterations",
        "q.max_linesearch_iterations", "q.newton_tolerance", "q.I2", "q.B0", "q.p2", "q.order_r_option", "q.d_phi",
        "q.phi"] := rfl
      rw [← this]
      exact List.mem_map_of_mem h))))).trans (omem ▸ member_q m0 h)
  have hfr : ∀ x ∈ counterNames, scanScope o ("filter_fractions[" ++ x.1 ++ "]") =
      .flts [(counter g x.2 : ℝ) / (counter g .attempts : ℝ)] := fun x h =>
    (loc _ (List.mem_append_left _ (List.mem_append_right _ (List.mem_map.2 ⟨x, h, rfl⟩)))).trans
      (omem ▸ member_fraction m0 h)
  have hsc : ∀ x ∈ scalarOutputs, scanScope o x.1 = .flts (kept.map x.2) := fun x h =>
    (loc _ (List.mem_append_right _ (List.mem_append_left _ (List.mem_append_left _ (by
      have : Collect.unpackRows.map (·.1) = (scalarOutputs (F := ℝ)).map (·.1) := rfl
      rw [this]
      exact List.mem_map_of_mem h))))).trans (omem ▸ member_scalar m0 h)
  have hhel : scanScope o "scan_helicity" = .ints (kept.map (·.helicity)) :=
    (loc "scan_helicity" (List.mem_append_right _ (List.mem_append_left _ (List.mem_append_right _ (by simp))))).trans
      (omem ▸ member_helicity m0)
  have hfo : ∀ x ∈ fourierOutputs, scanScope o x.1 = .flts (kept.flatMap x.2) := fun x h =>
    (loc _ (List.mem_append_right _ (List.mem_append_right _ (by
      have : Collect.unpackBlocks.map (·.1) = (fourierOutputs (F := ℝ)).map (·.1) := rfl
      rw [this]
      exact List.mem_map_of_mem h)))).trans (omem ▸ member_fourier m0 h)
  have c1 := scan_calls_first ord.atLeastR2 keepAll
  simp only [Bool.and_eq_true, List.all_eq_true, decide_eq_true_eq] at c1
  obtain ⟨⟨⟨⟨⟨⟨⟨⟨c1a, c1b⟩, c1c⟩, c1d⟩, c1e⟩, c1f⟩, c1g⟩, c1h⟩, c1i⟩ := c1
  have c2 : ord.atLeastR2 = true → _ := fun _ => scan_calls_second keepAll
  simp only [Bool.and_eq_true, List.all_eq_true, decide_eq_true_eq] at c2
  have up : ∀ {c : Call}, ord.atLeastR2 = true → c ∈ scanCalls true keepAll → c ∈ scanCalls ord.atLeastR2 keepAll :=
    fun h hp => h ▸ hp
  have col : ∀ x ∈ scalarOutputs, vec 2 x.1 x.1 ∈ scanCalls ord.atLeastR2 keepAll → ∀ k c, kept[k]? = some c →
      Column f kept.length x.1 k (x.2 c) := fun x hx hcall k c h =>
    ⟨kept.map x.2, scan_vec hent hdims hcall (hsc x hx) (by simp), by simp, by simp [h]⟩
  have four : ∀ x ∈ fourierOutputs, Call.op (.nd [1, 2] x.1 x.1 "" "") ∈ scanCalls ord.atLeastR2 keepAll →
      (∀ c ∈ kept, (x.2 c).length = modes) → ∀ k c, kept[k]? = some c → AxisColumn f kept.length x.1 k (x.2 c) := by
    intro x hx hcall hlen k c h
    have hcm := List.mem_of_getElem? h
    have hlc := hlen c hcm
    refine ⟨kept.flatMap x.2, ?_, ?_, ?_⟩
    · rw [hlc]; exact scan_nd hent hdims hcall (hfo x hx) (fourier_length hlen)
    · rw [hlc, fourier_length hlen, Nat.mul_comm]
    · intro j hj
      have := Collect.flatMap_getElem? x.2 modes kept hlen k j (hlc ▸ hj)
      rw [hlc, Nat.add_comm, Nat.mul_comm, this, h]
      rfl
  refine ⟨hnames, ?_, ?_, ?_, ?_, ?_, ?_, ?_⟩
  · constructor
    · refine scan_str hent (c1f "general_option" (by simp)) ?_
      rw [scanScope_eq]
      rfl
    · exact scan_str hent c1g (hq ("q.order_r_option", .chars r.q.order_r_option.toList) (by simp [qMembers]))
    · refine scan_int hent (c1d ("at_least_order_r2", "at_least_order_r2_int") (by simp)) ?_
      rw [scanScope_eq]
      change bit o.r2 = _
      rw [or2]
      unfold bit
      by_cases h : r.q.order_r_option = "r1"
      · rw [if_pos h, if_neg (by rw [hr2]; simp [h])]
      · rw [if_neg h, if_pos (hr2.2 h)]
    · intro a ha
      simp only [List.mem_cons, List.not_mem_nil, or_false] at ha
      rcases ha with rfl | rfl | rfl | rfl | rfl | rfl
      · exact scan_int hent (c1d ("nfp", "q.nfp") (by simp)) (hq ("q.nfp", .ints [r.q.nfp]) (by simp [qMembers]))
      · exact scan_int hent (c1d ("nphi", "q.nphi") (by simp)) (hq ("q.nphi", .ints [(n : Int)]) (by simp [qMembers]))
      · exact scan_int hent (c1d ("sG", "q.sG") (by simp)) (hq ("q.sG", .ints [r.q.sG]) (by simp [qMembers]))
      · exact scan_int hent (c1d ("spsi", "q.spsi") (by simp)) (hq ("q.spsi", .ints [r.q.spsi]) (by simp [qMembers]))
      · exact scan_int hent (c1d ("max_newton_iterations", "q.max_newton_iterations") (by simp))
          (hq ("q.max_newton_iterations", .ints [r.q.max_newton_iterations]) (by simp [qMembers]))
      · exact scan_int hent (c1d ("max_linesearch_iterations", "q.max_linesearch_iterations") (by simp))
          (hq ("q.max_linesearch_iterations", .ints [r.q.max_linesearch_iterations]) (by simp [qMembers]))
    · intro a ha
      simp only [List.mem_cons, List.not_mem_nil, or_false] at ha
      rcases ha with rfl | rfl | rfl
      · exact scan_flt hent (c1e ("newton_tolerance", "q.newton_tolerance") (by simp))
          (hq ("q.newton_tolerance", .flts [r.q.newton_tolerance]) (by simp [qMembers]))
      · exact scan_flt hent (c1e ("I2", "q.I2") (by simp)) (hq ("q.I2", .flts [r.q.I2]) (by simp [qMembers]))
      · exact scan_flt hent (c1e ("B0", "q.B0") (by simp)) (hq ("q.B0", .flts [r.q.B0]) (by simp [qMembers]))
    · intro a ha
      have hcall : str a a ∈ scanCalls ord.atLeastR2 keepAll := by
        rcases List.mem_append.1 ha with h | h
        · exact c1f a (List.mem_append_left ["general_option"] h)
        · split at h
          · cases h
          · rename_i hne
            have := hr2.2 hne
            exact up this ((c2 this).1.1.2 a h)
      have hin : a ∈ ["eta_bar_scan_option", "sigma0_scan_option", "B2s_scan_option", "B2c_scan_option",
          "fourier_scan_option", "p2_scan_option"] := sub_ite (by decide +kernel) ha
      obtain ⟨x, hx, -⟩ := s3 a hin
      have hs : a ∈ settingNames := in_settings (Or.inr (Or.inr (Or.inl hin)))
      exact ⟨x, hx, scan_str hent hcall (by rw [hset a hs, hx]; rfl)⟩
    · intro a ha
      have hcall : flt a a ∈ scanCalls ord.atLeastR2 keepAll := by
        rcases List.mem_append.1 ha with h | h
        · exact c1h a h
        · split at h
          · cases h
          · rename_i hne
            have := hr2.2 hne
            exact up this ((c2 this).1.2 a h)
      have hin : a ∈ fltSettings := sub_ite (by decide +kernel) ha
      obtain ⟨x, hx⟩ := s2 a hin
      have hs : a ∈ settingNames := in_settings (Or.inr (Or.inl hin))
      exact ⟨x, hx, scan_flt hent hcall (by rw [hset a hs, hx]; rfl)⟩
    · intro a ha
      obtain ⟨x, hx, hxl⟩ := s4 a ha
      have hs : a ∈ settingNames := in_settings (Or.inr (Or.inr (Or.inr ha)))
      exact ⟨x, hx, scan_coefs hent hdims (c1i a ha) (by rw [hset a hs, hx]; rfl) hxl⟩
    · refine ⟨keepAll, hka, scan_int hent (c1d ("keep_all", "keep_all_int") (by simp)) ?_⟩
      rw [scanScope_eq, ← oall]
      rfl
    · refine ⟨det, hdet, scan_int hent (c1d ("deterministic", "deterministic_int") (by simp)) ?_⟩
      rw [scanScope_eq, ← odet]
      rfl
    · intro hfalse
      rw [hka] at hfalse
      have hk' : keepAll = false := by simpa using hfalse
      subst hk'
      have c3 := scan_calls_thresholds ord.atLeastR2
      simp only [Bool.and_eq_true, List.all_eq_true, decide_eq_true_eq] at c3
      refine ⟨?_, fun a ha => ?_⟩
      · obtain ⟨i, hi⟩ := s1
        exact ⟨i, hi, scan_int hent c3.1 (by rw [hset _ (in_settings (Or.inl rfl)), hi]; rfl)⟩
      · have hcall := c3.2 a (by
          rcases List.mem_append.1 ha with h | h
          · exact List.mem_append_left _ h
          · split at h
            · cases h
            · rename_i hne
              refine List.mem_append_right _ ?_
              rw [if_pos (hr2.2 hne)]
              exact h)
        have hin : a ∈ fltSettings := sub_ite (by decide +kernel) ha
        obtain ⟨x, hx⟩ := s2 a hin
        have hs : a ∈ settingNames := in_settings (Or.inr (Or.inl hin))
        exact ⟨x, hx, scan_flt hent hcall (by rw [hset a hs, hx]; rfl)⟩
  · intro k c h
    refine ⟨fun a ha => ?_, ?_, fun a ha => ?_, fun hne a ha => ?_⟩
    · simp only [List.mem_cons, List.not_mem_nil, or_false] at ha
      rcases ha with rfl | rfl | rfl | rfl | rfl | rfl | rfl | rfl | rfl | rfl
      · exact col ("scan_eta_bar", fun c => c.etaBar) (by simp [scalarOutputs]) (c1a _ (by simp)) k c h
      · exact col ("scan_sigma0", fun c => c.sigma0) (by simp [scalarOutputs]) (c1a _ (by simp)) k c h
      · exact col ("scan_axis_length", fun c => c.axisLength) (by simp [scalarOutputs]) (c1a _ (by simp)) k c h
      · exact col ("scan_iota", fun c => c.iota) (by simp [scalarOutputs]) (c1a _ (by simp)) k c h
      · exact col ("scan_min_R0", fun c => c.gridMinR0) (by simp [scalarOutputs]) (c1a _ (by simp)) k c h
      · exact col ("scan_max_curvature", fun c => c.gridMaxCurvature) (by simp [scalarOutputs]) (c1a _ (by simp)) k c h
      · exact col ("scan_max_elongation", fun c => c.gridMaxElongation) (by simp [scalarOutputs]) (c1a _ (by simp)) k c h
      · exact col ("scan_min_L_grad_B", fun c => c.gridMinLGradB) (by simp [scalarOutputs]) (c1a _ (by simp)) k c h
      · exact col ("scan_standard_deviation_of_R", fun c => c.sdR) (by simp [scalarOutputs]) (c1a _ (by simp)) k c h
      · exact col ("scan_standard_deviation_of_Z", fun c => c.sdZ) (by simp [scalarOutputs]) (c1a _ (by simp)) k c h
    · exact ⟨_, scan_intVec hent hdims c1b hhel (by simp), by simp, by simp [h]⟩
    · simp only [List.mem_cons, List.not_mem_nil, or_false] at ha
      rcases ha with rfl | rfl | rfl | rfl
      · exact four ("scan_R0c", fun c => c.R0c) (by simp [fourierOutputs]) (c1c _ (by simp))
          (fun c hc => (h4 c hc).1) k c h
      · exact four ("scan_R0s", fun c => c.R0s) (by simp [fourierOutputs]) (c1c _ (by simp))
          (fun c hc => (h4 c hc).2.1) k c h
      · exact four ("scan_Z0c", fun c => c.Z0c) (by simp [fourierOutputs]) (c1c _ (by simp))
          (fun c hc => (h4 c hc).2.2.1) k c h
      · exact four ("scan_Z0s", fun c => c.Z0s) (by simp [fourierOutputs]) (c1c _ (by simp))
          (fun c hc => (h4 c hc).2.2.2) k c h
    · have hr := hr2.2 hne
      have cc : ∀ a ∈ ["scan_B2c", "scan_B2s", "scan_p2", "scan_min_L_grad_grad_B", "scan_B20_variation",
          "scan_B20_residual", "scan_r_singularity", "scan_d2_volume_d_psi2", "scan_DMerc_times_r2", "scan_beta"],
          vec 2 a a ∈ scanCalls ord.atLeastR2 keepAll := fun a h => up hr ((c2 hr).1.1.1 a h)
      simp only [List.mem_cons, List.not_mem_nil, or_false] at ha
      rcases ha with rfl | rfl | rfl | rfl | rfl | rfl | rfl | rfl | rfl | rfl
      · exact col ("scan_B2c", fun c => c.B2c) (by simp [scalarOutputs]) (cc _ (by simp)) k c h
      · exact col ("scan_B2s", fun c => c.B2s) (by simp [scalarOutputs]) (cc _ (by simp)) k c h
      · exact col ("scan_p2", fun c => c.p2) (by simp [scalarOutputs]) (cc _ (by simp)) k c h
      · exact col ("scan_min_L_grad_grad_B", fun c => c.gridMinLGradGradB) (by simp [scalarOutputs]) (cc _ (by simp)) k c h
      · exact col ("scan_B20_variation", fun c => c.b20Variation) (by simp [scalarOutputs]) (cc _ (by simp)) k c h
      · exact col ("scan_B20_residual", fun c => c.b20Residual) (by simp [scalarOutputs]) (cc _ (by simp)) k c h
      · exact col ("scan_r_singularity", fun c => c.rSingularity) (by simp [scalarOutputs]) (cc _ (by simp)) k c h
      · exact col ("scan_d2_volume_d_psi2", fun c => c.d2Volume) (by simp [scalarOutputs]) (cc _ (by simp)) k c h
      · exact col ("scan_DMerc_times_r2", fun c => c.dMerc) (by simp [scalarOutputs]) (cc _ (by simp)) k c h
      · exact col ("scan_beta", fun c => c.beta) (by simp [scalarOutputs]) (cc _ (by simp)) k c h
  · refine scan_int hent (c1d ("n_scan", "n_scan_int") (by simp)) ?_
    rw [scanScope_eq]
    simp [withLocals, List.lookup_cons, hb]
  · have c4 := scan_calls_counters ord.atLeastR2 keepAll
    simp only [Bool.and_eq_true, List.all_eq_true, decide_eq_true_eq] at c4
    intro x hx
    obtain ⟨⟨d1, d2⟩, d3⟩ := c4.1 x hx
    refine ⟨?_, fun b hb => ?_⟩
    · have := scan_big hent d1
      rwa [show o.bigs ("filters[" ++ x.2.2.1 ++ "]") = counter g x.2.1 by
        rw [obig]; exact bigs_counter d2] at this
    · rw [hb] at d3
      exact scan_flt hent (by simpa using d3) (hfr _ d2)
  · have c4 := scan_calls_counters ord.atLeastR2 keepAll
    simp only [Bool.and_eq_true, List.all_eq_true, decide_eq_true_eq] at c4
    exact scan_flt hent c4.2 (hfr ("KEPT", .kept) (by simp [counterNames]))
  · intro hne
    have hr := hr2.2 hne
    exact scan_flt hent (up hr (c2 hr).2) (hq ("q.p2", .flts [m.cand.p2]) (by simp [qMembers]))
  · intro a hm
    have c5 := scan_calls_grid ord.atLeastR2 keepAll
    simp only [Bool.and_eq_true, decide_eq_true_eq] at c5
    have g1 := hq ("q.d_phi", .flts [m.axis.elim junk fun a => a.dPhi]) (by simp [qMembers])
    have g2 := hq ("q.phi", .flts (Single.vector n (m.axis.elim (fun _ => 0) fun a => a.phi))) (by simp [qMembers])
    rw [hm] at g1 g2
    have h0 : dimAt f.dims 0 = ("nphi", n) := dimAt_prefix hdims (by simp)
    refine ⟨scan_flt hent c5.1 g1, Single.vector n a.phi, ⟨_, hent _ c5.2 _ rfl, rfl, by simp [h0], ?_⟩, ?_, ?_⟩
    · simp only [h0, g2]
      exact congrArg some (Output.first_all (by simp [size, Single.vector]))
    · simp [Single.vector]
    · intro j hj
      simp [Single.vector, hj]

end

end Qsc.ScanRun
