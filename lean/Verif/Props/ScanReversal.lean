import Verif.Lemmas.ScanReversal
import Verif.Props.Reversal
import Verif.Props.ScanRun

/-!
# A random scan with the opposite field (C107)
-/

namespace Qsc.ScanReversal
open Qsc.Netcdf Qsc.Spec.Netcdf Qsc.Toml Qsc.ScanRun Qsc.Reversal Qsc.Spec.Single Qsc.Spec.Reversal Qsc.Spec.ScanReversal
open Qsc.Spec.ScanRun
open Qsc.Scan (Local)

section
variable {N : Nat} {w : World N} {path name : List Char} {file file' : Sections.File ℝ} {r r' : Sections.ScanObj ℝ}
  {files files' : List (Netcdf.File ℝ)}

theorem sameExcept_turn (T : List String) (f : Netcdf.File ℝ) : SameExcept T f (turnFile T f) := ⟨rfl, contents_turn T f⟩

/-- **C107.** Two random scans whose input files have the same section `[scan]` and describe configurations with opposite
fields, with the same random numbers, clocks and libraries.  If the first one can end with these contents of its output
file, at the checkpoints and at the end, then the second one can end with the same contents, except for the signs of
`sG`, `spsi` and `I2`: the same configurations are kept, and the same numbers of attempts are rejected for the same
reasons. -/
theorem scan_opposite (ho : w.L.ops = Qsc.realOps)
    (hi : Sections.scanInput (fun i => (i : ℝ)) 0 file (Pipeline.scanNew w.L.lit w.L.single) = .ok r)
    (hi' : Sections.scanInput (fun i => (i : ℝ)) 0 file' (Pipeline.scanNew w.L.lit w.L.single) = .ok r')
    (hmem : r'.mem = r.mem) (hu : Opposite r.q r'.q) (h : Ends w path file name files) :
    ∃ files', Ends w path file' name files' ∧ List.Forall₂ (SameExcept signs) files files' := by
  have I := inputRel hu
  obtain ⟨hname, r2, n, ord, snaps, gs, m, s, h1, h2, h3, h4, h5, h6⟩ := h
  obtain rfl : r = r2 := by
    rw [hi] at h1
    injection h1
  have hw : ∀ (gs : List (Collect.Gathered ℝ)) (sn : List (Local ℝ × Members)) (files : List (Netcdf.File ℝ)),
      (gs.zip sn).mapM (fun x => write w.L.toF r n ord w.m0 w.junk x.1 x.2.2) = .ok files →
      (gs.zip (sn.map revX)).mapM (fun x => write w.L.toF r' n ord w.m0 w.junk x.1 x.2.2)
        = .ok (files.map (turnFile signs)) := by
    intro gs
    induction gs with
    | nil => intro sn files h; cases h; rfl
    | cons g gs ih =>
      intro sn files h
      cases sn with
      | nil => cases h; rfl
      | cons x sn =>
        rw [List.zip_cons_cons, List.mapM_cons] at h
        rw [List.map_cons, List.zip_cons_cons, List.mapM_cons]
        dsimp only at h ⊢
        rw [show (revX x).2 = revM x.2 from rfl, write_rev w.L.toF hmem I]
        cases hx : write w.L.toF r n ord w.m0 w.junk g x.2 with
        | error e => rw [hx] at h; cases h
        | ok f =>
          rw [hx] at h
          cases ht : (gs.zip sn).mapM (fun x => write w.L.toF r n ord w.m0 w.junk x.1 x.2.2) with
          | error e => rw [ht] at h; cases h
          | ok fs =>
            rw [ht] at h
            cases h
            simp only [Except.map, ih sn fs ht]
            rfl
  refine ⟨files.map (turnFile signs), ⟨hname, r', n, ord, fun i => (snaps i).map revX, gs, m, s, hi', ?_, ?_, h4, h5,
    hw _ _ _ h6⟩, ?_⟩
  · intro i
    rw [process_rev ho hmem I, h2 i]
    rfl
  · simp only [locals_rev, hmem]
    exact h3
  · rw [List.forall₂_map_right_iff]
    exact List.forall₂_same.2 fun f _ => sameExcept_turn signs f

theorem sameExcept_symm {T : List String} {f f' : Netcdf.File ℝ} (h : SameExcept T f f') : SameExcept T f' f := by
  refine ⟨h.1.symm, ?_⟩
  rw [h.2, List.map_map]
  conv_lhs => rw [← List.map_id (contents f)]
  refine List.map_congr_left fun e _ => ?_
  have hn : ∀ d : Data ℝ, negate (negate d) = d := by
    intro d
    cases d <;> simp [negate]
  simp only [Function.comp_apply, id]
  by_cases he : e.name ∈ T
  · simp only [he, if_true, Option.map_map]
    cases e with
    | mk a b c d x =>
      cases x <;> simp [hn]
  · simp only [he, if_false]

/-- **C107.** The second scan can end only in this way: whatever contents it can end with, the first one can end with
the same contents up to these signs. -/
theorem scan_opposite_iff (ho : w.L.ops = Qsc.realOps)
    (hi : Sections.scanInput (fun i => (i : ℝ)) 0 file (Pipeline.scanNew w.L.lit w.L.single) = .ok r)
    (hi' : Sections.scanInput (fun i => (i : ℝ)) 0 file' (Pipeline.scanNew w.L.lit w.L.single) = .ok r')
    (hmem : r'.mem = r.mem) (hu : Opposite r.q r'.q) :
    (∀ files, Ends w path file name files → ∃ files', Ends w path file' name files' ∧
      List.Forall₂ (SameExcept signs) files files') ∧
    ∀ files', Ends w path file' name files' → ∃ files, Ends w path file name files ∧
      List.Forall₂ (SameExcept signs) files files' := by
  refine ⟨fun files h => scan_opposite ho hi hi' hmem hu h, fun files' h => ?_⟩
  obtain ⟨files, h1, h2⟩ := scan_opposite ho hi' hi hmem.symm (OptReversal.opposite_symm hu) h
  exact ⟨files, h1, h2.flip.imp fun _ _ => sameExcept_symm⟩

/-- What the two files say about a variable. -/
theorem sameExcept_holds {T : List String} {f f' : Netcdf.File ℝ} (h : SameExcept T f f') {a : String}
    {dims : List (String × Nat)} {d : Data ℝ} (hd : Holds f a dims d) :
    Holds f' a dims (if a ∈ T then negate d else d) := by
  obtain ⟨e, h1, rfl, h3, h4⟩ := hd
  refine ⟨_, by rw [h.2]; exact List.mem_map.2 ⟨e, h1, rfl⟩, ?_⟩
  by_cases he : e.name ∈ T
  · simp only [if_pos he]
    exact ⟨trivial, h3, by simp [h4]⟩
  · simp only [if_neg he]
    exact ⟨trivial, h3, h4⟩

end

/-! ## An example -/

/-- The input file `exScan` with the opposite field. -/
noncomputable def exOppositeScan : Sections.File ℝ :=
  [("qsc", [("nfp", .int 4), ("nphi", .int 20), ("order_r_option", .str "r2"), ("sG", .int (-1)), ("spsi", .int (-1))]),
   ("scan", [("R0c_min", .arr [.flt 1, .flt (1 / 100)]), ("R0c_max", .arr [.flt 1, .flt (1 / 10)]),
    ("Z0s_min", .arr [.flt 0, .flt (1 / 100)]), ("Z0s_max", .arr [.flt 0, .flt (1 / 10)]),
    ("fourier_scan_option", .str "linear"), ("eta_bar_scan_option", .str "linear"),
    ("eta_bar_min", .flt (1 / 2)), ("eta_bar_max", .int 2), ("keep_all", .int 1), ("max_keep_per_proc", .int 10),
    ("max_attempts_per_proc", .int 1)])]

theorem exOppositeScan_read : ∃ r r', Sections.scanInput (fun i => (i : ℝ)) 0 exScan
      (Pipeline.scanNew Single.exLib.lit Single.exLib.single) = .ok r ∧
      Sections.scanInput (fun i => (i : ℝ)) 0 exOppositeScan
      (Pipeline.scanNew Single.exLib.lit Single.exLib.single) = .ok r' ∧ r'.mem = r.mem ∧ Opposite r.q r'.q := by
  have key : ∃ r r', Sections.scanInput (fun i => (i : ℝ)) 0 exScan
      (Pipeline.scanNew Single.exLib.lit Single.exLib.single) = .ok r ∧
      Sections.scanInput (fun i => (i : ℝ)) 0 exOppositeScan
      (Pipeline.scanNew Single.exLib.lit Single.exLib.single) = .ok r' ∧ r'.mem = r.mem ∧
      r'.q = { r.q with sG := -1, spsi := -1 } ∧ r.q.I2 = Single.exLib.lit "0.0" ∧ r.q.sG = 1 ∧ r.q.spsi = 1 :=
    ⟨_, _, rfl, rfl, rfl, rfl, rfl, rfl, rfl⟩
  obtain ⟨r, r', h1, h2, h3, h4, h5, h6, h7⟩ := key
  have hz : Single.exLib.lit "0.0" = 0 := by simp [Single.exLib]
  refine ⟨r, r', h1, h2, h3, ?_⟩
  unfold Opposite
  rw [h4, h5, h6, h7, hz, neg_zero]
  rw [hz] at h5
  cases hq : r.q
  rw [hq] at h5
  dsimp only at h5
  subst h5
  rfl

/-- On two processes the scan and the one with the opposite field end with the same two configurations, and with
opposite signs of the field. -/
example (w : World 1) (hL : w.L = Single.exLib) (hu : ∀ i k, 0 ≤ (w.proc i).u k ∧ (w.proc i).u k ≤ 1)
    (hc : ∀ i, (w.proc i).clock = [(true, false)]) : ∃ f f',
      Ends w "dir/qsc_in.torus".toList exScan "dir/qsc_out.torus.nc".toList [f] ∧
      Ends w "dir/qsc_in.torus".toList exOppositeScan "dir/qsc_out.torus.nc".toList [f'] ∧
      Integer f "n_scan" 2 ∧ Integer f' "n_scan" 2 ∧ Integer f "sG" 1 ∧ Integer f' "sG" (-1) ∧
      ∃ x, AxisColumn f 2 "scan_R0c" 1 [1, x] ∧ AxisColumn f' 2 "scan_R0c" 1 [1, x] := by
  obtain ⟨f, hE, -, h2, h3, x, -, -, h4⟩ := exScan_ends w hL hu hc
  obtain ⟨r, r', h5, h6, h7, h8⟩ := exOppositeScan_read
  obtain ⟨files', h9, h10⟩ := scan_opposite (by rw [hL]; rfl) (by rw [hL]; exact h5) (by rw [hL]; exact h6) h7 h8 hE
  obtain ⟨f', fs, h12, h11, rfl⟩ := List.forall₂_cons_left_iff.1 h10
  obtain rfl := List.forall₂_nil_left_iff.1 h11
  obtain ⟨n1, n2, n3⟩ : "n_scan" ∉ signs ∧ "sG" ∈ signs ∧ "scan_R0c" ∉ signs := by simp [signs]
  refine ⟨f, f', hE, h9, h2, ?_, h3, ?_, x, h4, ?_⟩
  · have := sameExcept_holds h12 h2
    rwa [if_neg n1] at this
  · have := sameExcept_holds h12 h3
    rw [if_pos n2] at this
    exact this
  · obtain ⟨l, a1, a2, a3⟩ := h4
    have := sameExcept_holds h12 a1
    rw [if_neg n3] at this
    exact ⟨l, this, a2, a3⟩

end Qsc.ScanReversal
