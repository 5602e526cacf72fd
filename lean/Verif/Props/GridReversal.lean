import Verif.Lemmas.GridReversal
import Verif.Props.MultiScanRun
import Verif.Props.ScanReversal

/-!
# A scan of multi-stage optimizations with the opposite field (C108)
-/

namespace Qsc.GridReversal
open Qsc.Netcdf Qsc.Spec.Netcdf Qsc.Toml Qsc.MultiScanRun Qsc.Reversal Qsc.Spec.Single Qsc.Spec.Reversal Qsc.Spec.ScanReversal
open Qsc.ScanReversal (sameExcept_turn sameExcept_symm sameExcept_holds)
open Qsc.Sections (OptObj MultiScanObj)

section
variable {W : Nat} {w : World W} {path name : List Char} {file file' : Sections.File ℝ} {r r' : MultiScanObj ℝ}
  {files files' : List (Netcdf.File ℝ)}

/-- **C108.** Two scans of multi-stage optimizations whose input files differ in the direction of the field only, with the
same libraries, the same answers of GSL and the same clocks.  If the first one can end with these contents of its output
file, at the checkpoints and at the end, then the second one can end with the same contents, except for the signs of
`sG`, `spsi` and `I2`: at every grid point the optimizations take the same steps, the same grid points are kept, and the
same numbers are rejected for the same reasons. -/
theorem grid_opposite (ho : w.L.ops = Qsc.realOps)
    (hi : Sections.multiScanInput (fun i => (i : ℝ)) 0 file (Pipeline.optNew w.L.lit w.L.single)
      (Pipeline.multiScanNew w.L.lit) = .ok r)
    (hi' : Sections.multiScanInput (fun i => (i : ℝ)) 0 file' (Pipeline.optNew w.L.lit w.L.single)
      (Pipeline.multiScanNew w.L.lit) = .ok r')
    (hmem : r'.mem = r.mem)
    (hu : List.Forall₂ (fun o o' : OptObj ℝ => o'.mem = o.mem ∧ Opposite o.q o'.q) r.ref.opts r'.ref.opts)
    (h : Ends w path file name files) :
    ∃ files', Ends w path file' name files' ∧ List.Forall₂ (SameExcept signs) files files' := by
  have hn : r'.ndim = r.ndim := by
    have e := ndim_size hi
    have e' := ndim_size hi'
    rw [hmem, e] at e'
    exact (Except.ok.inj e').symm
  obtain ⟨hname, r2, cfg, p, h1, h2⟩ := h
  have key : r2 = r ∧ MultiScanPipeline.start w.L.lit w.L.single file' = .ok (r', cfg, p) := by
    unfold MultiScanPipeline.start at h1 ⊢
    rw [hi] at h1
    rw [hi']
    simp only [MultiScanPipeline.lift, Except.bind] at h1 ⊢
    rw [init_rev hmem hn hu, hmem]
    cases hp : MultiScanPipeline.init r with
    | error e => rw [hp] at h1; cases h1
    | ok p2 =>
      rw [hp] at h1
      dsimp only at h1 ⊢
      cases hc : MultiScanPipeline.cfgOf r.mem with
      | error e => rw [hc] at h1; cases h1
      | ok c =>
        rw [hc] at h1
        cases h1
        exact ⟨rfl, rfl⟩
  obtain ⟨rfl, hst⟩ := key
  refine ⟨files.map (turnFile signs), ⟨hname, r', cfg, p, hst, ?_⟩, ?_⟩
  · rw [hmem]
    rcases h2 with ⟨a, rfl⟩ | ⟨a, res, k, t, m, sv, out, b1, b2, b3, b4, b5⟩
    · exact Or.inl ⟨a, rfl⟩
    · refine Or.inr ⟨a, res, k, t, m, sv, out, fun i hi => ?_, b2, b3, b4, ?_⟩
      · rw [evalPoint_rev ho (w.gsl i) hu]
        exact b1 i hi
      · clear b4
        revert b5
        generalize sv ++ [(m, out)] = l
        intro b5
        induction l generalizing files with
        | nil => cases b5; rfl
        | cons x l ih =>
          rw [List.mapM_cons] at b5 ⊢
          rw [write_rev w.L.toF hmem hu]
          cases hx : write w.L.toF r2 p w.m0 w.cpu x.1 x.2 with
          | error e => rw [hx] at b5; cases b5
          | ok f =>
            rw [hx] at b5
            cases ht : l.mapM (fun x => write w.L.toF r2 p w.m0 w.cpu x.1 x.2) with
            | error e => rw [ht] at b5; cases b5
            | ok fs =>
              rw [ht] at b5
              cases b5
              simp only [Except.map, ih ht]
              rfl
  · rw [List.forall₂_map_right_iff]
    exact List.forall₂_same.2 fun f _ => sameExcept_turn signs f

/-- **C108.** The second scan can end only in this way: whatever contents it can end with, the first one can end with
the same contents up to these signs. -/
theorem grid_opposite_iff (ho : w.L.ops = Qsc.realOps)
    (hi : Sections.multiScanInput (fun i => (i : ℝ)) 0 file (Pipeline.optNew w.L.lit w.L.single)
      (Pipeline.multiScanNew w.L.lit) = .ok r)
    (hi' : Sections.multiScanInput (fun i => (i : ℝ)) 0 file' (Pipeline.optNew w.L.lit w.L.single)
      (Pipeline.multiScanNew w.L.lit) = .ok r')
    (hmem : r'.mem = r.mem)
    (hu : List.Forall₂ (fun o o' : OptObj ℝ => o'.mem = o.mem ∧ Opposite o.q o'.q) r.ref.opts r'.ref.opts) :
    (∀ files, Ends w path file name files → ∃ files', Ends w path file' name files' ∧
      List.Forall₂ (SameExcept signs) files files') ∧
    ∀ files', Ends w path file' name files' → ∃ files, Ends w path file name files ∧
      List.Forall₂ (SameExcept signs) files files' := by
  refine ⟨fun files h => grid_opposite ho hi hi' hmem hu h, fun files' h => ?_⟩
  obtain ⟨files, h1, h2⟩ := grid_opposite ho hi' hi hmem.symm
    (hu.flip.imp fun _ _ h => ⟨h.1.symm, OptReversal.opposite_symm h.2⟩) h
  exact ⟨files, h1, h2.flip.imp fun _ _ => sameExcept_symm⟩

end

/-! ## An example -/

theorem append_left {α β : Type} {R : α → β → Prop} {l1 l2 : List α} {l : List β} (h : List.Forall₂ R (l1 ++ l2) l) :
    ∃ m1 m2, List.Forall₂ R l1 m1 ∧ List.Forall₂ R l2 m2 ∧ l = m1 ++ m2 := by
  induction l1 generalizing l with
  | nil => exact ⟨[], l, .nil, h, rfl⟩
  | cons a l1 ih =>
    obtain ⟨b, t, h1, h2, rfl⟩ := List.forall₂_cons_left_iff.1 h
    obtain ⟨m1, m2, h3, h4, rfl⟩ := ih h2
    exact ⟨b :: m1, m2, .cons h1 h3, h4, rfl⟩

/-- The input file `exGrid` with the opposite field. -/
noncomputable def exOppositeGrid : Sections.File ℝ :=
  [("qsc", [("order_r_option", .str "r2.1"), ("nfp", .int 4), ("nphi", .int 20), ("R0c", .arr [.flt 1, .flt (1 / 20)]),
    ("Z0s", .arr [.flt 0, .flt (1 / 20)]), ("eta_bar", .flt (3 / 2)), ("sG", .int (-1)), ("spsi", .int (-1))])] ++
    exGrid.drop 1

theorem exOppositeGrid_read : ∃ r r', Sections.multiScanInput (fun i => (i : ℝ)) 0 exGrid
      (Pipeline.optNew Single.exLib.lit Single.exLib.single) (Pipeline.multiScanNew Single.exLib.lit) = .ok r ∧
      Sections.multiScanInput (fun i => (i : ℝ)) 0 exOppositeGrid
      (Pipeline.optNew Single.exLib.lit Single.exLib.single) (Pipeline.multiScanNew Single.exLib.lit) = .ok r' ∧
      r'.mem = r.mem ∧
      List.Forall₂ (fun o o' : OptObj ℝ => o'.mem = o.mem ∧ Opposite o.q o'.q) r.ref.opts r'.ref.opts := by
  have key : ∃ r r' a b a' b', Sections.multiScanInput (fun i => (i : ℝ)) 0 exGrid
      (Pipeline.optNew Single.exLib.lit Single.exLib.single) (Pipeline.multiScanNew Single.exLib.lit) = .ok r ∧
      Sections.multiScanInput (fun i => (i : ℝ)) 0 exOppositeGrid
      (Pipeline.optNew Single.exLib.lit Single.exLib.single) (Pipeline.multiScanNew Single.exLib.lit) = .ok r' ∧
      r'.mem = r.mem ∧ r.ref.opts = [a, b] ∧ r'.ref.opts = [a', b'] ∧ a'.mem = a.mem ∧ b'.mem = b.mem ∧
      b.q = a.q ∧ b'.q = a'.q ∧
      a'.q = { a.q with sG := -1, spsi := -1 } ∧ a.q.I2 = Single.exLib.lit "0.0" ∧ a.q.sG = 1 ∧ a.q.spsi = 1 :=
    ⟨_, _, _, _, _, _, rfl, rfl, rfl, rfl, rfl, rfl, rfl, rfl, rfl, rfl, rfl, rfl, rfl⟩
  obtain ⟨r, r', a, b, a', b', h1, h2, h3, k1, k2, k3, k4, k5, k6, h4, h5, h6, h7⟩ := key
  have hz : Single.exLib.lit "0.0" = 0 := by simp [Single.exLib]
  have ho : Opposite a.q a'.q := by
    unfold Opposite
    rw [h4, h5, h6, h7, hz, neg_zero]
    rw [hz] at h5
    cases hq : a.q
    rw [hq] at h5
    dsimp only at h5
    subst h5
    rfl
  refine ⟨r, r', h1, h2, h3, ?_⟩
  rw [k1, k2]
  exact .cons ⟨k3, ho⟩ (.cons ⟨k4, by rw [k5, k6]; exact ho⟩ .nil)

/-- Whatever was saved before, the last contents of the two files have the same two grid points in order, each with its
weight, and opposite signs of the field. -/
example (m0 : Mem ℝ) (save : Nat → Bool) (time : Nat → ℝ) : ∃ files f files' f',
    Ends (exWorld m0 save time) "dir/qsc_in.torus".toList exGrid "dir/qsc_out.torus.nc".toList (files ++ [f]) ∧
    Ends (exWorld m0 save time) "dir/qsc_in.torus".toList exOppositeGrid "dir/qsc_out.torus.nc".toList (files' ++ [f']) ∧
    Integer f' "n_scan" 2 ∧ Integer f "sG" 1 ∧ Integer f' "sG" (-1) ∧
    Spec.ScanRun.Column f' 2 "scan_weight_B20" 0 1 ∧ Spec.ScanRun.Column f' 2 "scan_weight_B20" 1 4 := by
  obtain ⟨files, f, hE, h1, -, h2, h3, h4⟩ := exGrid_ends m0 save time
  obtain ⟨r, r', h5, h6, h7, h8⟩ := exOppositeGrid_read
  obtain ⟨fs, h9, h10⟩ := grid_opposite (w := exWorld m0 save time) rfl h5 h6 h7 h8 hE
  obtain ⟨files', g, -, h11, rfl⟩ := append_left h10
  obtain ⟨f', fs, h12, h13, rfl⟩ := List.forall₂_cons_left_iff.1 h11
  obtain rfl := List.forall₂_nil_left_iff.1 h13
  obtain ⟨n1, n2, n3⟩ : "n_scan" ∉ signs ∧ "sG" ∈ signs ∧ "scan_weight_B20" ∉ signs := by simp [signs]
  have col : ∀ i x, Spec.ScanRun.Column f 2 "scan_weight_B20" i x → Spec.ScanRun.Column f' 2 "scan_weight_B20" i x := by
    rintro i x ⟨l, a1, a2⟩
    have := sameExcept_holds h12 a1
    rw [if_neg n3] at this
    exact ⟨l, this, a2⟩
  refine ⟨files, f, files', f', hE, h9, ?_, h2, ?_, col _ _ h3, col _ _ h4⟩
  · have := sameExcept_holds h12 h1
    rwa [if_neg n1] at this
  · have := sameExcept_holds h12 h2
    rw [if_pos n2] at this
    exact this

end Qsc.GridReversal
